import Verif.Spec.Streamline
import Mathlib.Tactic.Linarith
import Mathlib.Tactic.FieldSimp
import Mathlib.Tactic.Ring
/-!
# Lemmas about tracing
-/
namespace Viscid.Streamline
open Viscid.Spec.Streamline
set_option linter.unusedSectionVars false
variable {K σ : Type} [Field K] [LinearOrder K]

/-- The result of one direction without the buffer. -/
structure Walk (σ K : Type) where
  pts : List (P3 K)
  flag : Nat
  a : Acc σ K
  n : Nat

def walk (c : Cfg K) (integ : Integ σ K) : Nat → Acc σ K → Walk σ K
  | 0, a => ⟨[], END_NONE, a, 0⟩
  | n + 1, a =>
    let r := advance c integ a
    if r.2 then ⟨[], END_ZERO_LENGTH, r.1, 1⟩
    else if classify c r.1.s r.1.len r.1.t ≠ END_NONE then ⟨[r.1.s], classify c r.1.s r.1.len r.1.t, r.1, 1⟩
    else
      let w := walk c integ n r.1
      ⟨r.1.s :: w.pts, w.flag, w.a, w.n + 1⟩

def putD (buf : List (Option (P3 K))) (it d : Int) : List (P3 K) → List (Option (P3 K))
  | [] => buf
  | p :: ps => putD (buf.set it.toNat (some p)) (it + d) d ps

theorem walk_len (c : Cfg K) (integ : Integ σ K) (n : Nat) (a : Acc σ K) : (walk c integ n a).pts.length ≤ n := by
  induction n generalizing a with
  | zero => simp [walk]
  | succ n ih =>
    unfold walk
    dsimp only
    split
    · simp
    · split
      · simp
      · simpa using ih _

theorem walk_calls (c : Cfg K) (integ : Integ σ K) (n : Nat) (a : Acc σ K) : (walk c integ n a).n ≤ n := by
  induction n generalizing a with
  | zero => simp [walk]
  | succ n ih =>
    unfold walk
    dsimp only
    split
    · simp
    · split
      · simp
      · simpa using ih _

theorem loop_walk (c : Cfg K) (integ : Integ σ K) (d : Int) (n : Nat) :
    ∀ (fuel : Nat) (L : Loop σ K), n ≤ fuel →
      (∀ k : Nat, k < n → 0 ≤ L.it + d * k ∧ L.it + d * k < 2 * (c.maxit : Int) + 1) →
      ¬ (0 ≤ L.it + d * n ∧ L.it + d * n < 2 * (c.maxit : Int) + 1) →
      (c.lines = true → L.buf.length = 2 * c.maxit + 1) →
      loop c integ d fuel L =
        .ok (⟨(walk c integ n L.a).a, L.it + d * (walk c integ n L.a).pts.length,
          (if c.lines then putD L.buf L.it d (walk c integ n L.a).pts else L.buf),
          L.nrSegs + (walk c integ n L.a).n⟩, (walk c integ n L.a).flag) := by
  induction n with
  | zero =>
    intro fuel L hf _ hout hb
    have hout' : ¬ (0 ≤ L.it ∧ L.it < 2 * (c.maxit : Int) + 1) := by simpa using hout
    have hgoal : loop c integ d fuel L = .ok (L, END_NONE) := by
      cases fuel with
      | zero => unfold loop; rw [if_neg hout']
      | succ f => unfold loop; rw [if_neg hout']
    rw [hgoal]
    simp [walk, putD]
  | succ n ih =>
    intro fuel L hf hin hout hb
    obtain ⟨f, rfl⟩ : ∃ f, fuel = f + 1 := ⟨fuel - 1, by omega⟩
    have h0 := hin 0 (by omega)
    simp only [Nat.cast_zero, mul_zero, add_zero] at h0
    unfold loop
    rw [if_pos h0]
    unfold body walk
    dsimp only
    by_cases hr : (advance c integ L.a).2 = true
    · simp only [hr, if_true]
      simp [putD, END_ZERO_LENGTH, END_NONE, END_OTHER]
    · simp only [hr]
      have hw : (if c.lines = true then write L.buf L.it (advance c integ L.a).1.s else Except.ok L.buf)
          = .ok (if c.lines then L.buf.set L.it.toNat (some (advance c integ L.a).1.s) else L.buf) := by
        by_cases hl : c.lines = true
        · rw [if_pos hl, if_pos hl, write, if_pos]
          rw [hb hl]
          push_cast
          exact h0
        · rw [if_neg hl, if_neg hl]
      rw [hw]
      dsimp only
      by_cases hcl : classify c (advance c integ L.a).1.s (advance c integ L.a).1.len (advance c integ L.a).1.t ≠ END_NONE
      · simp [hcl, putD]
      · simp only [hcl]
        have := ih f ⟨(advance c integ L.a).1, L.it + d,
          (if c.lines then L.buf.set L.it.toNat (some (advance c integ L.a).1.s) else L.buf), L.nrSegs + 1⟩ (by omega)
          (by
            intro k hk
            have := hin (k + 1) (by omega)
            push_cast at this
            rw [mul_add, mul_one] at this
            dsimp only
            constructor <;> omega)
          (by
            push_cast at hout
            rw [mul_add, mul_one] at hout
            dsimp only
            omega)
          (by
            intro hl
            simp only [hl, if_true, List.length_set]
            exact hb hl)
        dsimp only at this
        simp only [Bool.false_eq_true, if_false]
        rw [this]
        have e : L.it + d + d * ((walk c integ n (advance c integ L.a).1).pts.length : Int)
            = L.it + d * (((walk c integ n (advance c integ L.a).1).pts.length + 1 : Nat) : Int) := by push_cast; ring
        have hcl' := not_not.mp hcl
        have e2 : ∀ x : Nat, L.nrSegs + 1 + x = L.nrSegs + (x + 1) := by omega
        by_cases hl : c.lines = true
        · simp [hl, hcl', putD, e, e2, List.length_cons, -Nat.cast_add]
        · simp [hl, hcl', e, e2, List.length_cons, -Nat.cast_add]

theorem putD_length (buf : List (Option (P3 K))) (it d : Int) (ps : List (P3 K)) :
    (putD buf it d ps).length = buf.length := by
  induction ps generalizing buf it with
  | nil => rfl
  | cons p ps ih => simp [putD, ih]

theorem putD_other (ps : List (P3 K)) (d : Int) : ∀ (buf : List (Option (P3 K))) (it : Int) (j : Nat),
    (∀ k : Nat, k < ps.length → 0 ≤ it + d * k) →
    (∀ k : Nat, k < ps.length → (j : Int) ≠ it + d * k) →
    (putD buf it d ps)[j]? = buf[j]? := by
  induction ps with
  | nil => intros; rfl
  | cons p ps ih =>
    intro buf it j h0 hj
    unfold putD
    have e : ∀ k : Nat, it + d + d * (k : Int) = it + d * ((k + 1 : Nat) : Int) := by intro k; push_cast; ring
    rw [ih _ _ _ (fun k hk => by rw [e]; exact h0 (k + 1) (by simpa using hk))
      (fun k hk => by rw [e]; exact hj (k + 1) (by simpa using hk))]
    have h00 := h0 0 (by simp)
    have hj0 := hj 0 (by simp)
    simp only [Nat.cast_zero, mul_zero, add_zero] at h00 hj0
    rw [List.getElem?_set_ne]
    omega

theorem putD_at (ps : List (P3 K)) (d : Int) (hd : d = 1 ∨ d = -1) : ∀ (buf : List (Option (P3 K))) (it : Int),
    (∀ k : Nat, k < ps.length → 0 ≤ it + d * k ∧ it + d * k < buf.length) →
    ∀ (k : Nat) (p : P3 K), ps[k]? = some p → (putD buf it d ps)[(it + d * k).toNat]? = some (some p) := by
  induction ps with
  | nil => intro buf it _ k p h; simp at h
  | cons q ps ih =>
    intro buf it h0 k p hk
    unfold putD
    have e : ∀ k : Nat, it + d + d * (k : Int) = it + d * ((k + 1 : Nat) : Int) := by intro k; push_cast; ring
    cases k with
    | zero =>
      have h00 := h0 0 (by simp)
      simp only [Nat.cast_zero, mul_zero, add_zero] at h00 ⊢
      rw [putD_other]
      · rw [List.getElem?_set_self (by omega)]
        simpa using hk
      · intro k hk; rw [e]; exact (h0 (k + 1) (by simpa using hk)).1
      · intro k hk
        rcases hd with rfl | rfl
        · omega
        · omega
    | succ k =>
      rw [← e]
      apply ih
      · intro k hk
        rw [e, List.length_set]
        exact h0 (k + 1) (by simpa using hk)
      · simpa using hk

/-! ### Classification -/

theorem classify_spec (c : Cfg K) (p : P3 K) (len t : K) :
    (classify c p len t = 0 ∧ Inside c p ∧ ¬ (0 < c.maxLength ∧ c.maxLength ≤ len) ∧ ¬ (0 < c.maxT ∧ c.maxT ≤ t)) ∨
    (classify c p len t ≠ 0 ∧ Reason c p len t (classify c p len t)) := by
  have hrs : p.x ^ 2 + p.y ^ 2 + p.z ^ 2 = r2 p := by unfold r2; ring
  unfold classify
  simp only [hrs]
  simp only [pow_two]
  unfold Reason Inside
  split
  · split
    · right; simp [END_IBOUND_NORTH, END_IBOUND, *]
    · right; simp_all [END_IBOUND_SOUTH, END_IBOUND]
  · split
    · right; simp_all [END_OBOUND_R, END_OBOUND]
    · split
      · right; simp_all [END_OBOUND_XL, END_OBOUND]
      · split
        · right; simp_all [END_OBOUND_YL, END_OBOUND]
        · split
          · right; simp_all [END_OBOUND_ZL, END_OBOUND]
          · split
            · right; simp_all [END_OBOUND_XH, END_OBOUND]
            · split
              · right; simp_all [END_OBOUND_YH, END_OBOUND]
              · split
                · right; simp_all [END_OBOUND_ZH, END_OBOUND]
                · split
                  · right; simp_all [END_MAX_LENGTH, END_OTHER]
                  · split
                    · right; simp_all [END_MAX_T, END_OTHER]
                    · left
                      simp_all [END_NONE]
                      tauto

/-! ### One direction -/
omit [Field K] [LinearOrder K] in
theorem mem_dropLast_cons {x p : P3 K} {l : List (P3 K)} (h : p ∈ (x :: l).dropLast) : p = x ∨ p ∈ l.dropLast := by
  cases l with
  | nil => simp at h
  | cons y l => simpa using h

variable [IsStrictOrderedRing K]

/-- Holds at the top of every pass through the loop. -/
structure Inv (c : Cfg K) (a : Acc σ K) : Prop where
  trim : a.trim = 1
  len : 0 < c.maxLength → a.len < c.maxLength
  t : 0 < c.maxT → a.t < c.maxT

theorem advance_st (c : Cfg K) (integ : Integ σ K) (a : Acc σ K) :
    (advance c integ a).1.st = (integ a.st a.s a.ds a.dt).st ∧
    (advance c integ a).1.ds = (integ a.st a.s a.ds a.dt).ds ∧
    (advance c integ a).1.dt = (if 0 < c.maxT then (integ a.st a.s a.ds a.dt).dt else a.dt) ∧
    (advance c integ a).2 = ((integ a.st a.s a.ds a.dt).ret != 0) := ⟨rfl, rfl, rfl, rfl⟩

theorem advance_go (c : Cfg K) (integ : Integ σ K) (a : Acc σ K) (h : Inv c a)
    (hl : ¬ (0 < c.maxLength ∧ c.maxLength ≤ (advance c integ a).1.len))
    (ht : ¬ (0 < c.maxT ∧ c.maxT ≤ (advance c integ a).1.t)) :
    Inv c (advance c integ a).1 ∧ (advance c integ a).1.s = (integ a.st a.s a.ds a.dt).x := by
  have hlen : (advance c integ a).1.len = a.len + (if |(integ a.st a.s a.ds a.dt).ds| ≥ |a.ds| then |a.ds| else |(integ a.st a.s a.ds a.dt).ds|) := rfl
  have htt : (advance c integ a).1.t = a.t + (if c.maxT > 0 then |if c.maxT > 0 then (integ a.st a.s a.ds a.dt).dt else a.dt| else a.absDt) := rfl
  have n1 : ¬ (c.maxLength > 0 ∧ a.len + (if |(integ a.st a.s a.ds a.dt).ds| ≥ |a.ds| then |a.ds| else |(integ a.st a.s a.ds a.dt).ds|) > c.maxLength) := by
    rw [← hlen]; intro hh; exact hl ⟨hh.1, le_of_lt hh.2⟩
  have n2 : ¬ (c.maxT > 0 ∧ a.t + (if c.maxT > 0 then |if c.maxT > 0 then (integ a.st a.s a.ds a.dt).dt else a.dt| else a.absDt) > c.maxT) := by
    rw [← htt]; intro hh; exact ht ⟨hh.1, le_of_lt hh.2⟩
  have htrim : (advance c integ a).1.trim = 1 := by
    unfold advance
    dsimp only
    rw [if_neg n2, if_neg n1]
    exact h.trim
  refine ⟨⟨htrim, fun h0 => ?_, fun h0 => ?_⟩, ?_⟩
  · by_contra hh; exact hl ⟨h0, not_lt.mp hh⟩
  · by_contra hh; exact ht ⟨h0, not_lt.mp hh⟩
  · unfold advance at htrim ⊢
    dsimp only at htrim ⊢
    rw [htrim, if_neg (lt_irrefl 1)]

theorem advance_point (c : Cfg K) (integ : Integ σ K) (a : Acc σ K) (h : Inv c a) :
    (advance c integ a).1.s = (integ a.st a.s a.ds a.dt).x ∨
    ∃ τ, 0 < τ ∧ τ < 1 ∧ (advance c integ a).1.s = between a.s (integ a.st a.s a.ds a.dt).x τ := by
  set absDs := (if |(integ a.st a.s a.ds a.dt).ds| ≥ |a.ds| then |a.ds| else |(integ a.st a.s a.ds a.dt).ds|) with hds
  set absDt := (if c.maxT > 0 then |if c.maxT > 0 then (integ a.st a.s a.ds a.dt).dt else a.dt| else a.absDt) with hdt
  have p1 : c.maxLength > 0 ∧ a.len + absDs > c.maxLength → 0 < (c.maxLength - a.len) / absDs := by
    intro hh
    have := h.len hh.1
    apply div_pos <;> linarith [hh.2]
  have p2 : c.maxT > 0 ∧ a.t + absDt > c.maxT → 0 < (c.maxT - a.t) / absDt := by
    intro hh
    have := h.t hh.1
    apply div_pos <;> linarith [hh.2]
  have htrim : 0 < (advance c integ a).1.trim := by
    unfold advance
    dsimp only
    rw [← hds, ← hdt]
    have q1 : 0 < (if c.maxLength > 0 ∧ a.len + absDs > c.maxLength then (c.maxLength - a.len) / absDs else a.trim) := by
      split
      · exact p1 ‹_›
      · rw [h.trim]; exact one_pos
    generalize (if c.maxLength > 0 ∧ a.len + absDs > c.maxLength then (c.maxLength - a.len) / absDs else a.trim) = t1 at q1 ⊢
    split
    · split
      · exact p2 ‹_›
      · exact q1
    · exact q1
  by_cases hlt : (advance c integ a).1.trim < 1
  · right
    refine ⟨(advance c integ a).1.trim, htrim, hlt, ?_⟩
    unfold advance at hlt ⊢
    dsimp only at hlt ⊢
    rw [if_pos hlt]
    rfl
  · left
    unfold advance at hlt ⊢
    dsimp only at hlt ⊢
    rw [if_neg hlt]

/-- Everything about one direction except arc length. -/
theorem walk_spec (c : Cfg K) (integ : Integ σ K) (n : Nat) : ∀ a : Acc σ K, Inv c a →
    Follows integ (0 < c.maxT) a.st a.s a.ds a.dt (walk c integ n a).pts ∧
    (∀ p ∈ (walk c integ n a).pts.dropLast, Inside c p) ∧
    (((walk c integ n a).flag = 0 ∧ (walk c integ n a).pts.length = n ∧ ∀ p ∈ (walk c integ n a).pts, Inside c p) ∨
     ((walk c integ n a).flag = 69632 ∧ (walk c integ n a).pts.length < n ∧ ∀ p ∈ (walk c integ n a).pts, Inside c p) ∨
     ((walk c integ n a).flag ≠ 0 ∧ ∃ p len t, (walk c integ n a).pts.getLast? = some p ∧ Reason c p len t (walk c integ n a).flag)) := by
  induction n with
  | zero =>
    intro a _
    refine ⟨Follows.nil _ _ _ _, ?_, Or.inl ⟨rfl, rfl, ?_⟩⟩ <;> simp [walk]
  | succ n ih =>
    intro a ha
    obtain ⟨e1, e2, e3, e4⟩ := advance_st c integ a
    unfold walk
    dsimp only
    by_cases hr : (advance c integ a).2 = true
    · rw [if_pos hr]
      refine ⟨Follows.nil _ _ _ _, by simp, Or.inr (Or.inl ⟨rfl, by simp, by simp⟩)⟩
    · rw [if_neg hr]
      have hret : (integ a.st a.s a.ds a.dt).ret = 0 := by simpa [e4] using hr
      rcases classify_spec c (advance c integ a).1.s (advance c integ a).1.len (advance c integ a).1.t with ⟨hc, hin, hl, ht⟩ | ⟨hc, hre⟩
      · rw [if_neg (by simpa [END_NONE] using hc)]
        obtain ⟨hinv, hs⟩ := advance_go c integ a ha hl ht
        obtain ⟨f, d, r⟩ := ih _ hinv
        refine ⟨?_, ?_, ?_⟩
        · rw [hs]
          apply Follows.step _ _ _ _ _ hret
          rw [← e1, ← e2, ← e3, ← hs]
          exact f
        · intro p hp
          rcases mem_dropLast_cons hp with rfl | hp
          · exact hin
          · exact d p hp
        · rcases r with ⟨a1, a2, a3⟩ | ⟨a1, a2, a3⟩ | ⟨a1, p, len, t, a2, a3⟩
          · refine Or.inl ⟨a1, by simp [a2], ?_⟩
            intro p hp
            rcases List.mem_cons.mp hp with rfl | hp
            · exact hin
            · exact a3 p hp
          · refine Or.inr (Or.inl ⟨a1, by simpa using a2, ?_⟩)
            intro p hp
            rcases List.mem_cons.mp hp with rfl | hp
            · exact hin
            · exact a3 p hp
          · refine Or.inr (Or.inr ⟨a1, p, len, t, ?_, a3⟩)
            rw [List.getLast?_cons, a2]
            rfl
      · rw [if_pos (by simpa [END_NONE] using hc)]
        refine ⟨?_, by simp, Or.inr (Or.inr ⟨hc, _, _, _, rfl, hre⟩)⟩
        rcases advance_point c integ a ha with hs | ⟨τ, h0, h1, hs⟩
        · rw [hs]
          exact Follows.step _ _ _ _ _ hret (Follows.nil _ _ _ _)
        · rw [hs]
          exact Follows.last _ _ _ _ _ hret h0 h1

/-- The variables at the start of a direction. -/
def start (c : Cfg K) (d : Int) (x0 : P3 K) (absDt : K) (st : σ) : Acc σ K := ⟨x0, d * c.ds0, 0, 0, 0, absDt, 1, st⟩

theorem start_inv (c : Cfg K) (d : Int) (x0 : P3 K) (absDt : K) (st : σ) : Inv c (start c d x0 absDt st) :=
  ⟨rfl, fun h => h, fun h => h⟩

theorem runDir_walk (c : Cfg K) (integ : Integ σ K) (fuel : Nat) (d le : Int) (x0 : P3 K) (g : Glob σ K)
    (hf : c.maxit ≤ fuel) (hd : (d = 1 ∧ le = c.maxit + 1) ∨ (d = -1 ∧ le = c.maxit - 1))
    (hb : c.lines = true → g.buf.length = 2 * c.maxit + 1) :
    runDir c integ fuel d le x0 g = .ok
      (⟨if c.lines then putD g.buf le d (walk c integ c.maxit (start c d x0 g.absDt g.st)).pts else g.buf,
        (walk c integ c.maxit (start c d x0 g.absDt g.st)).a.absDt,
        (walk c integ c.maxit (start c d x0 g.absDt g.st)).a.st,
        g.nrSegs + (walk c integ c.maxit (start c d x0 g.absDt g.st)).n⟩,
       le + d * (walk c integ c.maxit (start c d x0 g.absDt g.st)).pts.length,
       if (walk c integ c.maxit (start c d x0 g.absDt g.st)).flag = 0 then 12288
       else (walk c integ c.maxit (start c d x0 g.absDt g.st)).flag) := by
  unfold runDir
  have := loop_walk c integ d c.maxit fuel ⟨start c d x0 g.absDt g.st, le, g.buf, g.nrSegs⟩ hf
    (by intro k hk; dsimp only; rcases hd with ⟨rfl, rfl⟩ | ⟨rfl, rfl⟩ <;> constructor <;> omega)
    (by dsimp only; rcases hd with ⟨rfl, rfl⟩ | ⟨rfl, rfl⟩ <;> omega)
    hb
  dsimp only at this
  unfold start at this ⊢
  rw [this]
  rfl

/-- What a direction contributes; a direction that is not traced contributes nothing. -/
def part (c : Cfg K) (integ : Integ σ K) (on : Prop) [Decidable on] (d : Int) (x0 : P3 K) (absDt : K) (st : σ) : Walk σ K :=
  if on then
    let w := walk c integ c.maxit (start c d x0 absDt st)
    ⟨w.pts, if w.flag = 0 then 12288 else w.flag, w.a, w.n⟩
  else ⟨[], 0, start c d x0 absDt st, 0⟩

theorem part_len (c : Cfg K) (integ : Integ σ K) (on : Prop) [Decidable on] (d : Int) (x0 : P3 K) (absDt : K) (st : σ) :
    (part c integ on d x0 absDt st).pts.length ≤ c.maxit ∧ (part c integ on d x0 absDt st).n ≤ c.maxit := by
  unfold part
  split
  · exact ⟨walk_len _ _ _ _, walk_calls _ _ _ _⟩
  · simp

theorem part_direction (c : Cfg K) (integ : Integ σ K) (on : Prop) [Decidable on] (d : Int) (x0 : P3 K) (absDt : K) (st : σ)
    (h : on) : Direction c integ x0 (d * c.ds0) (part c integ on d x0 absDt st).pts (part c integ on d x0 absDt st).flag := by
  unfold part
  rw [if_pos h]
  obtain ⟨f, i, r⟩ := walk_spec c integ c.maxit (start c d x0 absDt st) (start_inv c d x0 absDt st)
  refine ⟨⟨st, f⟩, walk_len _ _ _ _, i, ?_⟩
  dsimp only
  rcases r with ⟨a1, a2, a3⟩ | ⟨a1, a2, a3⟩ | ⟨a1, p, len, t, a2, a3⟩
  · left; rw [if_pos a1]; exact ⟨rfl, a2, a3⟩
  · right; left; rw [if_neg (by rw [a1]; decide)]; exact ⟨a1, a2, a3⟩
  · right; right; rw [if_neg a1]; exact ⟨p, len, t, a2, a3⟩

/-- The buffer between two lines. -/
def BufOk (c : Cfg K) (g : Glob σ K) : Prop :=
  (c.lines = true → g.buf.length = 2 * c.maxit + 1) ∧ (c.lines = false → g.buf = [])

theorem slice_eq (m : Nat) (buf : List (Option (P3 K))) (x0 : P3 K) (bs fs : List (P3 K))
    (hb : buf.length = 2 * m + 1) (h0 : bs.length ≤ m) (h1 : fs.length ≤ m) :
    ((putD (putD (buf.set m (some x0)) ((m : Int) - 1) (-1) bs) ((m : Int) + 1) 1 fs).take
      ((m : Int) + 1 + 1 * fs.length).toNat).drop ((m : Int) - 1 + -1 * bs.length + 1).toNat
      = (bs.reverse ++ x0 :: fs).map some := by
  have t1 : ((m : Int) + 1 + 1 * fs.length).toNat = m + 1 + fs.length := by omega
  have t0 : ((m : Int) - 1 + -1 * bs.length + 1).toNat = m - bs.length := by omega
  rw [t1, t0]
  apply List.ext_getElem?
  intro j
  rw [List.getElem?_drop]
  by_cases hj : m - bs.length + j < m + 1 + fs.length
  swap
  · rw [List.getElem?_eq_none (by rw [List.length_take]; omega), List.getElem?_eq_none (by simp; omega)]
  rw [List.getElem?_take_of_lt hj]
  by_cases hf : m + 1 ≤ m - bs.length + j
  · -- a forward vertex
    obtain ⟨k, hk⟩ : ∃ k, m - bs.length + j = m + 1 + k := ⟨m - bs.length + j - (m + 1), by omega⟩
    have hkl : k < fs.length := by omega
    have := putD_at fs 1 (Or.inl rfl) (putD (buf.set m (some x0)) ((m : Int) - 1) (-1) bs) ((m : Int) + 1)
      (by intro k hk; rw [putD_length, List.length_set, hb]; omega) k fs[k] (List.getElem?_eq_getElem hkl)
    rw [show ((m : Int) + 1 + 1 * k).toNat = m - bs.length + j from by omega] at this
    rw [this, List.map_append, List.getElem?_append_right (by simp; omega)]
    rw [show j - (List.map some bs.reverse).length = k + 1 from by simp; omega]
    simp [hkl]
  · rw [putD_other fs 1 _ _ _ (by intro k hk; omega) (by intro k hk; omega)]
    by_cases hs : m - bs.length + j = m
    · rw [putD_other bs (-1) _ _ _ (by intro k hk; omega) (by intro k hk; omega), hs]
      rw [List.getElem?_set_self (by omega), List.map_append, List.getElem?_append_right (by simp; omega)]
      rw [show j - (List.map some bs.reverse).length = 0 from by simp; omega]
      rfl
    · obtain ⟨k, hk⟩ : ∃ k, m - bs.length + j + k + 1 = m := ⟨m - 1 - (m - bs.length + j), by omega⟩
      have hkl : k < bs.length := by omega
      have := putD_at bs (-1) (Or.inr rfl) (buf.set m (some x0)) ((m : Int) - 1)
        (by intro k hk; rw [List.length_set, hb]; omega) k bs[k] (List.getElem?_eq_getElem hkl)
      rw [show ((m : Int) - 1 + -1 * k).toNat = m - bs.length + j from by omega] at this
      rw [this, List.map_append, List.getElem?_append_left (by simp; omega)]
      rw [List.getElem?_map, List.getElem?_reverse (by omega)]
      rw [show bs.length - 1 - j = k from by omega, List.getElem?_eq_getElem hkl]
      rfl

theorem runLine_spec (c : Cfg K) (integ : Integ σ K) (fuel : Nat) (x0 : P3 K) (g : Glob σ K)
    (hf : c.maxit ≤ fuel) (hg : BufOk c g) :
    ∃ g' : Glob σ K, BufOk c g' ∧
      let b := part c integ (c.streamDir &&& 2 ≠ 0) (-1) x0 g.absDt g.st
      let f := part c integ (c.streamDir &&& 1 ≠ 0) 1 x0 b.a.absDt b.a.st
      g'.st = f.a.st ∧ g'.absDt = f.a.absDt ∧ g'.nrSegs = g.nrSegs + b.n + f.n ∧
      runLine c integ fuel x0 g =
        .ok (g', ⟨if c.lines then (b.pts.reverse ++ x0 :: f.pts).map some else [], b.flag ||| f.flag⟩) := by
  dsimp only
  obtain ⟨hg1, hg2⟩ := hg
  -- the buffer with the seed
  have hw : (if c.lines = true then write g.buf c.maxit x0 else Except.ok g.buf)
      = .ok (if c.lines then g.buf.set c.maxit (some x0) else g.buf) := by
    by_cases hl : c.lines = true
    · rw [if_pos hl, if_pos hl, write, if_pos]
      · simp
      · rw [hg1 hl]; omega
    · rw [if_neg hl, if_neg hl]
  have hd0 : (if c.streamDir &&& DIR_BACKWARD ≠ 0 then runDir c integ fuel (-1) (c.maxit - 1) x0
        { g with buf := if c.lines then g.buf.set c.maxit (some x0) else g.buf }
      else .ok ({ g with buf := if c.lines then g.buf.set c.maxit (some x0) else g.buf }, (c.maxit : Int) - 1, END_NONE))
      = (.ok (⟨if c.lines then putD (g.buf.set c.maxit (some x0)) ((c.maxit : Int) - 1) (-1)
                (part c integ (c.streamDir &&& 2 ≠ 0) (-1) x0 g.absDt g.st).pts else g.buf,
          (part c integ (c.streamDir &&& 2 ≠ 0) (-1) x0 g.absDt g.st).a.absDt,
          (part c integ (c.streamDir &&& 2 ≠ 0) (-1) x0 g.absDt g.st).a.st,
          g.nrSegs + (part c integ (c.streamDir &&& 2 ≠ 0) (-1) x0 g.absDt g.st).n⟩,
         (c.maxit : Int) - 1 + -1 * (part c integ (c.streamDir &&& 2 ≠ 0) (-1) x0 g.absDt g.st).pts.length,
         (part c integ (c.streamDir &&& 2 ≠ 0) (-1) x0 g.absDt g.st).flag) : Except Err (Glob σ K × Int × Nat)) := by
    unfold part
    by_cases hon : c.streamDir &&& 2 ≠ 0
    · rw [if_pos (show c.streamDir &&& DIR_BACKWARD ≠ 0 from hon), if_pos hon]
      rw [runDir_walk c integ fuel (-1) _ x0 _ hf (Or.inr ⟨rfl, rfl⟩) (by intro hl; simp [hl, hg1 hl])]
      by_cases hl : c.lines = true <;> simp [hl]
    · rw [if_neg (show ¬ c.streamDir &&& DIR_BACKWARD ≠ 0 from hon), if_neg hon]
      by_cases hl : c.lines = true <;> simp [hl, putD, start, END_NONE]
  generalize hbdef : part c integ (c.streamDir &&& 2 ≠ 0) (-1) x0 g.absDt g.st = b at hd0 ⊢
  have hblen : b.pts.length ≤ c.maxit := by rw [← hbdef]; exact (part_len _ _ _ _ _ _ _).1
  have hd1 : ∀ g1 : Glob σ K, (c.lines = true → g1.buf.length = 2 * c.maxit + 1) → g1.absDt = b.a.absDt → g1.st = b.a.st →
     (if c.streamDir &&& DIR_FORWARD ≠ 0 then runDir c integ fuel 1 (c.maxit + 1) x0 g1
      else .ok (g1, (c.maxit : Int) + 1, END_NONE))
      = (.ok (⟨if c.lines then putD g1.buf ((c.maxit : Int) + 1) 1
                (part c integ (c.streamDir &&& 1 ≠ 0) 1 x0 b.a.absDt b.a.st).pts else g1.buf,
          (part c integ (c.streamDir &&& 1 ≠ 0) 1 x0 b.a.absDt b.a.st).a.absDt,
          (part c integ (c.streamDir &&& 1 ≠ 0) 1 x0 b.a.absDt b.a.st).a.st,
          g1.nrSegs + (part c integ (c.streamDir &&& 1 ≠ 0) 1 x0 b.a.absDt b.a.st).n⟩,
         (c.maxit : Int) + 1 + 1 * (part c integ (c.streamDir &&& 1 ≠ 0) 1 x0 b.a.absDt b.a.st).pts.length,
         (part c integ (c.streamDir &&& 1 ≠ 0) 1 x0 b.a.absDt b.a.st).flag) : Except Err (Glob σ K × Int × Nat)) := by
    intro g1 h1 h2 h3
    unfold part
    by_cases hon : c.streamDir &&& 1 ≠ 0
    · rw [if_pos (show c.streamDir &&& DIR_FORWARD ≠ 0 from hon), if_pos hon]
      rw [runDir_walk c integ fuel 1 _ x0 _ hf (Or.inl ⟨rfl, rfl⟩) h1, h2, h3]
    · rw [if_neg (show ¬ c.streamDir &&& DIR_FORWARD ≠ 0 from hon), if_neg hon]
      by_cases hl : c.lines = true <;> simp [hl, putD, start, END_NONE, ← h2, ← h3]
  have hflen := (part_len c integ (c.streamDir &&& 1 ≠ 0) 1 x0 b.a.absDt b.a.st).1
  generalize part c integ (c.streamDir &&& 1 ≠ 0) 1 x0 b.a.absDt b.a.st = f at hd1 hflen ⊢
  have hd1' := hd1 ⟨if c.lines then putD (g.buf.set c.maxit (some x0)) ((c.maxit : Int) - 1) (-1) b.pts else g.buf,
    b.a.absDt, b.a.st, g.nrSegs + b.n⟩ (by intro hl; simp [hl, putD_length, hg1 hl]) rfl rfl
  refine ⟨⟨if c.lines then putD (putD (g.buf.set c.maxit (some x0)) ((c.maxit : Int) - 1) (-1) b.pts) ((c.maxit : Int) + 1) 1 f.pts
    else g.buf, f.a.absDt, f.a.st, g.nrSegs + b.n + f.n⟩, ⟨?_, ?_⟩, rfl, rfl, rfl, ?_⟩
  · intro hl; simp [hl, putD_length, hg1 hl]
  · intro hl; simp [hl, hg2 hl]
  · unfold runLine
    rw [hw]
    dsimp only
    rw [hd0]
    dsimp only
    rw [hd1']
    dsimp only
    by_cases hl : c.lines = true
    · simp only [hl, if_true, END_NONE]
      rw [slice_eq c.maxit g.buf x0 b.pts f.pts (hg1 hl) hblen hflen]
      simp
    · simp only [hl]
      rw [hg2 (by simpa using hl)]
      simp [END_NONE]

theorem runLines_spec (c : Cfg K) (integ : Integ σ K) (fuel : Nat) (hf : c.maxit ≤ fuel) (seeds : List (P3 K)) :
    ∀ g : Glob σ K, BufOk c g →
    ∃ (g' : Glob σ K) (ls : List (Line K)), runLines c integ fuel seeds g = .ok (g', ls) ∧ ls.length = seeds.length ∧
      g'.nrSegs ≤ g.nrSegs + 2 * c.maxit * seeds.length ∧
      ∀ (i : Nat) (x0 : P3 K), seeds[i]? = some x0 → ∃ (st : σ) (absDt : K),
        let b := part c integ (c.streamDir &&& 2 ≠ 0) (-1) x0 absDt st
        let f := part c integ (c.streamDir &&& 1 ≠ 0) 1 x0 b.a.absDt b.a.st
        ls[i]? = some ⟨if c.lines then (b.pts.reverse ++ x0 :: f.pts).map some else [], b.flag ||| f.flag⟩ := by
  induction seeds with
  | nil =>
    intro g hg
    exact ⟨g, [], rfl, rfl, by simp, by simp⟩
  | cons x xs ih =>
    intro g hg
    obtain ⟨g1, hg1, h1, h2, h3, h4⟩ := runLine_spec c integ fuel x g hf hg
    obtain ⟨g2, ls, k1, k2, k3, k4⟩ := ih g1 hg1
    obtain ⟨l, hl⟩ : ∃ l : Line K, runLine c integ fuel x g = .ok (g1, l) := ⟨_, h4⟩
    rw [hl] at h4
    simp only [Except.ok.injEq, Prod.mk.injEq, true_and] at h4
    refine ⟨g2, l :: ls, ?_, ?_, ?_, ?_⟩
    · unfold runLines
      rw [hl]
      dsimp only
      rw [k1]
    · simp [k2]
    · have := (part_len c integ (c.streamDir &&& 2 ≠ 0) (-1) x g.absDt g.st).2
      have := (part_len c integ (c.streamDir &&& 1 ≠ 0) 1 x
        (part c integ (c.streamDir &&& 2 ≠ 0) (-1) x g.absDt g.st).a.absDt
        (part c integ (c.streamDir &&& 2 ≠ 0) (-1) x g.absDt g.st).a.st).2
      rw [List.length_cons, Nat.mul_add]
      omega
    · intro i x0 hi
      cases i with
      | zero =>
        simp only [List.getElem?_cons_zero, Option.some.injEq] at hi
        subst hi
        exact ⟨g.st, g.absDt, by rw [h4]; rfl⟩
      | succ i => exact k4 i x0 (by simpa using hi)

/-! ### Arc length -/

theorem advance_fixed (c : Cfg K) (integ : Integ σ K) (a : Acc σ K) (hfix : ∀ st p ds dt, (integ st p ds dt).ds = ds)
    (hT : c.maxT ≤ 0) (hL : 0 < c.maxLength) (ha : Inv c a) (hpos : 0 < |a.ds|) :
    (advance c integ a).1.len = a.len + |a.ds| ∧ (advance c integ a).1.ds = a.ds ∧ (advance c integ a).1.dt = a.dt ∧
    (|a.ds| ≤ c.maxLength - a.len → (advance c integ a).1.s = (integ a.st a.s a.ds a.dt).x) ∧
    (c.maxLength - a.len < |a.ds| → (advance c integ a).1.s
      = between a.s (integ a.st a.s a.ds a.dt).x ((c.maxLength - a.len) / |a.ds|)) := by
  have hT' : ¬ c.maxT > 0 := not_lt.mpr hT
  have hds : (if |(integ a.st a.s a.ds a.dt).ds| ≥ |a.ds| then |a.ds| else |(integ a.st a.s a.ds a.dt).ds|) = |a.ds| := by
    rw [hfix]; simp
  unfold advance
  simp only [hds, hT', if_false, false_and]
  refine ⟨trivial, hfix _ _ _ _, trivial, ?_, ?_⟩
  · intro h
    rw [if_neg (show ¬ (c.maxLength > 0 ∧ a.len + |a.ds| > c.maxLength) by intro hh; linarith [hh.2]), ha.trim,
      if_neg (lt_irrefl 1)]
  · intro h
    rw [if_pos (show (c.maxLength > 0 ∧ a.len + |a.ds| > c.maxLength) from ⟨hL, by linarith⟩)]
    rw [if_pos (by rw [div_lt_one hpos]; exact h)]
    rfl

theorem walk_fixed (c : Cfg K) (integ : Integ σ K) (hfix : ∀ st p ds dt, (integ st p ds dt).ds = ds)
    (hT : c.maxT ≤ 0) (hL : 0 < c.maxLength) (n : Nat) : ∀ a : Acc σ K, Inv c a → 0 < |a.ds| → a.dt = 0 →
    FollowsLen integ |a.ds| (c.maxLength - a.len) a.st a.s a.ds (walk c integ n a).pts ∧
    ((walk c integ n a).flag = 20480 → c.maxLength ≤ a.len + (walk c integ n a).pts.length * |a.ds|) ∧
    ((walk c integ n a).flag = 0 ∨ (walk c integ n a).flag = 69632 →
      a.len + (walk c integ n a).pts.length * |a.ds| < c.maxLength) := by
  induction n with
  | zero =>
    intro a ha _ _
    refine ⟨FollowsLen.nil _ _ _ _, ?_, ?_⟩
    · simp [walk, END_NONE]
    · intro _; simpa [walk] using ha.len hL
  | succ n ih =>
    intro a ha hpos hdt
    obtain ⟨e1, e2, e3, e4⟩ := advance_st c integ a
    obtain ⟨l1, l2, l3, l4, l5⟩ := advance_fixed c integ a hfix hT hL ha hpos
    have hrem : 0 < c.maxLength - a.len := by linarith [ha.len hL]
    rw [hdt] at l4 l5 e1 e4
    unfold walk
    dsimp only
    by_cases hr : (advance c integ a).2 = true
    · rw [if_pos hr]
      refine ⟨FollowsLen.nil _ _ _ _, ?_, ?_⟩
      · simp [END_ZERO_LENGTH, END_OTHER]
      · intro _; simpa using ha.len hL
    · rw [if_neg hr]
      have hret : (integ a.st a.s a.ds 0).ret = 0 := by simpa [e4] using hr
      rcases classify_spec c (advance c integ a).1.s (advance c integ a).1.len (advance c integ a).1.t with ⟨hc, hin, hl, ht⟩ | ⟨hc, hre⟩
      · rw [if_neg (by simpa [END_NONE] using hc)]
        obtain ⟨hinv, hs⟩ := advance_go c integ a ha hl ht
        rw [l1] at hl
        have hlt : a.len + |a.ds| < c.maxLength := by
          by_contra hh; exact hl ⟨hL, not_lt.mp hh⟩
        obtain ⟨f, d, r⟩ := ih _ hinv (by rw [l2]; exact hpos) (by rw [l3]; exact hdt)
        rw [l2, l1] at f d r
        refine ⟨?_, ?_, ?_⟩
        · rw [l4 (by linarith)]
          apply FollowsLen.step _ _ _ _ _ hret hrem (by linarith)
          rw [show c.maxLength - a.len - |a.ds| = c.maxLength - (a.len + |a.ds|) by ring, ← e1, ← l4 (by linarith)]
          exact f
        · intro h
          have := d h
          push_cast [List.length_cons]
          linarith
        · intro h
          have := r h
          push_cast [List.length_cons]
          linarith
      · rw [if_pos (by simpa [END_NONE] using hc)]
        refine ⟨?_, ?_, ?_⟩
        · by_cases hh : |a.ds| ≤ c.maxLength - a.len
          · rw [l4 hh]
            exact FollowsLen.step _ _ _ _ _ hret hrem hh (FollowsLen.nil _ _ _ _)
          · rw [l5 (not_le.mp hh)]
            exact FollowsLen.cut _ _ _ _ hret hrem (not_le.mp hh)
        · intro h
          dsimp only at h
          rw [h] at hre
          unfold Reason at hre
          simp at hre
          simp only [List.length_cons, List.length_nil, zero_add, Nat.cast_one, one_mul]
          rw [l1] at hre
          linarith [hre.2]
        · intro h
          dsimp only at h
          exfalso
          rcases h with h | h
          · exact hc h
          · rw [h] at hre
            unfold Reason at hre
            simp at hre

/-! ### Travel time -/

/-- Time runs one way: forwards for sgn = 1, backwards for sgn = -1. -/
def OneWay (integ : Integ σ K) (sgn : K) : Prop :=
  ∀ st p ds dt, 0 ≤ sgn * ds → 0 ≤ sgn * (integ st p ds dt).ds ∧ 0 ≤ sgn * ((integ st p ds dt).dt - dt)

theorem walk_time (c : Cfg K) (integ : Integ σ K) (sgn : K) (hs : sgn = 1 ∨ sgn = -1) (hw : OneWay integ sgn)
    (hT : 0 < c.maxT) (n : Nat) : ∀ a : Acc σ K, Inv c a → 0 ≤ sgn * a.ds → 0 ≤ sgn * a.dt → sgn * a.dt ≤ a.t →
    ∀ i : Nat, i + 1 < (walk c integ n a).pts.length → sgn * elapsed integ (i + 1) a.st a.s a.ds a.dt < c.maxT := by
  induction n with
  | zero => intro a _ _ _ _ i hi; simp [walk] at hi
  | succ n ih =>
    intro a ha hds hdt hle i hi
    obtain ⟨e1, e2, e3, e4⟩ := advance_st c integ a
    rw [if_pos hT] at e3
    obtain ⟨w1, w2⟩ := hw a.st a.s a.ds a.dt hds
    have ht : (advance c integ a).1.t = a.t + |(integ a.st a.s a.ds a.dt).dt| := by
      unfold advance; simp [hT]
    have hab : |(integ a.st a.s a.ds a.dt).dt| = sgn * (integ a.st a.s a.ds a.dt).dt := by
      rcases hs with rfl | rfl
      · rw [abs_of_nonneg (by linarith)]; ring
      · rw [abs_of_nonpos (by linarith)]; ring
    have ht0 : 0 ≤ a.t := le_trans hdt hle
    unfold walk at hi
    dsimp only at hi
    by_cases hr : (advance c integ a).2 = true
    · rw [if_pos hr] at hi; simp at hi
    · rw [if_neg hr] at hi
      rcases classify_spec c (advance c integ a).1.s (advance c integ a).1.len (advance c integ a).1.t with ⟨hc, hin, hl, htt⟩ | ⟨hc, hre⟩
      · rw [if_neg (by simpa [END_NONE] using hc)] at hi
        obtain ⟨hinv, hss⟩ := advance_go c integ a ha hl htt
        have hlt : a.t + |(integ a.st a.s a.ds a.dt).dt| < c.maxT := by
          rw [← ht]; exact hinv.t hT
        cases i with
        | zero =>
          simp only [elapsed]
          rw [← hab]
          linarith
        | succ i =>
          have := ih (advance c integ a).1 hinv (by rw [e2]; exact w1) (by rw [e3]; linarith [mul_sub sgn (integ a.st a.s a.ds a.dt).dt a.dt])
            (by rw [e3, ht, hab]; linarith) i (by simpa using hi)
          rw [e1, e2, e3, hss] at this
          exact this
      · rw [if_pos (by simpa [END_NONE] using hc)] at hi
        simp at hi

end Viscid.Streamline
