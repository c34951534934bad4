import Verif.Spec.Fluid
import Mathlib.Tactic.Linarith
import Mathlib.Tactic.LinearCombination
import Mathlib.Tactic.Ring
import Mathlib.Tactic.FieldSimp
import Mathlib.Tactic.NormNum
import Mathlib.Tactic.Positivity
import Mathlib.Tactic.Push
import Mathlib.Algebra.Order.Archimedean.Basic
import Mathlib.Data.Rat.Floor
/-!
# C133 following fluid elements, C134 fields between times, C135 curators of seeds
-/
namespace Viscid.Props
open Viscid.Fluid Viscid.Spec.Fluid

variable {S : Type}

/-- consecutive steps from the `k`-th to before the `m`-th -/
inductive Chain (next : ℚ → ℚ → S → S) (T : Nat → ℚ) (dt dtI D : ℚ) : Nat → S → List (Step S) → Nat → S → Prop
  | nil {k s} : Chain next T dt dtI D k s [] k s
  | cons {k j : Nat} {s : S} {l : List (Step S)} {m : Nat} {s' : S} : (k : ℚ) * dt ≤ D → j ≤ k → ((k : ℚ) - j) * dt < dtI →
      Chain next T dt dtI D (k + 1) (next (T j) (T k) s) l m s' → Chain next T dt dtI D k s (⟨T k, T j, s⟩ :: l) m s'

theorem Chain.append {next : ℚ → ℚ → S → S} {T : Nat → ℚ} {dt dtI D : ℚ} {k m n : Nat} {s s' s'' : S} {l l' : List (Step S)}
    (h : Chain next T dt dtI D k s l m s') (h' : Chain next T dt dtI D m s' l' n s'') :
    Chain next T dt dtI D k s (l ++ l') n s'' := by
  induction h with
  | nil => exact h'
  | cons h1 h2 h3 _ ih => exact .cons h1 h2 h3 (ih h')

theorem Chain.length {next : ℚ → ℚ → S → S} {T : Nat → ℚ} {dt dtI D : ℚ} {k m : Nat} {s s' : S} {l : List (Step S)}
    (h : Chain next T dt dtI D k s l m s') : m = k + l.length := by
  induction h with
  | nil => rfl
  | cons _ _ _ _ ih => rw [ih, List.length_cons]; omega

theorem Chain.get {next : ℚ → ℚ → S → S} {T : Nat → ℚ} {dt dtI D : ℚ} {k m : Nat} {s s' : S} {l : List (Step S)}
    (h : Chain next T dt dtI D k s l m s') (i : Nat) (x : Step S) (hi : l[i]? = some x) :
    x.t = T (k + i) ∧ ((k + i : Nat) : ℚ) * dt ≤ D ∧ ∃ j, j ≤ k + i ∧ x.tfld = T j ∧ (((k + i : Nat) : ℚ) - j) * dt < dtI := by
  induction h generalizing i with
  | nil => simp at hi
  | @cons k j s l m s' h1 h2 h3 _ ih =>
    cases i with
    | zero =>
      simp only [List.getElem?_cons_zero, Option.some.injEq] at hi
      subst hi
      exact ⟨rfl, h1, j, h2, rfl, h3⟩
    | succ i =>
      have := ih i (by simpa using hi)
      rw [show k + 1 + i = k + (i + 1) by omega] at this
      exact this

theorem Chain.next {next : ℚ → ℚ → S → S} {T : Nat → ℚ} {dt dtI D : ℚ} {k m : Nat} {s s' : S} {l : List (Step S)}
    (h : Chain next T dt dtI D k s l m s') : (∀ x, l.head? = some x → x.seeds = s) ∧
      ∀ (i : Nat) (x y : Step S), l[i]? = some x → l[i + 1]? = some y → y.seeds = next x.tfld x.t x.seeds := by
  induction h with
  | nil => simp
  | @cons k j s l m s' h1 h2 h3 _ ih =>
    refine ⟨by simp, ?_⟩
    intro i x y hx hy
    cases i with
    | zero =>
      simp only [List.getElem?_cons_zero, Option.some.injEq] at hx
      subst hx
      simp only [Nat.zero_add, List.getElem?_cons_succ] at hy
      exact ih.1 y (by rw [← hy, List.head?_eq_getElem?])
    | succ i => exact ih.2 i x y (by simpa using hx) (by simpa using hy)

theorem inner_chain (u : Setup) (next : ℚ → ℚ → S → S) (hd : u.tdir * u.tdir = 1) (hdt : 0 < u.dt) (D : ℚ)
    (hD : D = u.tdir * (u.tstop - u.tstart)) (T : Nat → ℚ) (hT : ∀ k : Nat, T k = u.tstart + u.tdir * (k * u.dt)) (j n k : Nat) (s : S)
    (hj : j ≤ k) (hn : D < (k + n : Nat) * u.dt) :
    ∃ m s', (inner u next (T j + u.tdir * u.dtInterp) (T j) n (T k) s).2 = (T m, s') ∧
      Chain next T u.dt u.dtInterp D k s (inner u next (T j + u.tdir * u.dtInterp) (T j) n (T k) s).1 m s' ∧
      (((k : ℚ) - j) * u.dt < u.dtInterp → (k : ℚ) * u.dt ≤ D → k < m) := by
  induction n generalizing k s with
  | zero =>
    refine ⟨k, s, rfl, .nil, fun _ h => ?_⟩
    simp only [Nat.add_zero] at hn
    linarith
  | succ n ih =>
    have c1 : u.tdir * (T k - (T j + u.tdir * u.dtInterp)) = ((k : ℚ) - j) * u.dt - u.dtInterp := by
      rw [hT, hT]
      linear_combination (((k : ℚ) - j) * u.dt - u.dtInterp) * hd
    have c2 : u.tdir * (T k - u.tstop) = (k : ℚ) * u.dt - D := by
      rw [hT, hD]
      linear_combination ((k : ℚ) * u.dt) * hd
    unfold inner
    rw [c1, c2]
    by_cases h : ((k : ℚ) - j) * u.dt - u.dtInterp < 0 ∧ (k : ℚ) * u.dt - D ≤ 0
    · rw [if_pos h]
      have hs : T k + u.tdir * u.dt = T (k + 1) := by rw [hT, hT]; push_cast; ring
      rw [hs]
      obtain ⟨m, s', e1, e2, _⟩ := ih (k + 1) (next (T j) (T k) s) (by omega) (by rw [show k + 1 + n = k + (n + 1) by omega]; exact hn)
      refine ⟨m, s', ?_, ?_, fun _ _ => ?_⟩
      · exact e1
      · exact .cons (by linarith [h.2]) hj (by linarith [h.1]) e2
      · have := e2.length
        omega
    · rw [if_neg h]
      refine ⟨k, s, rfl, .nil, fun h1 h2 => ?_⟩
      exact absurd ⟨by linarith, by linarith⟩ h

theorem outer_chain (u : Setup) (next : ℚ → ℚ → S → S) (hd : u.tdir * u.tdir = 1) (hdt : 0 < u.dt) (hdI : 0 < u.dtInterp) (D : ℚ)
    (hD : D = u.tdir * (u.tstop - u.tstart)) (T : Nat → ℚ) (hT : ∀ k : Nat, T k = u.tstart + u.tdir * (k * u.dt)) (n k : Nat) (s : S)
    (hn : D < (k + n : Nat) * u.dt) :
    ∃ m s', Chain next T u.dt u.dtInterp D k s (outer u next n (T k) s) m s' ∧ D < (m : ℚ) * u.dt := by
  induction n generalizing k s with
  | zero => exact ⟨k, s, .nil, by simpa using hn⟩
  | succ n ih =>
    have c2 : u.tdir * (T k - u.tstop) = (k : ℚ) * u.dt - D := by
      rw [hT, hD]
      linear_combination ((k : ℚ) * u.dt) * hd
    unfold outer
    rw [c2]
    by_cases h : (k : ℚ) * u.dt - D ≤ 0
    · rw [if_pos h]
      obtain ⟨m, s', e1, e2, e3⟩ := inner_chain u next hd hdt D hD T hT k (n + 1) k s le_rfl hn
      have hkm : k < m := e3 (by simpa using hdI) (by linarith)
      simp only [e1]
      obtain ⟨m', s'', f1, f2⟩ := ih m s' (by
        refine lt_of_lt_of_le hn ?_
        have : ((k + (n + 1) : Nat) : ℚ) ≤ ((m + n : Nat) : ℚ) := by exact_mod_cast (by omega : k + (n + 1) ≤ m + n)
        nlinarith)
      exact ⟨m', s'', e2.append f1, f2⟩
    · rw [if_neg h]
      exact ⟨k, s, .nil, by linarith⟩

/-- C133: in either direction, the steps are as wanted from the start to the stop, however many there are. -/
theorem C133_steps_partial (u : Setup) (next : ℚ → ℚ → S → S) (hd : u.tdir = 1 ∨ u.tdir = -1) (hdt : 0 < u.dt)
    (hdI : 0 < u.dtInterp) (n : Nat) (hn : u.tdir * (u.tstop - u.tstart) < n * u.dt) (s : S) :
    Follows next u.tdir u.tstart u.tstop u.dt u.dtInterp s (follow u next n s).1 := by
  have hd' : u.tdir * u.tdir = 1 := by rcases hd with h | h <;> rw [h] <;> norm_num
  obtain ⟨m, s', h1, h2⟩ := outer_chain u next hd' hdt hdI _ rfl (fun k : Nat => u.tstart + u.tdir * (k * u.dt)) (fun _ => rfl) n 0 s
    (by simpa using hn)
  simp only [Nat.cast_zero, zero_mul, mul_zero, add_zero] at h1
  have hlen : m = (follow u next n s).1.length := by
    have := h1.length
    simpa [follow] using this
  have hh : ∀ (i : Nat) (x : Step S), (follow u next n s).1[i]? = some x → _ := fun i x hi => h1.get i x hi
  refine ⟨?_, ?_, ?_, h1.next.2, ?_⟩
  · intro k
    constructor
    · intro hk
      have := (hh k _ (List.getElem?_eq_getElem hk)).2.1
      simpa using this
    · intro hk
      by_contra hc
      have : (m : ℚ) ≤ k := by rw [hlen]; exact_mod_cast not_lt.mp hc
      nlinarith
  · intro x hx
    refine ⟨h1.next.1 x hx, ?_⟩
    rw [List.head?_eq_getElem?] at hx
    obtain ⟨g1, _, j, hj, g2, _⟩ := hh 0 x hx
    rw [g1, g2, show j = 0 by omega]
  · intro k x hx
    simpa using (hh k x hx).1
  · intro k x hx
    obtain ⟨_, _, j, hj, g2, g3⟩ := hh k x hx
    rw [Nat.zero_add] at hj g3
    have hlt : k < (follow u next n s).1.length := (List.getElem?_eq_some_iff.mp hx).1
    have hjl : j < (follow u next n s).1.length := by omega
    refine ⟨j, _, hj, List.getElem?_eq_getElem hjl, ?_, g3⟩
    rw [g2]
    have := (hh j _ (List.getElem?_eq_getElem hjl)).1
    rw [this, Nat.zero_add]

example : (follow (⟨-1, [3, 2, 1], 3, 1, 1/2, 1⟩ : Setup) (fun _ t s => s ++ [t]) 10 []).1.map (fun x => (x.t, x.tfld, x.seeds)) =
    [(3, 3, []), (5/2, 3, [3]), (2, 2, [3, 5/2]), (3/2, 2, [3, 5/2, 2]), (1, 1, [3, 5/2, 2, 3/2])] := by decide +kernel

/-! ### the direction -/

theorem sign_cases (q : ℚ) : (q < 0 ∧ sign q = -1) ∨ (q = 0 ∧ sign q = 0) ∨ (0 < q ∧ sign q = 1) := by
  unfold sign
  rcases lt_trichotomy q 0 with h | h | h
  · exact .inl ⟨h, if_pos h⟩
  · exact .inr (.inl ⟨h, by rw [if_neg (by rw [h]; exact lt_irrefl 0), if_pos h]⟩)
  · exact .inr (.inr ⟨h, by rw [if_neg (not_lt.mpr h.le), if_neg h.ne']⟩)

theorem diffs_get (l : List ℚ) (i : Nat) (a b : ℚ) (ha : l[i]? = some a) (hb : l[i + 1]? = some b) : b - a ∈ diffs l := by
  induction l generalizing i with
  | nil => simp at ha
  | cons x l ih =>
    cases l with
    | nil => simp at hb
    | cons y l =>
      simp only [diffs, List.mem_cons]
      cases i with
      | zero =>
        simp only [List.getElem?_cons_zero, Option.some.injEq, Nat.zero_add, List.getElem?_cons_succ] at ha hb
        left; rw [← ha, ← hb]
      | succ i => right; exact ih i (by simpa using ha) (by simpa using hb)

theorem ok_of_ite {ε α : Type} {c : Prop} [Decidable c] {e : ε} {x u : α} (h : (if c then Except.error e else .ok x) = .ok u) :
    ¬ c ∧ x = u := by
  split at h
  · simp at h
  · rename_i hc
    exact ⟨hc, Except.ok.inj h⟩

/-- C133: where it goes and from where: from the start to the stop if both are given; backward if the step or the duration is negative;
    otherwise with the times as they are selected. Times that do not go one way are refused. The step is positive, and the times are in
    the direction of it. -/
theorem C133_direction_partial (times : List ℚ) (slc : ℚ × ℚ) (tstart tstop dt duration dtI : Option ℚ) (u : Setup)
    (h : setup times slc tstart tstop dt duration dtI = .ok u) :
    (∀ a b, tstart = some a → tstop = some b → u.tstart = a ∧ u.tstop = b ∧ (a < b → u.tdir = 1) ∧ (b < a → u.tdir = -1)) ∧
    ((tstart = none ∨ tstop = none) → u.tdir = 1 ∨ u.tdir = -1) ∧
    ((tstart = none ∨ tstop = none) → ((∃ d, dt = some d ∧ d < 0) ∨ (∃ d, duration = some d ∧ d < 0)) → u.tdir = -1) ∧
    (tstop = none → ∀ d, duration = some d → u.tstop = u.tstart + u.tdir * |d|) ∧
    (∀ d, dt = some d → u.dt = |d|) ∧ (dt = none → 2 ≤ times.length → ∀ i (a b : ℚ), times[i]? = some a → times[i + 1]? = some b →
      u.dt ≤ |b - a|) ∧
    (∀ d, dtI = some d → u.dtInterp = |d|) ∧ (dtI = none → u.dtInterp = u.dt) ∧
    (u.times = times ∨ u.times = times.reverse) ∧
    (∀ i (a b : ℚ), u.times[i]? = some a → u.times[i + 1]? = some b → (u.tdir = 1 → a < b) ∧ (u.tdir = -1 → b < a)) := by
  unfold setup at h
  split at h
  · rename_i first rest last hlast
    simp only at h
    obtain ⟨hany, hu⟩ := ok_of_ite h
    clear h
    subst hu
    simp only
    refine ⟨?_, ?_, ?_, ?_, ?_, ?_, ?_, ?_, ?_, ?_⟩
    · rintro a b rfl rfl
      refine ⟨rfl, rfl, fun hab => ?_, fun hab => ?_⟩ <;> simp only [direction]
      · rcases sign_cases (b - a) with ⟨h1, _⟩ | ⟨h1, _⟩ | ⟨_, h2⟩
        · linarith
        · linarith
        · exact h2
      · rcases sign_cases (b - a) with ⟨_, h2⟩ | ⟨h1, _⟩ | ⟨h1, _⟩
        · exact h2
        · linarith
        · linarith
    · intro hn
      have : direction (sign (last - first)) tstart tstop dt duration =
          if (∃ d ∈ dt, d < 0) ∨ ∃ d ∈ duration, d < 0 then -1
            else if sign (last - first) = 0 then 1 else sign (last - first) := by
        unfold direction
        rcases hn with rfl | rfl
        · rfl
        · cases tstart <;> rfl
      rw [this]
      split
      · right; rfl
      · rcases sign_cases (last - first) with ⟨_, h2⟩ | ⟨_, h2⟩ | ⟨_, h2⟩ <;> rw [h2] <;> norm_num
    · intro hn hneg
      have : direction (sign (last - first)) tstart tstop dt duration =
          if (∃ d ∈ dt, d < 0) ∨ ∃ d ∈ duration, d < 0 then -1
            else if sign (last - first) = 0 then 1 else sign (last - first) := by
        unfold direction
        rcases hn with rfl | rfl
        · rfl
        · cases tstart <;> rfl
      rw [this, if_pos]
      rcases hneg with ⟨d, rfl, hlt⟩ | ⟨d, rfl, hlt⟩
      · exact .inl ⟨d, rfl, hlt⟩
      · exact .inr ⟨d, rfl, hlt⟩
    · rintro rfl d rfl; rfl
    · rintro d rfl; rfl
    · rintro rfl h2 i a b ha hb
      simp only
      have hm := diffs_get (first :: rest) i a b ha hb
      have hmin : ∀ (m : ℚ) (l : List ℚ), minOf m l ≤ m ∧ ∀ x ∈ l, minOf m l ≤ x := by
        intro m l
        induction l generalizing m with
        | nil => exact ⟨le_refl _, by simp⟩
        | cons y l ih =>
          unfold minOf
          obtain ⟨i1, i2⟩ := ih (if y < m then y else m)
          constructor
          · refine le_trans i1 ?_
            split
            · rename_i h; exact h.le
            · exact le_refl _
          · intro x hx
            rcases List.mem_cons.mp hx with rfl | hx
            · refine le_trans i1 ?_
              split
              · exact le_refl _
              · rename_i h; exact not_lt.mp h
            · exact i2 x hx
      have hm' : |b - a| ∈ (diffs (first :: rest)).map fun d => |d| := List.mem_map.mpr ⟨_, hm, rfl⟩
      unfold sliceMinDt
      cases hdm : (diffs (first :: rest)).map fun d => |d| with
      | nil => rw [hdm] at hm'; simp at hm'
      | cons d l =>
        rw [hdm] at hm'
        simp only
        rcases List.mem_cons.mp hm' with h | h
        · rw [h]; exact (hmin d l).1
        · exact (hmin d l).2 _ h
    · rintro d rfl; rfl
    · rintro rfl; rfl
    · split
      · exact .inr rfl
      · exact .inl rfl
    · intro i a b ha hb
      have hm := diffs_get _ i a b ha hb
      have this := by_contra fun hc => hany (List.any_eq_true.mpr ⟨_, hm, decide_eq_true hc⟩)
      rw [← this]
      constructor
      · intro h1
        rcases sign_cases (b - a) with ⟨_, h2⟩ | ⟨_, h2⟩ | ⟨h2, _⟩
        · rw [h2] at h1; norm_num at h1
        · rw [h2] at h1; norm_num at h1
        · linarith
      · intro h1
        rcases sign_cases (b - a) with ⟨h2, _⟩ | ⟨_, h2⟩ | ⟨_, h2⟩
        · linarith
        · rw [h2] at h1; norm_num at h1
        · rw [h2] at h1; norm_num at h1
  · exact absurd h (by simp)

example : setup [1, 2, 4] (1, 4) none none (some (-1/2)) none none = .ok ⟨-1, [4, 2, 1], 4, 1, 1/2, 1/2⟩ := by decide +kernel

/-- C133: by default, all of the times are gone through, as they are selected -/
theorem C133_default_partial (times : List ℚ) (slc : ℚ × ℚ) (u : Setup) (h : setup times slc none none none none none = .ok u) :
    u.tstart = slc.1 ∧ u.tstop = slc.2 ∧ u.times = times := by
  unfold setup at h
  split at h
  · rename_i first rest last hlast
    simp only at h
    obtain ⟨hany, hu⟩ := ok_of_ite h
    clear h
    subst hu
    have hd : direction (sign (last - first)) none none none none = if sign (last - first) = 0 then 1 else sign (last - first) := by
      simp [direction]
    have : ¬ ((0 < direction (sign (last - first)) none none none none ∧ sign (last - first) < 0) ∨
        (direction (sign (last - first)) none none none none < 0 ∧ 0 < sign (last - first))) := by
      rw [hd]
      rcases sign_cases (last - first) with ⟨_, h2⟩ | ⟨_, h2⟩ | ⟨_, h2⟩ <;> rw [h2] <;> norm_num
    simp only [this, decide_false, Bool.false_eq_true, if_false, Option.getD_none, and_self]
  · exact absurd h (by simp)

/-- C133 fails in that nothing is returned, where the points are documented to be; and with the same start and stop, and one grid, it
    never ends: neither loop moves on. -/
theorem C133_return_violated (u : Setup) (next : ℚ → ℚ → S → S) (n : Nat) (s : S) : (follow u next n s).2 = none := rfl

theorem C133_endless_violated (t a : ℚ) (slc : ℚ × ℚ) (next : ℚ → ℚ → S → S) (s : S) :
    ∃ u, setup [t] slc (some a) (some a) none none none = .ok u ∧
      ∀ n, u.tdir * (u.tstart - u.tstop) ≤ 0 ∧ inner u next (u.tstart + u.tdir * u.dtInterp) u.tstart n u.tstart s = ([], u.tstart, s) := by
  refine ⟨⟨0, [t], a, a, 1, 1⟩, ?_, ?_⟩
  · have e : ∀ q : ℚ, sign (q - q) = 0 := fun q => by rw [sub_self]; rfl
    unfold setup
    dsimp only [List.getLast?_singleton, direction, Option.getD_some]
    rw [e, e]
    rfl
  · intro n
    refine ⟨by rw [zero_mul], ?_⟩
    cases n with
    | zero => rfl
    | succ n =>
      unfold inner
      rw [if_neg (fun h => absurd h.1 (by rw [zero_mul]; exact lt_irrefl 0))]

/-! ### C134 -/

/-- going up or down, all the way -/
def Sorted (dir : ℚ) (times : List ℚ) : Prop := times.Pairwise fun a b => 0 < dir * (b - a)

theorem count_before (dir : ℚ) (times : List ℚ) (h : Sorted dir times) (t : ℚ) :
    (∀ (i : Nat) (x : ℚ), times[i]? = some x → (i < times.countP (fun x => dir * (x - t) < 0) ↔ dir * (x - t) < 0)) := by
  induction times with
  | nil => simp
  | cons a l ih =>
    have hp := List.pairwise_cons.mp h
    intro i x hx
    rw [List.countP_cons]
    by_cases ha : dir * (a - t) < 0
    · rw [if_pos (by simpa using ha)]
      cases i with
      | zero =>
        simp only [List.getElem?_cons_zero, Option.some.injEq] at hx
        subst hx
        exact ⟨fun _ => ha, fun _ => by omega⟩
      | succ i =>
        rw [← ih hp.2 i x (by simpa using hx)]
        omega
    · rw [if_neg (by simpa using ha)]
      have hz : l.countP (fun x => dir * (x - t) < 0) = 0 := by
        rw [List.countP_eq_zero]
        intro y hy
        have := hp.1 y hy
        have : dir * (y - t) = dir * (y - a) + dir * (a - t) := by ring
        simp only [decide_eq_true_eq, not_lt]
        linarith
      rw [hz]
      constructor
      · intro h; omega
      · intro hneg
        exfalso
        cases i with
        | zero =>
          simp only [List.getElem?_cons_zero, Option.some.injEq] at hx
          subst hx
          exact ha hneg
        | succ i =>
          have := hp.1 x (List.mem_of_getElem? (by simpa using hx : l[i]? = some x))
          have e : dir * (x - t) = dir * (x - a) + dir * (a - t) := by ring
          linarith

/-- C134: the times used are those before and after: those next to each other with the time between them, or the last one, if the time
    is after it. -/
theorem C134_between_partial (dir : ℚ) (times : List ℚ) (h : Sorted dir times) (t : ℚ) (i : Nat) (a b : ℚ)
    (ha : times[i]? = some a) (hb : times[i + 1]? = some b) (h1 : dir * (a - t) < 0) (h2 : 0 ≤ dir * (b - t)) :
    idx0 dir times t = i ∧ idx1 dir times t = i + 1 := by
  have c1 := (count_before dir times h t i a ha).mpr h1
  have c2 : ¬ i + 1 < times.countP (fun x => dir * (x - t) < 0) := by
    rw [count_before dir times h t (i + 1) b hb]
    exact not_lt.mpr h2
  have hl : i + 1 < times.length := (List.getElem?_eq_some_iff.mp hb).1
  unfold idx1 idx0
  constructor <;> omega

theorem C134_after_partial (dir : ℚ) (times vals : List ℚ) (t : ℚ) (h : ∀ x ∈ times, dir * (x - t) < 0) (hne : times ≠ []) :
    fieldAt dir times vals t = vals.getD (times.length - 1) 0 := by
  have hc : times.countP (fun x => dir * (x - t) < 0) = times.length := by
    rw [List.countP_eq_length]
    simpa using h
  have hpos : 0 < times.length := List.length_pos_iff.mpr hne
  unfold fieldAt
  simp only
  have e0 : idx0 dir times t = times.length - 1 := by unfold idx0; rw [hc]
  have e1 : idx1 dir times t = times.length - 1 := by unfold idx1; rw [e0]; omega
  rw [e0, e1, if_pos rfl]

theorem fieldAt_between (dir : ℚ) (times vals : List ℚ) (h : Sorted dir times) (t : ℚ) (i : Nat) (a b v w : ℚ)
    (ha : times[i]? = some a) (hb : times[i + 1]? = some b) (h1 : dir * (a - t) < 0) (h2 : 0 ≤ dir * (b - t))
    (hv : vals[i]? = some v) (hw : vals[i + 1]? = some w) (hab : b - a ≠ 0) :
    fieldAt dir times vals t = (t - a) / (b - a) * v + (1 - (t - a) / (b - a)) * w := by
  obtain ⟨e0, e1⟩ := C134_between_partial dir times h t i a b ha hb h1 h2
  unfold fieldAt frac
  simp only [e0, e1]
  rw [if_neg (by omega)]
  simp only [List.getD_eq_getElem?_getD, ha, hb, hv, hw, Option.getD_some]
  rw [if_neg (by intro h; apply hab; rw [h]; ring)]

/-- C134: between two times the field is on the line between the two only halfway, or where both are the same. -/
theorem C134_line_partial (dir : ℚ) (times vals : List ℚ) (h : Sorted dir times) (t : ℚ) (i : Nat) (a b v w : ℚ)
    (ha : times[i]? = some a) (hb : times[i + 1]? = some b) (h1 : dir * (a - t) < 0) (h2 : 0 ≤ dir * (b - t))
    (hv : vals[i]? = some v) (hw : vals[i + 1]? = some w) (hsame : v = w ∨ t - a = b - t) :
    OnLine a b v w t (fieldAt dir times vals t) := by
  have hab : b - a ≠ 0 := by
    intro h
    have : b = a := by linarith
    subst this
    linarith
  rw [fieldAt_between dir times vals h t i a b v w ha hb h1 h2 hv hw hab]
  unfold OnLine
  rcases hsame with rfl | hh
  · field_simp; ring
  · have : t = (a + b) / 2 := by linarith
    subst this
    field_simp
    ring

/-- C134 fails otherwise: the values of the two grids are swapped. At the time of a grid it has the values of the one before. -/
theorem C134_swapped_violated (dir : ℚ) (times vals : List ℚ) (h : Sorted dir times) (t : ℚ) (i : Nat) (a b v w : ℚ)
    (ha : times[i]? = some a) (hb : times[i + 1]? = some b) (h1 : dir * (a - t) < 0) (h2 : 0 ≤ dir * (b - t))
    (hv : vals[i]? = some v) (hw : vals[i + 1]? = some w) :
    OnLine a b w v t (fieldAt dir times vals t) ∧ (t = b → fieldAt dir times vals t = v) ∧
      (v ≠ w → t - a ≠ b - t → ¬ OnLine a b v w t (fieldAt dir times vals t)) := by
  have hab : b - a ≠ 0 := by
    intro h
    have : b = a := by linarith
    subst this
    linarith
  rw [fieldAt_between dir times vals h t i a b v w ha hb h1 h2 hv hw hab]
  refine ⟨?_, ?_, ?_⟩
  · unfold OnLine
    field_simp
    ring
  · rintro rfl
    field_simp
    ring
  · intro hne hmid hl
    unfold OnLine at hl
    field_simp at hl
    have : (v - w) * ((t - a) - (b - t)) = 0 := by linear_combination hl
    rcases mul_eq_zero.mp this with h | h
    · exact hne (by linarith)
    · exact hmid (by linarith)

example : fieldAt 1 [0, 1, 2] [10, 20, 40] (3/2) = 30 ∧ fieldAt 1 [0, 1, 2] [10, 20, 40] 1 = 10 ∧
    fieldAt 1 [0, 1, 2] [10, 20, 40] (5/4) = 35 := by decide +kernel

/-! ### C135 -/

theorem oob_iff (b : Bounds) (p : Pt) : oob b p = false ↔ Inside b p := by
  unfold oob beyond Inside
  simp only [Bool.or_eq_false_iff, decide_eq_false_iff_not, not_exists, not_and, not_lt, Option.mem_def]
  constructor
  · rintro ⟨⟨⟨⟨⟨h1, h2⟩, h3, h4⟩, h5, h6⟩, h7⟩, h8⟩
    refine ⟨h1, h2, h3, h4, h5, h6, fun r hr => ?_, h8⟩
    by_cases h0 : r = 0
    · subst h0; positivity
    · exact h7 r hr h0
  · rintro ⟨h1, h2, h3, h4, h5, h6, h7, h8⟩
    exact ⟨⟨⟨⟨⟨h1, h2⟩, h3, h4⟩, h5, h6⟩, fun r hr _ => h7 r hr⟩, h8⟩

/-- C135: seeds out of bounds are removed, and only they; the others stay in order -/
theorem C135_remove (b : Bounds) (seeds : List Pt) :
    (remove b seeds).Sublist seeds ∧ (∀ p, p ∈ remove b seeds ↔ p ∈ seeds ∧ Inside b p) ∧
    ((∀ p ∈ seeds, Inside b p) → remove b seeds = seeds) ∧
    ∀ s t, remove b (s ++ t) = remove b s ++ remove b t := by
  refine ⟨List.filter_sublist, ?_, ?_, ?_⟩
  · intro p
    unfold remove
    rw [List.mem_filter, Bool.not_eq_true', oob_iff]
  · intro h
    unfold remove
    rw [List.filter_eq_self]
    intro p hp
    rw [Bool.not_eq_true', oob_iff]
    exact h p hp
  · intro s t
    unfold remove
    rw [List.filter_append]

/-- C135: the bounds are those given, or those of the field, on axes of more than one point only -/
theorem C135_bounds (lo hi : Option ℚ) (xl xh : ℚ) (n : Nat) :
    (n = 1 → axisBounds lo hi xl xh n = (none, none)) ∧
    (n ≠ 1 → (∀ l h, lo = some l → hi = some h → axisBounds lo hi xl xh n = (some l, some h)) ∧
      (lo = none → hi = none → axisBounds lo hi xl xh n = (some xl, some xh))) := by
  unfold axisBounds
  refine ⟨fun h => if_pos h, fun h => ⟨?_, ?_⟩⟩
  · rintro l h' rfl rfl; rw [if_neg h]; rfl
  · rintro rfl rfl; rw [if_neg h]; rfl

/-- C135: replaced seeds: those within bounds stay, the others are where they were originally; so all are within bounds, if all were -/
theorem C135_replace_partial (b : Bounds) (orig seeds : List Pt) (hl : orig.length = seeds.length) :
    (replacement b (some orig) seeds).1 = orig ∧ (replacement b (some orig) seeds).2.length = seeds.length ∧
    (∀ (i : Nat) (o p : Pt), orig[i]? = some o → seeds[i]? = some p →
      (Inside b p → (replacement b (some orig) seeds).2[i]? = some p) ∧
      (¬ Inside b p → (replacement b (some orig) seeds).2[i]? = some o)) ∧
    ((∀ o ∈ orig, Inside b o) → ∀ p ∈ (replacement b (some orig) seeds).2, Inside b p) := by
  have key : ∀ (i : Nat) (o p : Pt), orig[i]? = some o → seeds[i]? = some p →
      (replacement b (some orig) seeds).2[i]? = some (if oob b p then o else p) := by
    intro i o p ho hp
    simp only [replacement, Option.getD_some]
    rw [List.getElem?_zipWith, ho, hp]
  refine ⟨rfl, by simp [replacement, hl], ?_, ?_⟩
  · intro i o p ho hp
    rw [key i o p ho hp]
    refine ⟨fun h => ?_, fun h => ?_⟩
    · rw [(oob_iff b p).mpr h]; rfl
    · cases ho : oob b p with
      | false => exact absurd ((oob_iff b p).mp ho) h
      | true => rfl
  · intro h q hq
    obtain ⟨i, hi, rfl⟩ := List.getElem_of_mem hq
    have hi' : i < seeds.length := by simpa [replacement, hl] using hi
    have ho : orig[i]? = some orig[i] := List.getElem?_eq_getElem (by omega)
    have hp : seeds[i]? = some seeds[i] := List.getElem?_eq_getElem hi'
    have := key i _ _ ho hp
    rw [List.getElem?_eq_getElem hi, Option.some.injEq] at this
    rw [this]
    cases hoo : oob b seeds[i] with
    | false => exact (oob_iff b _).mp hoo
    | true => exact h _ (by simp)

/-- C135 fails if the originals are not given: they are the seeds of the first update, which is after the first step; seeds that were
    out of bounds by then stay there. -/
theorem C135_original_violated (b : Bounds) (seeds : List Pt) : (replacement b none seeds) = (seeds, seeds) := by
  simp only [replacement, Option.getD_none, Prod.mk.injEq, true_and]
  induction seeds with
  | nil => rfl
  | cons p l ih => rw [List.zipWith_cons_cons, ih]; simp

/-- the times at which a continuous curator adds its seeds, of those at which it is asked -/
def added (b : Bounds) (new : List Pt) (cadence : ℚ) : Option ℚ → List ℚ → List ℚ
  | _, [] => []
  | last, t :: ts =>
    let (last', _) := continuous b new cadence last t []
    if t - last.getD t > cadence then t :: added b new cadence last' ts else added b new cadence last' ts

/-- C135: with time going on by `dt`, new seeds come after more than the cadence, but no later than `dt` after it; then, and only then,
    those out of bounds are removed. -/
theorem C135_cadence_partial (b : Bounds) (new : List Pt) (cadence last t : ℚ) (seeds : List Pt) :
    (t - last ≤ cadence → continuous b new cadence (some last) t seeds = (some last, seeds)) ∧
    (cadence < t - last → continuous b new cadence (some last) t seeds = (some t, remove b seeds ++ new)) ∧
    ∀ dt : ℚ, 0 < dt → 0 ≤ cadence → ∃ k : Nat, 0 < k ∧ cadence < k * dt ∧ k * dt ≤ cadence + dt ∧
      (∀ j : Nat, j < k → (continuous b new cadence (some last) (last + j * dt) seeds).2 = seeds) ∧
      continuous b new cadence (some last) (last + k * dt) seeds = (some (last + k * dt), remove b seeds ++ new) := by
  have h1 : ∀ t seeds, t - last ≤ cadence → continuous b new cadence (some last) t seeds = (some last, seeds) := by
    intro t seeds h
    unfold continuous
    simp only [Option.getD_some]
    rw [if_neg (not_lt.mpr h)]
  have h2 : ∀ t seeds, cadence < t - last → continuous b new cadence (some last) t seeds = (some t, remove b seeds ++ new) := by
    intro t seeds h
    unfold continuous
    simp only [Option.getD_some]
    rw [if_pos h]
  refine ⟨h1 t seeds, h2 t seeds, fun dt hdt hc => ?_⟩
  obtain ⟨m, hm⟩ := exists_nat_gt (cadence / dt)
  have hm' : cadence < m * dt := by rwa [div_lt_iff₀ hdt] at hm
  classical
  have hex : ∃ m : Nat, cadence < m * dt := ⟨m, hm'⟩
  refine ⟨Nat.find hex, ?_, Nat.find_spec hex, ?_, ?_, ?_⟩
  · by_contra h0
    have hs := Nat.find_spec hex
    rw [show Nat.find hex = 0 by omega] at hs
    simp only [Nat.cast_zero, zero_mul] at hs
    linarith
  · have hpos : 0 < Nat.find hex := by
      by_contra h0
      have hs := Nat.find_spec hex
      rw [show Nat.find hex = 0 by omega] at hs
      simp only [Nat.cast_zero, zero_mul] at hs
      linarith
    have := Nat.find_min hex (show Nat.find hex - 1 < Nat.find hex by omega)
    rw [not_lt] at this
    have e : ((Nat.find hex : Nat) : ℚ) = ((Nat.find hex - 1 : Nat) : ℚ) + 1 := by
      exact_mod_cast (by omega : Nat.find hex = Nat.find hex - 1 + 1)
    rw [e]
    linarith
  · intro j hj
    have := Nat.find_min hex hj
    rw [not_lt] at this
    rw [h1 _ _ (by linarith)]
  · exact h2 _ _ (by have := Nat.find_spec hex; linarith)

/-- C135 fails for continuous curators: seeds out of bounds are not removed in between; nothing is ever added going back in time; and
    with a cadence of as much as the step, they are added every other step. -/
theorem C135_continuous_violated :
    (∀ (b : Bounds) (new seeds : List Pt) (cadence last t : ℚ), 0 ≤ cadence → t ≤ last →
      continuous b new cadence (some last) t seeds = (some last, seeds)) ∧
    (∃ (b : Bounds) (p : Pt), ¬ Inside b p ∧ (continuous b [] 1 none 0 [p]).2 = [p]) ∧
    ∀ (b : Bounds) (new : List Pt), added b new 1 none [0, 1, 2, 3, 4, 5] = [2, 4] := by
  refine ⟨?_, ?_, ?_⟩
  · intro b new seeds cadence last t hc ht
    exact (C135_cadence_partial b new cadence last t seeds).1 (by linarith)
  · refine ⟨⟨(some 0, none, none), (some 1, none, none), none, none⟩, ⟨2, 0, 0⟩, ?_, ?_⟩
    · intro h
      have := h.2.1 1 rfl
      norm_num at this
    · norm_num [continuous]
  · intro b new
    norm_num [added, continuous]

example : Inside ⟨(some 0, none, none), (some 1, none, none), some (1/2), none⟩ ⟨1, 1, 1⟩ ∧
    remove ⟨(some 0, none, none), (some 1, none, none), some (1/2), none⟩ [⟨1, 1, 1⟩, ⟨2, 0, 0⟩, ⟨1/4, 0, 0⟩] = [⟨1, 1, 1⟩] := by
  refine ⟨(oob_iff _ _).mp (by decide +kernel), by decide +kernel⟩

end Viscid.Props
