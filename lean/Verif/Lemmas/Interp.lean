import Verif.Spec.Interp
import Mathlib.Tactic.Linarith
import Mathlib.Tactic.FieldSimp
import Mathlib.Tactic.Ring
import Mathlib.Tactic.Positivity
namespace Viscid.Interp
open Viscid.Spec.Interp

theorem head_eq (c : List ℚ) (h : c ≠ []) : c[0]? = some (c.headD 0) := by
  cases c with
  | nil => exact absurd rfl h
  | cons x xs => rfl

theorem last_eq (c : List ℚ) (h : c ≠ []) : c[c.length - 1]? = some (c.getLastD 0) := by
  rw [List.getLastD_eq_getLast?, ← List.getLast?_eq_getElem?]
  cases hl : c.getLast? with
  | none => rw [List.getLast?_eq_none_iff] at hl; exact absurd hl h
  | some x => rfl

theorem inc_le {c : List ℚ} (h : Increasing c) {i j : Nat} {x y : ℚ} (hx : c[i]? = some x) (hy : c[j]? = some y)
    (hij : i ≤ j) : x ≤ y := by
  rcases Nat.lt_or_ge i j with h1 | h1
  · exact le_of_lt (h i j x y hx hy h1)
  · have : i = j := by omega
    subst this
    rw [hx] at hy; cases hy; exact le_refl _

theorem inc_lt_iff {c : List ℚ} (h : Increasing c) {i j : Nat} {x y : ℚ} (hx : c[i]? = some x) (hy : c[j]? = some y)
    (hxy : x < y) : i < j := by
  by_contra hc
  have := inc_le h hy hx (by omega)
  linarith

theorem lt_len {c : List ℚ} {i : Nat} {x : ℚ} (h : c[i]? = some x) : i < c.length := by
  rw [List.getElem?_eq_some_iff] at h; exact h.1

theorem get_of_lt (c : List ℚ) (i : Nat) (h : i < c.length) : ∃ x, c[i]? = some x := ⟨c[i], by simp [h]⟩

theorem brackets_unique {c : List ℚ} (h : Increasing c) {v : ℚ} {i j : Nat} (hi : Brackets c v i) (hj : Brackets c v j) :
    i = j := by
  obtain ⟨x, y, h1, h2, h3, h4⟩ := hi
  obtain ⟨x', y', h1', h2', h3', h4'⟩ := hj
  have a := inc_lt_iff h h1 h2' (by linarith)
  have b := inc_lt_iff h h1' h2 (by linarith)
  omega

theorem scanUp_spec (c : List ℚ) (v : ℚ) (i k : Nat) (x : ℚ) (hi : c[i]? = some x) (hx : x ≤ v)
    (hk : i + k = c.length - 1) :
    ∃ r, scanUp c v i k = some r ∧
      (Brackets c v r ∨ (r = c.length - 1 ∧ ∃ y, c[c.length - 1]? = some y ∧ y ≤ v)) := by
  induction k generalizing i x with
  | zero =>
    refine ⟨c.length - 1, rfl, Or.inr ⟨rfl, x, ?_, hx⟩⟩
    rw [← hk]; exact hi
  | succ k ih =>
    obtain ⟨y, hy⟩ := get_of_lt c (i + 1) (by omega)
    unfold scanUp
    rw [hy]
    dsimp only
    by_cases hyv : y > v
    · rw [if_pos hyv]
      exact ⟨i, rfl, Or.inl ⟨x, y, hi, hy, hx, hyv⟩⟩
    · rw [if_neg hyv]
      exact ih (i + 1) y hy (by linarith) (by omega)

theorem scanDown_spec (c : List ℚ) (v : ℚ) (s : Nat) (y : ℚ) (hs : c[s]? = some y) (hy : v < y) :
    ∃ r, scanDown c v s = some r ∧ (Brackets c v r ∨ (r = 0 ∧ ∃ x, c[0]? = some x ∧ v < x)) := by
  induction s generalizing y with
  | zero => exact ⟨0, rfl, Or.inr ⟨rfl, y, hs, hy⟩⟩
  | succ i ih =>
    obtain ⟨x, hx⟩ := get_of_lt c i (by have := lt_len hs; omega)
    unfold scanDown
    rw [hx]
    dsimp only
    by_cases hxv : x ≤ v
    · rw [if_pos hxv]
      exact ⟨i, rfl, Or.inl ⟨x, y, hx, hs, hxv, hy⟩⟩
    · rw [if_neg hxv]
      exact ih x hx (by linarith)

/-- Nonuniform search from any index in range. -/
theorem preceding_nonuni (a : Axis) (ha : Valid a) (hn : a.n ≠ 1) (hu : a.uniform = false) (v : ℚ) (s : Nat)
    (hs : s < a.n) :
    ∃ r, preceding a v s = some r ∧
      (Brackets a.crds v r ∨ (r = 0 ∧ v < a.crds.headD 0) ∨ (r = a.n - 1 ∧ a.crds.getLastD 0 ≤ v)) := by
  obtain ⟨x, hx⟩ := get_of_lt a.crds s hs
  unfold preceding
  rw [if_neg hn, hu, hx]
  simp only [Bool.false_eq_true, if_false]
  by_cases hxv : x ≤ v
  · rw [if_pos hxv]
    obtain ⟨r, h1, h2⟩ := scanUp_spec a.crds v s (a.n - 1 - s) x hx hxv (by unfold Axis.n at *; omega)
    refine ⟨r, h1, ?_⟩
    rcases h2 with h2 | ⟨h2, y, h3, h4⟩
    · exact Or.inl h2
    · refine Or.inr (Or.inr ⟨h2, ?_⟩)
      rw [last_eq _ ha.ne] at h3
      cases h3; exact h4
  · rw [if_neg hxv]
    obtain ⟨r, h1, h2⟩ := scanDown_spec a.crds v s x hx (by linarith)
    refine ⟨r, h1, ?_⟩
    rcases h2 with h2 | ⟨h2, y, h3, h4⟩
    · exact Or.inl h2
    · refine Or.inr (Or.inl ⟨h2, ?_⟩)
      rw [head_eq _ ha.ne] at h3
      cases h3; exact h4

theorem preceding_uni (a : Axis) (ha : Valid a) (hn : a.n ≠ 1) (hu : a.uniform = true) (v : ℚ) (s : Nat) :
    ∃ r, preceding a v s = some r ∧
      (Brackets a.crds v r ∨ (r = 0 ∧ v < a.crds.headD 0) ∨ (r = a.n - 2 ∧ a.crds.getLastD 0 ≤ v)) := by
  obtain ⟨h, hh⟩ := ha.uni hu
  have hlen : 2 ≤ a.crds.length := by
    have : a.crds.length ≠ 0 := by simp [ha.ne]
    unfold Axis.n at hn; omega
  have h0 := head_eq _ ha.ne
  have hl := last_eq _ ha.ne
  have hlh := hh _ _ hl
  obtain ⟨x1, hx1⟩ := get_of_lt a.crds 1 (by omega)
  have hpos : 0 < h := by
    have e1 := hh _ _ hx1
    have e2 := ha.inc 0 1 _ _ h0 hx1 (by omega)
    rw [e1] at e2; push_cast at e2; linarith
  have hn1 : ((a.crds.length - 1 : Nat) : ℚ) = (a.crds.length : ℚ) - 1 := by
    rw [Nat.cast_sub (by omega)]; simp
  have hn1pos : (0 : ℚ) < (a.crds.length : ℚ) - 1 := by
    rw [← hn1]; exact_mod_cast (by omega : 0 < a.crds.length - 1)
  have hval : ((a.n : ℚ) - 1) * ((v - a.xl) / a.L) = (v - a.crds.headD 0) / h := by
    unfold Axis.n Axis.xl Axis.L Axis.xh Axis.xl
    rw [hlh, hn1]
    have : a.crds.headD 0 + ((a.crds.length : ℚ) - 1) * h - a.crds.headD 0 = ((a.crds.length : ℚ) - 1) * h := by ring
    rw [this]
    field_simp
  unfold preceding
  rw [if_neg hn, hu]
  simp only [if_true, hval]
  refine ⟨_, rfl, ?_⟩
  generalize hfl : ⌊(v - a.crds.headD 0) / h⌋ = i
  have hf1 : (i : ℚ) * h ≤ v - a.crds.headD 0 := by
    have := Int.floor_le ((v - a.crds.headD 0) / h)
    rw [hfl, le_div_iff₀ hpos] at this
    exact this
  have hf2 : v - a.crds.headD 0 < ((i : ℚ) + 1) * h := by
    have := Int.lt_floor_add_one ((v - a.crds.headD 0) / h)
    rw [hfl, div_lt_iff₀ hpos] at this
    exact this
  by_cases hneg : i < 0
  · right; left
    refine ⟨by unfold Axis.n; omega, ?_⟩
    have : ((i : ℚ) + 1) ≤ 0 := by exact_mod_cast (by omega : i + 1 ≤ 0)
    nlinarith
  · by_cases hbig : i ≤ (a.n : Int) - 2
    · left
      obtain ⟨k, rfl⟩ : ∃ k : Nat, i = (k : Int) := ⟨i.toNat, by omega⟩
      have hk : (min (max (k : Int) 0) ((a.n : Int) - 2)).toNat = k := by omega
      rw [hk]
      unfold Axis.n at hbig
      obtain ⟨x, hx⟩ := get_of_lt a.crds k (by omega)
      obtain ⟨y, hy⟩ := get_of_lt a.crds (k + 1) (by omega)
      refine ⟨x, y, hx, hy, ?_, ?_⟩
      · rw [hh _ _ hx]; push_cast at hf1; linarith
      · rw [hh _ _ hy]; push_cast at hf2 ⊢; linarith
    · right; right
      refine ⟨by unfold Axis.n at *; omega, ?_⟩
      rw [hlh, hn1]
      unfold Axis.n at hbig
      have : ((a.crds.length : ℚ) - 1) ≤ (i : ℚ) := by
        have : (a.crds.length : Int) - 1 ≤ i := by omega
        exact_mod_cast this
      nlinarith

/-- Either way, for a point strictly inside the axis. -/
theorem preceding_inside (a : Axis) (ha : Valid a) (v : ℚ) (s : Nat) (hs : s < a.n)
    (h0 : a.crds.headD 0 ≤ v) (h1 : v < a.crds.getLastD 0) :
    ∃ r, preceding a v s = some r ∧ Brackets a.crds v r := by
  have hn : a.n ≠ 1 := by
    intro hn
    have e0 := head_eq _ ha.ne
    have e1 := last_eq _ ha.ne
    unfold Axis.n at hn
    rw [hn] at e1
    simp only [Nat.sub_self] at e1
    rw [e0] at e1
    injection e1 with e1
    linarith
  cases hu : a.uniform with
  | false =>
    obtain ⟨r, h2, h3⟩ := preceding_nonuni a ha hn hu v s hs
    refine ⟨r, h2, ?_⟩
    rcases h3 with h3 | ⟨_, h3⟩ | ⟨_, h3⟩
    · exact h3
    · linarith
    · linarith
  | true =>
    obtain ⟨r, h2, h3⟩ := preceding_uni a ha hn hu v s
    refine ⟨r, h2, ?_⟩
    rcases h3 with h3 | ⟨_, h3⟩ | ⟨_, h3⟩
    · exact h3
    · linarith
    · linarith

/-- What `locate` says about a point: where it is, relative to the axis. -/
inductive LocSpec (a : Axis) (x : ℚ) : Loc → Prop
  | low : (a.n = 1 ∨ x ≤ a.crds.headD 0) → LocSpec a x ⟨0, 0, 0⟩
  | high : a.crds.getLastD 0 ≤ x → LocSpec a x ⟨a.n - 1, 0, 0⟩
  | mid (i : Nat) (c0 c1 : ℚ) : a.crds[i]? = some c0 → a.crds[i + 1]? = some c1 → c0 ≤ x → x < c1 →
      a.crds.headD 0 < x → x < a.crds.getLastD 0 → LocSpec a x ⟨i, 1, (x - c0) / (c1 - c0)⟩

theorem locate_spec (a : Axis) (ha : Valid a) (x : ℚ) (s : Nat) (hs : s < a.n) :
    ∃ l c, locate a x s = some (l, c) ∧ LocSpec a x l ∧ c < a.n := by
  unfold locate
  by_cases h1 : a.n = 1 ∨ x ≤ a.xl
  · rw [if_pos h1]
    exact ⟨_, _, rfl, .low h1, hs⟩
  · rw [if_neg h1]
    rw [not_or] at h1
    by_cases h2 : x ≥ a.xh
    · rw [if_pos h2]
      exact ⟨_, _, rfl, .high h2, hs⟩
    · rw [if_neg h2]
      obtain ⟨r, hr, c0, c1, hc0, hc1, h3, h4⟩ := preceding_inside a ha x s hs
        (by have := h1.2; unfold Axis.xl at this; linarith) (by unfold Axis.xh at h2; linarith)
      rw [hr]
      dsimp only
      rw [hc0, hc1]
      exact ⟨_, _, rfl, .mid r c0 c1 hc0 hc1 h3 h4 (by have := h1.2; unfold Axis.xl at this; linarith)
        (by unfold Axis.xh at h2; linarith), lt_len hc0⟩

/-- The location does not depend on the cache. -/
theorem LocSpec_unique (a : Axis) (ha : Valid a) (x : ℚ) (l l' : Loc) (h : LocSpec a x l) (h' : LocSpec a x l')
    (h2 : a.n = 1 ∨ a.crds.headD 0 < a.crds.getLastD 0) : l = l' := by
  have hone : a.n = 1 → ∀ i c1, a.crds[i + 1]? = some c1 → False := by
    intro h i c1 hc
    have := lt_len hc
    unfold Axis.n at h
    omega
  cases h with
  | low h =>
    cases h' with
    | low h' => rfl
    | high h' =>
      rcases h2 with h2 | h2
      · rw [h2]
      · rcases h with h | h
        · rw [h]
        · linarith
    | mid i c0 c1 e0 e1 e2 e3 e4 e5 =>
      rcases h with h | h
      · exact (hone h _ _ e1).elim
      · linarith
  | high h =>
    cases h' with
    | low h' =>
      rcases h2 with h2 | h2
      · rw [h2]
      · rcases h' with h' | h'
        · rw [h']
        · linarith
    | high h' => rfl
    | mid i c0 c1 e0 e1 e2 e3 e4 e5 => linarith
  | mid i c0 c1 e0 e1 e2 e3 e4 e5 =>
    cases h' with
    | low h' =>
      rcases h' with h' | h'
      · exact (hone h' _ _ e1).elim
      · linarith
    | high h' => linarith
    | mid j c0' c1' f0 f1 f2 f3 f4 f5 =>
      have := brackets_unique ha.inc ⟨c0, c1, e0, e1, e2, e3⟩ ⟨c0', c1', f0, f1, f2, f3⟩
      subst this
      rw [e0] at f0; rw [e1] at f1
      cases f0; cases f1
      rfl

theorem one_or_lt (a : Axis) (ha : Valid a) : a.n = 1 ∨ a.crds.headD 0 < a.crds.getLastD 0 := by
  by_cases h : a.n = 1
  · exact Or.inl h
  · right
    have hl : a.crds.length ≠ 0 := by simp [ha.ne]
    unfold Axis.n at h
    exact ha.inc 0 (a.crds.length - 1) _ _ (head_eq _ ha.ne) (last_eq _ ha.ne) (by omega)

theorem head_le_last (a : Axis) (ha : Valid a) : a.crds.headD 0 ≤ a.crds.getLastD 0 :=
  inc_le ha.inc (head_eq _ ha.ne) (last_eq _ ha.ne) (by omega)

/-- Weights lie in [0, 1) and indices inside the axis. -/
theorem LocSpec_range (a : Axis) (ha : Valid a) (x : ℚ) (l : Loc) (h : LocSpec a x l) :
    l.ix + l.p < a.n ∧ 0 ≤ l.xd ∧ l.xd ≤ 1 := by
  have hl : 0 < a.n := by
    unfold Axis.n
    exact List.length_pos_iff.mpr ha.ne
  cases h with
  | low _ => exact ⟨by simpa using hl, le_refl _, by norm_num⟩
  | high _ => exact ⟨by dsimp only; omega, le_refl _, by norm_num⟩
  | mid i c0 c1 e0 e1 e2 e3 e4 e5 =>
    have := lt_len e1
    refine ⟨this, ?_, ?_⟩
    · exact div_nonneg (by linarith) (by linarith)
    · rw [div_le_one (by linarith)]; linarith

/-- One-dimensional interpolation between the values of `g` at the two chosen nodes. -/
def lerp (g : Nat → ℚ) (l : Loc) : ℚ := g l.ix + l.xd * (g (l.ix + l.p) - g l.ix)

theorem blend_eq (f : Nat → Nat → Nat → ℚ) (a b c : Loc) :
    blend f a b c = lerp (fun k => lerp (fun j => lerp (fun i => f i j k) a) b) c := by
  unfold blend lerp; rfl

theorem lerp_bounds (g : Nat → ℚ) (l : Loc) (lo hi : ℚ) (h0 : 0 ≤ l.xd) (h1 : l.xd ≤ 1)
    (ha : lo ≤ g l.ix ∧ g l.ix ≤ hi) (hb : lo ≤ g (l.ix + l.p) ∧ g (l.ix + l.p) ≤ hi) :
    lo ≤ lerp g l ∧ lerp g l ≤ hi := by
  unfold lerp
  constructor <;> nlinarith [ha.1, ha.2, hb.1, hb.2, mul_nonneg h0 (sub_nonneg.mpr hb.1),
    mul_nonneg (sub_nonneg.mpr h1) (sub_nonneg.mpr ha.1), mul_nonneg h0 (sub_nonneg.mpr hb.2),
    mul_nonneg (sub_nonneg.mpr h1) (sub_nonneg.mpr ha.2)]

/-- At a node. -/
theorem lerp_node (a : Axis) (ha : Valid a) (i : Nat) (x : ℚ) (hx : a.crds[i]? = some x) (l : Loc)
    (h : LocSpec a x l) (g : Nat → ℚ) : lerp g l = g i := by
  have hlen : i < a.crds.length := lt_len hx
  cases h with
  | low h =>
    have : i = 0 := by
      rcases h with h | h
      · unfold Axis.n at h; omega
      · by_contra hc
        have := ha.inc 0 i _ _ (head_eq _ ha.ne) hx (by omega)
        linarith
    subst this
    simp [lerp]
  | high h =>
    have : i = a.crds.length - 1 := by
      by_contra hc
      have := ha.inc i (a.crds.length - 1) _ _ hx (last_eq _ ha.ne) (by omega)
      linarith
    subst this
    simp [lerp, Axis.n]
  | mid j c0 c1 e0 e1 e2 e3 e4 e5 =>
    have h1 : j = i := by
      have h1 := inc_lt_iff ha.inc hx e1 e3
      by_contra hc
      have := ha.inc i j _ _ hx e0 (by omega)
      linarith
    subst h1
    rw [hx] at e0; cases e0
    simp [lerp]

/-- On linear data, inside the axis. -/
theorem lerp_linear (a : Axis) (ha : Valid a) (x : ℚ) (hx : InRange a x) (l : Loc) (h : LocSpec a x l)
    (g : Nat → ℚ) (u w : ℚ) (hg : ∀ (i : Nat) (c : ℚ), a.crds[i]? = some c → g i = u + w * c) :
    lerp g l = u + w * x := by
  have e0 := head_eq _ ha.ne
  have e1 := last_eq _ ha.ne
  cases h with
  | low h =>
    have : x = a.crds.headD 0 := by
      rcases h with h | h
      · unfold Axis.n at h
        rw [h] at e1
        simp only [Nat.sub_self] at e1
        rw [e0] at e1
        injection e1 with e1
        linarith [hx.1, hx.2]
      · linarith [hx.1]
    simp [lerp, hg _ _ e0, this]
  | high h =>
    have : x = a.crds.getLastD 0 := by linarith [hx.2]
    simp only [lerp, Axis.n, hg _ _ e1, this]; ring
  | mid i c0 c1 f0 f1 f2 f3 f4 f5 =>
    have hne : c1 - c0 ≠ 0 := by linarith
    simp only [lerp, hg _ _ f0, hg _ _ f1]
    field_simp
    ring

theorem LocSpec_clamp (a : Axis) (ha : Valid a) (x : ℚ) (l : Loc) (h : LocSpec a x l) : LocSpec a (clamp a x) l := by
  have hle := head_le_last a ha
  unfold clamp
  cases h with
  | low h =>
    refine .low ?_
    rcases h with h | h
    · exact Or.inl h
    · right
      rw [max_eq_right h, min_eq_left hle]
  | high h =>
    refine .high ?_
    rw [max_eq_left (by linarith), min_eq_right h]
  | mid i c0 c1 e0 e1 e2 e3 e4 e5 =>
    rw [max_eq_left (le_of_lt e4), min_eq_left (le_of_lt e5)]
    exact .mid i c0 c1 e0 e1 e2 e3 e4 e5

theorem preceding_range (a : Axis) (ha : Valid a) (v : ℚ) (s : Nat) (hs : s < a.n) :
    ∃ r, preceding a v s = some r ∧ r < a.n := by
  have hl : 0 < a.n := List.length_pos_iff.mpr ha.ne
  by_cases hn : a.n = 1
  · refine ⟨0, ?_, by omega⟩
    unfold preceding; rw [if_pos hn]
  · cases hu : a.uniform with
    | false =>
      obtain ⟨r, h1, h2⟩ := preceding_nonuni a ha hn hu v s hs
      refine ⟨r, h1, ?_⟩
      rcases h2 with ⟨_, _, h2, _⟩ | ⟨h2, _⟩ | ⟨h2, _⟩
      · exact lt_len h2
      · omega
      · omega
    | true =>
      obtain ⟨r, h1, h2⟩ := preceding_uni a ha hn hu v s
      refine ⟨r, h1, ?_⟩
      rcases h2 with ⟨_, _, h2, _⟩ | ⟨h2, _⟩ | ⟨h2, _⟩
      · exact lt_len h2
      · omega
      · omega

theorem trilin_spec (g : Grid) (hx : Valid g.ax) (hy : Valid g.ay) (hz : Valid g.az) (x y z : ℚ) (c : Cache)
    (h1 : c.1 < g.ax.n) (h2 : c.2.1 < g.ay.n) (h3 : c.2.2 < g.az.n) :
    ∃ la lb lc c', trilin g x y z c = some (blend g.data la lb lc, c') ∧
      LocSpec g.ax x la ∧ LocSpec g.ay y lb ∧ LocSpec g.az z lc ∧
      c'.1 < g.ax.n ∧ c'.2.1 < g.ay.n ∧ c'.2.2 < g.az.n := by
  obtain ⟨la, ca, e1, f1, r1⟩ := locate_spec g.ax hx x c.1 h1
  obtain ⟨lb, cb, e2, f2, r2⟩ := locate_spec g.ay hy y c.2.1 h2
  obtain ⟨lc, cc, e3, f3, r3⟩ := locate_spec g.az hz z c.2.2 h3
  refine ⟨la, lb, lc, (ca, cb, cc), ?_, f1, f2, f3, r1, r2, r3⟩
  unfold trilin
  rw [e1, e2, e3]
  dsimp only
  rw [if_pos]
  unfold Grid.inside
  simp [(LocSpec_range _ hx _ _ f1).1, (LocSpec_range _ hy _ _ f2).1, (LocSpec_range _ hz _ _ f3).1]

/-- `closest` returns a nearest point. -/
theorem closest_spec (a : Axis) (ha : Valid a) (v : ℚ) (s : Nat) (hs : s < a.n) :
    ∃ (r : Nat) (x : ℚ), closest a v s = some r ∧ a.crds[r]? = some x ∧
      ∀ (j : Nat) (y : ℚ), a.crds[j]? = some y → |x - v| ≤ |y - v| := by
  have hl : 0 < a.n := List.length_pos_iff.mpr ha.ne
  have e0 := head_eq _ ha.ne
  have e1 := last_eq _ ha.ne
  obtain ⟨i, hi, hcase⟩ : ∃ i, preceding a v s = some i ∧ (Brackets a.crds v i ∨
      (i = 0 ∧ (a.n = 1 ∨ v < a.crds.headD 0)) ∨ ((i = a.n - 1 ∨ (i = a.n - 2 ∧ a.n ≠ 1)) ∧ a.crds.getLastD 0 ≤ v)) := by
    by_cases hn : a.n = 1
    · exact ⟨0, by unfold preceding; rw [if_pos hn], Or.inr (Or.inl ⟨rfl, Or.inl hn⟩)⟩
    · cases hu : a.uniform with
      | false =>
        obtain ⟨r, h1, h2⟩ := preceding_nonuni a ha hn hu v s hs
        refine ⟨r, h1, ?_⟩
        rcases h2 with h2 | ⟨h2, h3⟩ | ⟨h2, h3⟩
        · exact Or.inl h2
        · exact Or.inr (Or.inl ⟨h2, Or.inr h3⟩)
        · exact Or.inr (Or.inr ⟨Or.inl h2, h3⟩)
      | true =>
        obtain ⟨r, h1, h2⟩ := preceding_uni a ha hn hu v s
        refine ⟨r, h1, ?_⟩
        rcases h2 with h2 | ⟨h2, h3⟩ | ⟨h2, h3⟩
        · exact Or.inl h2
        · exact Or.inr (Or.inl ⟨h2, Or.inr h3⟩)
        · exact Or.inr (Or.inr ⟨Or.inr ⟨h2, hn⟩, h3⟩)
  -- the nearest point to the left / right of v
  have key : ∀ (r : Nat) (x : ℚ), a.crds[r]? = some x →
      (∀ (j : Nat) (y : ℚ), j < r → a.crds[j]? = some y → |x - v| ≤ |y - v|) →
      (∀ (j : Nat) (y : ℚ), r < j → a.crds[j]? = some y → |x - v| ≤ |y - v|) →
      ∀ (j : Nat) (y : ℚ), a.crds[j]? = some y → |x - v| ≤ |y - v| := by
    intro r x hr h1 h2 j y hj
    rcases Nat.lt_trichotomy j r with h | h | h
    · exact h1 j y h hj
    · subst h; rw [hr] at hj; cases hj; exact le_refl _
    · exact h2 j y h hj
  unfold closest
  rw [hi]
  dsimp only
  have hlen : a.n = a.crds.length := rfl
  rcases hcase with ⟨x, y, hx, hy, hxv, hvy⟩ | ⟨rfl, h⟩ | ⟨h, hlast⟩
  · have hb := lt_len hy
    rw [if_neg (by omega), hx, hy]
    dsimp only
    have ax : |x - v| = v - x := by rw [abs_of_nonpos (by linarith)]; ring
    have ay : |y - v| = y - v := abs_of_pos (by linarith)
    by_cases hd : |x - v| ≤ |y - v|
    · rw [if_pos hd]
      refine ⟨i, x, rfl, hx, key i x hx ?_ ?_⟩
      · intro j w hj hw
        have := ha.inc j i _ _ hw hx hj
        rw [ax, abs_of_nonpos (by linarith)]; linarith
      · intro j w hj hw
        have := inc_le ha.inc hy hw (by omega)
        rw [ax, ay] at hd
        rw [ax, abs_of_nonneg (by linarith)]; linarith
    · rw [if_neg hd]
      rw [ax, ay, not_le] at hd
      refine ⟨i + 1, y, rfl, hy, key (i + 1) y hy ?_ ?_⟩
      · intro j w hj hw
        have := inc_le ha.inc hw hx (by omega)
        rw [ay, abs_of_nonpos (by linarith)]; linarith
      · intro j w hj hw
        have := ha.inc (i + 1) j _ _ hy hw hj
        rw [ay, abs_of_nonneg (by linarith)]; linarith
  · by_cases hn : a.n = 1
    · rw [if_pos (by omega)]
      refine ⟨0, a.crds.headD 0, by rw [hn], e0, key 0 _ e0 (by intros; omega) ?_⟩
      intro j y hj hy
      have := lt_len hy
      omega
    · have hv : v < a.crds.headD 0 := by rcases h with h | h; exact absurd h hn; exact h
      rw [if_neg (by omega), e0]
      obtain ⟨y, hy⟩ := get_of_lt a.crds 1 (by omega)
      rw [hy]
      dsimp only
      have hlt := ha.inc 0 1 _ _ e0 hy (by omega)
      rw [if_pos (by rw [abs_of_pos (by linarith), abs_of_pos (by linarith)]; linarith)]
      refine ⟨0, _, rfl, e0, key 0 _ e0 (by intros; omega) ?_⟩
      intro j w hj hw
      have := ha.inc 0 j _ _ e0 hw hj
      rw [abs_of_pos (by linarith), abs_of_pos (by linarith)]; linarith
  · have fin : ∀ (j : Nat) (y : ℚ), a.crds[j]? = some y → |a.crds.getLastD 0 - v| ≤ |y - v| := by
      intro j y hj
      have := inc_le ha.inc hj e1 (by have := lt_len hj; omega)
      rw [abs_of_nonpos (by linarith), abs_of_nonpos (by linarith)]; linarith
    by_cases hi1 : i = a.n - 1
    · rw [if_pos hi1]
      exact ⟨a.n - 1, a.crds.getLastD 0, rfl, e1, fin⟩
    · rw [if_neg hi1]
      rcases h with h | ⟨h, hn⟩
      · exact absurd h hi1
      · subst h
        obtain ⟨x, hx⟩ := get_of_lt a.crds (a.n - 2) (by omega)
        have h21 : a.n - 2 + 1 = a.crds.length - 1 := by omega
        rw [h21, hx, e1]
        dsimp only
        have hlt := ha.inc (a.n - 2) (a.crds.length - 1) _ _ hx e1 (by omega)
        rw [if_neg (by rw [abs_of_nonpos (by linarith), abs_of_nonpos (by linarith)]; linarith)]
        exact ⟨_, _, rfl, e1, fin⟩

end Viscid.Interp
