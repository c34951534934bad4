import Verif.Model.Interior
import Verif.Spec.Interior
import Verif.Lemmas.Select
/-!
# Lemmas on interior slices
-/
namespace Viscid.Props
open Viscid.Interior Viscid.Spec.Interior Viscid.Select Viscid.Spec.Slice

theorem minDiff_le (a : List ℚ) : ∀ (i : Nat) (x y : ℚ), a[i]? = some x → a[i + 1]? = some y → minDiff a ≤ y - x := by
  fun_induction minDiff a with
  | case1 => intro i x y hx; simp at hx
  | case2 => intro i x y hx hy; simp at hy
  | case3 p q =>
    intro i x y hx hy
    cases i with
    | zero => simp at hx hy; subst hx hy; exact le_refl _
    | succ i => simp at hy
  | case4 p q z r ih =>
    intro i x y hx hy
    cases i with
    | zero =>
      simp at hx hy
      subst hx hy
      exact min_le_left _ _
    | succ i =>
      rw [List.getElem?_cons_succ] at hx hy
      exact le_trans (min_le_right _ _) (ih i x y hx hy)

/-- the tolerance is less than any distance of points -/
theorem tol_lt_gap (a : List ℚ) (ha : a.Pairwise (· < ·)) (i j : Nat) (x y : ℚ) (hx : a[i]? = some x) (hy : a[j]? = some y)
    (hij : i < j) : x + tolOf a < y := by
  have hj := (List.getElem?_eq_some_iff.mp hy).1
  have hlen : a.length > 1 := by omega
  have hz : a[i + 1]? = some (a[i + 1]'(by omega)) := List.getElem?_eq_getElem _
  have h1 := minDiff_le a i x _ hx hz
  have h2 := minDiff_pos a ha hlen
  have h3 : a[i + 1]'(by omega) ≤ y := by
    rcases Nat.lt_or_ge (i + 1) j with h | h
    · exact le_of_lt (incr_of_pairwise ha (i + 1) j _ y hz hy h)
    · have : i + 1 = j := by omega
      subst this
      rw [hz] at hy
      exact le_of_eq (Option.some.inj hy)
  unfold tolOf
  rw [if_pos hlen]
  have : minDiff a / 10000 < minDiff a := by
    rw [div_lt_iff₀ (by norm_num)]
    linarith
  linarith

theorem pyGet_nat (a : List ℚ) (i : Nat) (x : ℚ) (h : a[i]? = some x) : pyGet a i = .ok x := by
  unfold pyGet
  rw [if_neg (by omega), Int.toNat_natCast, h]
  simp only
  rw [if_neg (by omega)]

theorem on_head {a : List ℚ} (ha : a.Pairwise (· < ·)) {v : ℚ} (h : On a v) : ¬ v < a.headD 0 := by
  obtain ⟨⟨i, x, hx, hv⟩, -⟩ := h
  cases a with
  | nil => simp at hx
  | cons y a =>
    rw [List.headD_cons, not_lt]
    refine le_trans ?_ hv
    cases i with
    | zero => simp at hx; exact le_of_eq hx
    | succ i => exact le_of_lt (incr_of_pairwise ha 0 (i + 1) y x (by simp) hx (by omega))

theorem on_last {a : List ℚ} (ha : a.Pairwise (· < ·)) {v : ℚ} (h : On a v) : ¬ v > a.getLastD 0 := by
  obtain ⟨-, i, x, hx, hv⟩ := h
  have hi := (List.getElem?_eq_some_iff.mp hx).1
  have hl : a[a.length - 1]? = some (a.getLastD 0) := by
    rw [List.getLastD_eq_getLast?, List.getLast?_eq_getElem?, List.getElem?_eq_getElem (by omega)]
    rfl
  rw [gt_iff_lt, not_lt]
  refine le_trans hv ?_
  rcases Nat.lt_or_ge i (a.length - 1) with h | h
  · exact le_of_lt (incr_of_pairwise ha _ _ _ _ hx hl h)
  · have : i = a.length - 1 := by omega
    subst this
    rw [hx] at hl
    exact le_of_eq (Option.some.inj hl)

/-- the start of a forward slice -/
theorem start_lo (a : List ℚ) (ha : a.Pairwise (· < ·)) (v : ℚ) (hv : On a v) :
    ∃ (s : Option Int) (lo : Nat), startIdx a 1 (.val v) = some s ∧ adjStart a 1 (some v) s = .ok (some (lo : Int)) ∧ LastUpTo a v lo := by
  have hi := incr_of_pairwise ha
  have ht := tolOf_pos a ha
  obtain ⟨lo, hlo, hs, hiff⟩ := start_fwd a hi 1 (by decide) v
  obtain ⟨⟨i0, x0, hx0, hv0⟩, i1, x1, hx1, hv1⟩ := hv
  have hlt : lo < a.length := by
    have := (hiff i1 x1 hx1).mpr (by linarith)
    have := (List.getElem?_eq_some_iff.mp hx1).1
    omega
  have hx : a[lo]? = some a[lo] := List.getElem?_eq_getElem hlt
  refine ⟨some lo, ?_⟩
  by_cases hc : a[lo] > v
  · have hpos : lo ≠ 0 := by
      rintro rfl
      rcases Nat.eq_zero_or_pos i0 with rfl | h
      · rw [hx] at hx0
        have := Option.some.inj hx0
        linarith
      · have := hi 0 i0 _ _ hx hx0 h
        linarith
    have hy : a[lo - 1]? = some (a[lo - 1]'(by omega)) := List.getElem?_eq_getElem _
    refine ⟨lo - 1, hs, ?_, ⟨_, hy, ?_⟩, ?_⟩
    · unfold adjStart
      simp only [pyGet_nat a lo _ hx]
      rw [if_pos ⟨by decide, hc⟩, if_neg (by omega)]
      congr 2
      omega
    · have := (hiff (lo - 1) _ hy).not.mp (by omega)
      linarith
    · intro j y hj hyv
      by_contra hn
      rcases Nat.lt_or_ge lo j with h | h
      · have := hi lo j _ _ hx hj h
        linarith
      · have : j = lo := by omega
        subst this
        rw [hx] at hj
        have := Option.some.inj hj
        linarith
  · refine ⟨lo, hs, ?_, ⟨_, hx, not_lt.mp hc⟩, ?_⟩
    · unfold adjStart
      simp only [pyGet_nat a lo _ hx]
      rw [if_neg (fun h => hc h.2), if_neg (fun h => absurd h.1 (by decide))]
    · intro j y hj hyv
      by_contra hn
      have h1 := tol_lt_gap a ha lo j _ _ hx hj (by omega)
      have h2 := (hiff lo _ hx).mp (le_refl _)
      linarith

/-- the stop of a forward slice -/
theorem stop_hi (a : List ℚ) (ha : a.Pairwise (· < ·)) (v : ℚ) (hv : On a v) :
    ∃ hi : Nat, adjStop a 1 (some v) (stopIdx a true 1 (.val v)) = .ok (some ((hi : Int) + 1)) ∧ FirstFrom a v hi := by
  have hi := incr_of_pairwise ha
  have ht := tolOf_pos a ha
  have hne : a ≠ [] := by rintro rfl; obtain ⟨⟨i, x, hx, -⟩, -⟩ := hv; simp at hx
  obtain ⟨j, hj, hs, hiff⟩ := stop_fwd a hi 1 (by decide) v true (on_head ha hv) ht hne
  obtain ⟨-, i1, x1, hx1, hv1⟩ := hv
  have hx : a[j]? = some a[j] := List.getElem?_eq_getElem hj
  simp only [if_true] at hs
  rw [hs]
  unfold adjStop
  simp only
  rw [if_pos (by decide), if_neg (by omega), show (j : Int) + 1 - 1 = j by omega, pyGet_nat a j _ hx]
  simp only
  by_cases hc : a[j] < v
  · have hlt : j + 1 < a.length := by
      by_contra hn
      have h1 := (List.getElem?_eq_some_iff.mp hx1).1
      rcases Nat.lt_or_ge i1 j with h | h
      · have := hi i1 j _ _ hx1 hx h
        linarith
      · have : i1 = j := by omega
        subst this
        rw [hx] at hx1
        have := Option.some.inj hx1
        linarith
    have hy : a[j + 1]? = some a[j + 1] := List.getElem?_eq_getElem hlt
    refine ⟨j + 1, ?_, ⟨_, hy, ?_⟩, ?_⟩
    · rw [if_pos hc, if_neg (by omega)]
      rfl
    · have := (hiff (j + 1) _ hy).not.mp (by omega)
      linarith
    · intro k y hk hky
      by_contra hn
      rcases Nat.lt_or_ge k j with h | h
      · have := hi k j _ _ hk hx h
        linarith
      · have : k = j := by omega
        subst this
        rw [hx] at hk
        have := Option.some.inj hk
        linarith
  · refine ⟨j, by rw [if_neg hc], ⟨_, hx, not_lt.mp hc⟩, ?_⟩
    intro k y hk hky
    by_contra hn
    have h1 := tol_lt_gap a ha k j _ _ hk hx (by omega)
    have h2 := (hiff j _ hx).mp (le_refl _)
    linarith

/-- the start of a backward slice -/
theorem start_hi (a : List ℚ) (ha : a.Pairwise (· < ·)) (v : ℚ) (hv : On a v) :
    ∃ (s : Option Int) (hi : Nat), startIdx a (-1) (.val v) = some s ∧ adjStart a (-1) (some v) s = .ok (some (hi : Int)) ∧ FirstFrom a v hi := by
  have hi := incr_of_pairwise ha
  have ht := tolOf_pos a ha
  obtain ⟨⟨i0, x0, hx0, hv0⟩, i1, x1, hx1, hv1⟩ := hv
  rcases start_bwd a hi (-1) (by decide) v with ⟨-, h⟩ | ⟨j, hj, hs, hiff⟩
  · exact absurd (by linarith) (h i0 x0 hx0)
  have hx : a[j]? = some a[j] := List.getElem?_eq_getElem hj
  refine ⟨some j, ?_⟩
  by_cases hc : a[j] < v
  · have hlt : j + 1 < a.length := by
      by_contra hn
      have h1 := (List.getElem?_eq_some_iff.mp hx1).1
      rcases Nat.lt_or_ge i1 j with h | h
      · have := hi i1 j _ _ hx1 hx h
        linarith
      · have : i1 = j := by omega
        subst this
        rw [hx] at hx1
        have := Option.some.inj hx1
        linarith
    have hy : a[j + 1]? = some a[j + 1] := List.getElem?_eq_getElem hlt
    refine ⟨j + 1, hs, ?_, ⟨_, hy, ?_⟩, ?_⟩
    · unfold adjStart
      simp only [pyGet_nat a j _ hx]
      rw [if_neg (fun h => absurd h.1 (by decide)), if_pos ⟨by decide, hc⟩, if_neg (by omega)]
      rfl
    · have := (hiff (j + 1) _ hy).not.mp (by omega)
      linarith
    · intro k y hk hky
      by_contra hn
      rcases Nat.lt_or_ge k j with h | h
      · have := hi k j _ _ hk hx h
        linarith
      · have : k = j := by omega
        subst this
        rw [hx] at hk
        have := Option.some.inj hk
        linarith
  · refine ⟨j, hs, ?_, ⟨_, hx, not_lt.mp hc⟩, ?_⟩
    · unfold adjStart
      simp only [pyGet_nat a j _ hx]
      rw [if_neg (fun h => absurd h.1 (by decide)), if_neg (fun h => hc h.2)]
    · intro k y hk hky
      by_contra hn
      have h1 := tol_lt_gap a ha k j _ _ hk hx (by omega)
      have h2 := (hiff j _ hx).mp (le_refl _)
      linarith

/-- the stop of a backward slice -/
theorem stop_lo (a : List ℚ) (ha : a.Pairwise (· < ·)) (v : ℚ) (hv : On a v) :
    ∃ lo : Nat, adjStop a (-1) (some v) (stopIdx a true (-1) (.val v)) = .ok (if lo = 0 then none else some ((lo : Int) - 1)) ∧
      LastUpTo a v lo := by
  have hi := incr_of_pairwise ha
  have ht := tolOf_pos a ha
  have hne : a ≠ [] := by rintro rfl; obtain ⟨⟨i, x, hx, -⟩, -⟩ := hv; simp at hx
  obtain ⟨j, hj, hs, hiff⟩ := stop_bwd a hi (-1) (by decide) v true (on_last ha hv) ht hne
  obtain ⟨⟨i0, x0, hx0, hv0⟩, -⟩ := hv
  have hx : a[j]? = some a[j] := List.getElem?_eq_getElem hj
  simp only [if_true] at hs
  have hlow : ¬ a[j] > v → LastUpTo a v j := by
    intro hc
    refine ⟨⟨_, hx, not_lt.mp hc⟩, ?_⟩
    intro k y hk hky
    by_contra hn
    have h1 := tol_lt_gap a ha j k _ _ hx hk (by omega)
    have h2 := (hiff j _ hx).mp (le_refl _)
    linarith
  have hzero : a[j] > v → j ≠ 0 := by
    rintro hc rfl
    rcases Nat.eq_zero_or_pos i0 with rfl | h
    · rw [hx] at hx0
      have := Option.some.inj hx0
      linarith
    · have := hi 0 i0 _ _ hx hx0 h
      linarith
  rw [hs]
  rcases Nat.eq_zero_or_pos j with rfl | hpos
  · exact ⟨0, by simp [adjStop], hlow fun hc => hzero hc rfl⟩
  rw [if_pos hpos]
  unfold adjStop
  simp only
  have hget : pyGet a (if (j : Int) - 1 = -1 ∨ (j : Int) - 1 = a.length then -1 else (j : Int) - 1 + 1) = .ok a[j] := by
    rw [if_neg (by omega), show (j : Int) - 1 + 1 = j by omega]
    exact pyGet_nat a j _ hx
  rw [if_neg (by decide), if_pos (by decide), hget]
  simp only
  by_cases hc : a[j] > v
  · have hy : a[j - 1]? = some (a[j - 1]'(by omega)) := List.getElem?_eq_getElem _
    refine ⟨j - 1, ?_, ⟨_, hy, ?_⟩, ?_⟩
    · rw [if_pos hc]
      by_cases h1 : j = 1
      · subst h1; rfl
      · rw [if_neg (by omega), if_neg (by omega)]
        congr 2
        omega
    · have := (hiff (j - 1) _ hy).not.mp (by omega)
      linarith
    · intro k y hk hky
      by_contra hn
      rcases Nat.lt_or_ge j k with h | h
      · have := hi j k _ _ hx hk h
        linarith
      · have : k = j := by omega
        subst this
        rw [hx] at hk
        have := Option.some.inj hk
        linarith
  · refine ⟨j, ?_, hlow hc⟩
    rw [if_neg hc, if_neg (by omega)]

end Viscid.Props
