import Verif.Model.FwdSlice
import Verif.Spec.Slice
namespace Viscid.FwdSlice
open Viscid.Spec.Slice

theorem ap_reverse (a d : Int) (n : Nat) : (ap a d n).reverse = ap (a + ((n : Int) - 1) * d) (-d) n := by
  unfold ap
  apply List.ext_getElem
  · simp
  · intro i h1 h2
    simp only [List.length_reverse, List.length_map, List.length_range] at h1
    simp only [List.getElem_reverse, List.getElem_map, List.getElem_range, List.length_map, List.length_range]
    have : ((n - 1 - i : Nat) : Int) = (n : Int) - 1 - i := by omega
    rw [this, Int.sub_mul, Int.mul_neg]
    omega

theorem ap_congr (a b d : Int) (n : Nat) (h : n = 0 ∨ a = b) : ap a d n = ap b d n := by
  rcases h with rfl | rfl
  · rfl
  · rfl

theorem ap_map_sub (L a d : Int) (n : Nat) : (ap a d n).map (fun i => L - 1 - i) = ap (L - 1 - a) (-d) n := by
  unfold ap
  rw [List.map_map]
  apply List.map_congr_left
  intro k _
  simp only [Function.comp, Int.mul_neg]
  omega

/-- Going up to exactly `stop - 1`, read backwards, is going down from `stop - 1`. -/
theorem pyRange_reverse (lo stop step : Int) (hs : step > 0) (r : Int) (hr : r = (stop - 1 - lo) % step)
    (h : lo + r < stop ∨ stop ≤ lo) :
    (pyRange (lo + r) stop step).reverse = pyRange (stop - 1) (lo - 1) (-step) := by
  unfold pyRange
  rw [ap_reverse]
  have hdm := Int.mul_ediv_add_emod (stop - 1 - lo) step
  have hr0 : 0 ≤ r := by rw [hr]; exact Int.emod_nonneg _ (by omega)
  rw [← hr] at hdm
  generalize hq : (stop - 1 - lo) / step = q at hdm
  by_cases hlt : lo + r < stop
  · have hq0 : 0 ≤ q := by
      rw [← hq]; exact Int.ediv_nonneg (by omega) (by omega)
    have e1 : rangeLen (lo + r) stop step = (q + 1).toNat := by
      unfold rangeLen
      rw [if_pos hs, if_pos hlt]
      congr 2
      have : stop - (lo + r) - 1 = step * q := by omega
      rw [this, Int.mul_ediv_cancel_left _ (by omega)]
    have e2 : rangeLen (stop - 1) (lo - 1) (-step) = (q + 1).toNat := by
      unfold rangeLen
      rw [if_neg (by omega), if_pos (by omega)]
      congr 2
      have : stop - 1 - (lo - 1) - 1 = stop - 1 - lo := by omega
      rw [this, Int.neg_neg, hq]
    rw [e1, e2]
    congr 1
    have : ((q + 1).toNat : Int) - 1 = q := by omega
    rw [this, Int.mul_comm]
    omega
  · have e1 : rangeLen (lo + r) stop step = 0 := by
      unfold rangeLen; rw [if_pos hs, if_neg hlt]
    have e2 : rangeLen (stop - 1) (lo - 1) (-step) = 0 := by
      unfold rangeLen; rw [if_neg (by omega), if_neg (by omega)]
    rw [e1, e2]
    rfl

theorem makeFwd_ok (L : Int) (slc : Slc) (rev : Bool) (first : Slc) (flip : Bool)
    (h : makeFwd L slc rev = .ok (first, flip)) :
    ¬ (norm L (slc.start.getD 0) < 0 ∨ norm L (slc.stop.getD L) < 0) ∧
    ¬ (norm L (slc.start.getD 0) > L ∨ norm L (slc.stop.getD L) > L) ∧
    ∃ start stop step fl,
      flipMath L slc rev (norm L (slc.start.getD 0)) (norm L (slc.stop.getD L)) (slc.step.getD 1)
        = .ok (start, stop, step, fl) ∧ finish L start stop step fl = .ok (first, flip) := by
  unfold makeFwd at h
  dsimp only at h
  split at h
  · cases h
  · rename_i h1
    split at h
    · cases h
    · rename_i h2
      split at h
      · cases h
      · rename_i heq
        exact ⟨h1, h2, _, _, _, _, heq, h⟩

theorem finish_ok (L start : Int) (stop : Option Int) (step : Int) (fl : Bool) (first : Slc) (flip : Bool)
    (h : finish L start stop step fl = .ok (first, flip)) :
    first = ⟨some start, stop, some step⟩ ∧ flip = fl ∧ (start ≥ 0 ∧ start ≤ L) ∧
    (stop.isNone ∨ (start = 0 ∧ stop = some 0) ∨ start < stop.getD 0) ∧ step > 0 := by
  unfold finish at h
  split at h
  · cases h
  · rename_i g1
    split at h
    · cases h
    · rename_i g2
      split at h
      · cases h
      · rename_i g3
        cases h
        exact ⟨rfl, rfl, Classical.not_not.mp g1, Classical.not_not.mp g2, Classical.not_not.mp g3⟩

theorem clamp_norm (L lo hi v : Int) (hv : 0 ≤ norm L v) (hlo : lo ≤ 0) (h : norm L v ≤ L)
    (hi1 : hi = L ∨ hi = L - 1) : clampIdx L lo hi v = min (norm L v) hi := by
  unfold clampIdx norm at *
  split <;> rename_i hc <;> simp only [hc, if_true, if_false] at hv h <;> omega

variable (L : Int) (s : Option Int)

theorem elim_start_pos {x : Int} (_hL : 0 ≤ L) (h1 : ¬ (norm L (s.getD 0) < 0 ∨ x < 0))
    {y : Int} (h2 : ¬ (norm L (s.getD 0) > L ∨ y > L)) :
    s.elim 0 (clampIdx L 0 L) = norm L (s.getD 0) := by
  cases s with
  | none => simp [norm]
  | some v =>
    simp only [Option.elim, Option.getD_some] at *
    rw [clamp_norm L 0 L v (by omega) (by omega) (by omega) (Or.inl rfl)]; omega

theorem elim_stop_pos {x : Int} (hL : 0 ≤ L) (h1 : ¬ (x < 0 ∨ norm L (s.getD L) < 0))
    {y : Int} (h2 : ¬ (y > L ∨ norm L (s.getD L) > L)) :
    s.elim L (clampIdx L 0 L) = norm L (s.getD L) := by
  cases s with
  | none => simp only [Option.elim, Option.getD_none, norm]; rw [if_neg (by omega)]
  | some v =>
    simp only [Option.elim, Option.getD_some] at *
    rw [clamp_norm L 0 L v (by omega) (by omega) (by omega) (Or.inl rfl)]; omega

theorem elim_start_neg {x : Int} (_hL : 0 ≤ L) (h1 : ¬ (norm L (s.getD 0) < 0 ∨ x < 0))
    {y : Int} (h2 : ¬ (norm L (s.getD 0) > L ∨ y > L)) :
    s.elim (L - 1) (clampIdx L (-1) (L - 1)) =
      min (if s.isNone = true then L - 1 else norm L (s.getD 0)) (L - 1) := by
  cases s with
  | none => simp
  | some v =>
    simp only [Option.elim, Option.getD_some, Option.isNone_some, Bool.false_eq_true, if_false] at *
    exact clamp_norm L (-1) (L - 1) v (by omega) (by omega) (by omega) (Or.inr rfl)

theorem elim_stop_neg {x : Int} (hL : 0 ≤ L) (h1 : ¬ (x < 0 ∨ norm L (s.getD L) < 0))
    {y : Int} (h2 : ¬ (y > L ∨ norm L (s.getD L) > L)) :
    (s.isNone = true → s.elim (-1) (clampIdx L (-1) (L - 1)) = -1) ∧
    (s.isNone = false → s.elim (-1) (clampIdx L (-1) (L - 1)) = min (norm L (s.getD L)) (L - 1)) := by
  cases s with
  | none => simp
  | some v =>
    simp only [Option.elim, Option.getD_some, Option.isNone_some, Bool.false_eq_true] at *
    refine ⟨fun h => h.elim, fun _ => ?_⟩
    exact clamp_norm L (-1) (L - 1) v (by omega) (by omega) (by omega) (Or.inr rfl)

theorem fwd_back (L a lo step : Int) (hs : step < 0) (hlo : 0 ≤ lo) (ha1 : -1 ≤ a)
    (ha2 : a ≤ L - 1 ∨ (a = L ∧ step = -1))
    (g1 : lo + (a + 1 - 1 - lo) % -step ≥ 0 ∧ lo + (a + 1 - 1 - lo) % -step ≤ L)
    (g2 : (lo + (a + 1 - 1 - lo) % -step = 0 ∧ a + 1 = 0) ∨ lo + (a + 1 - 1 - lo) % -step < a + 1) :
    (pyRange (clampIdx L 0 L (lo + (a + 1 - 1 - lo) % -step)) (clampIdx L 0 L (a + 1)) (-step)).reverse =
      pyRange (min a (L - 1)) (lo - 1) step := by
  unfold clampIdx
  rw [if_neg (by omega), if_neg (by omega)]
  rcases ha2 with ha2 | ⟨rfl, rfl⟩
  · rw [Int.min_eq_left (by omega), Int.min_eq_left (by omega), Int.min_eq_left (by omega)]
    rw [pyRange_reverse lo (a + 1) (-step) (by omega) _ rfl (by omega)]
    rw [Int.neg_neg]
    congr 1
    omega
  · have hmod : ∀ x : Int, x % (- -1) = 0 := by
      intro x; rw [Int.neg_neg]; exact Int.emod_one x
    rw [hmod] at g1 g2 ⊢
    rw [Int.min_eq_left (by omega), Int.min_eq_right (by omega), Int.min_eq_right (by omega)]
    have := pyRange_reverse lo a (- -1) (by omega) 0 (by rw [hmod]) (by omega)
    rw [this, Int.neg_neg]

theorem emod_le_self (y m : Int) (hy : 0 ≤ y) (hm : 0 < m) : y % m ≤ y := by
  have h1 := Int.mul_ediv_add_emod y m
  have h2 : 0 ≤ m * (y / m) := Int.mul_nonneg (by omega) (Int.ediv_nonneg hy (by omega))
  omega

theorem pyRange_ne_nil_pos (a b d : Int) (hd : d > 0) (h : pyRange a b d ≠ []) : a < b := by
  by_cases hab : a < b
  · exact hab
  · exfalso; apply h; unfold pyRange rangeLen; rw [if_pos hd, if_neg hab]; rfl

theorem pyRange_ne_nil_neg (a b d : Int) (hd : d < 0) (h : pyRange a b d ≠ []) : b < a := by
  by_cases hab : b < a
  · exact hab
  · exfalso; apply h; unfold pyRange rangeLen; rw [if_neg (by omega), if_neg hab]; rfl

end Viscid.FwdSlice
