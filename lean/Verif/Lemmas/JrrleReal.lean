import Verif.Model.JrrleReal
import Verif.Lemmas.Jrrle
import Mathlib.Tactic.Ring
import Mathlib.Tactic.Linarith
import Mathlib.Tactic.FieldSimp
import Mathlib.Tactic.Positivity
namespace Viscid.Jrrle
open Real

theorem foldl_min_le (a : List ℝ) (z : ℝ) :
    a.foldl (fun z x => min z |x|) z ≤ z ∧ ∀ x ∈ a, a.foldl (fun z x => min z |x|) z ≤ |x| := by
  induction a generalizing z with
  | nil => simp
  | cons y a ih =>
    simp only [List.foldl_cons, List.mem_cons, forall_eq_or_imp]
    obtain ⟨h1, h2⟩ := ih (min z |y|)
    exact ⟨h1.trans (min_le_left _ _), h1.trans (min_le_right _ _), h2⟩

theorem le_foldl_max (a : List ℝ) (z : ℝ) :
    z ≤ a.foldl (fun z x => max z |x|) z ∧ ∀ x ∈ a, |x| ≤ a.foldl (fun z x => max z |x|) z := by
  induction a generalizing z with
  | nil => simp
  | cons y a ih =>
    simp only [List.foldl_cons, List.mem_cons, forall_eq_or_imp]
    obtain ⟨h1, h2⟩ := ih (max z |y|)
    exact ⟨(le_max_left _ _).trans h1, (le_max_right _ _).trans h1, h2⟩

theorem tiny_pos : (0 : ℝ) < 1 / (10 : ℝ) ^ (33 : ℕ) := by positivity
theorem tiny_le_huge : (1 : ℝ) / (10 : ℝ) ^ (33 : ℕ) ≤ (10 : ℝ) ^ (33 : ℕ) := by
  norm_num

/-- For a nonempty array the header range is proper and covers the (clamped) data. -/
theorem zRange_spec (a : List ℝ) (hne : a ≠ []) :
    (zRange a).1 < (zRange a).2 ∧
    ∀ x ∈ a, log (max (exp (zRange a).1) (min ((10 : ℝ) ^ (33 : ℕ)) |x|)) ≤ (zRange a).2 := by
  obtain ⟨m1, m2⟩ := foldl_min_le a ((10 : ℝ) ^ (33 : ℕ))
  obtain ⟨M1, M2⟩ := le_foldl_max a (1 / (10 : ℝ) ^ (33 : ℕ))
  obtain ⟨y, hy⟩ := List.exists_mem_of_ne_nil a hne
  set zmin := max (1 / (10 : ℝ) ^ (33 : ℕ)) (absRange a).1 with hzmin
  set zmax := min ((10 : ℝ) ^ (33 : ℕ)) (absRange a).2 with hzmax
  have hmm : zmin ≤ zmax := by
    apply max_le
    · exact le_min tiny_le_huge M1
    · exact le_min m1 ((m2 y hy).trans (M2 y hy))
  have hpos : 0 < zmin := lt_of_lt_of_le tiny_pos (le_max_left _ _)
  have hlog : log zmin ≤ log zmax := log_le_log hpos hmm
  have hdef : zRange a = if |log zmax - max (log zmin) (log zmax - 37)| ≤ 1 / 100000
      then (max (log zmin) (log zmax - 37) - 1, log zmax + 1)
      else (max (log zmin) (log zmax - 37), log zmax) := by
    unfold zRange
    simp only [← hzmin, ← hzmax, ne_eq, hpos.ne', not_false_eq_true, if_true]
  have hz1 : max (log zmin) (log zmax - 37) ≤ log zmax := max_le hlog (by linarith)
  have hlt : (zRange a).1 < (zRange a).2 ∧ log zmax ≤ (zRange a).2 := by
    rw [hdef]
    split
    · exact ⟨by simp only; linarith, by simp only; linarith⟩
    · next h =>
      refine ⟨?_, le_refl _⟩
      simp only
      rw [abs_of_nonneg (by linarith)] at h
      push Not at h
      linarith
  refine ⟨hlt.1, ?_⟩
  intro x hx
  have hxm : min ((10 : ℝ) ^ (33 : ℕ)) |x| ≤ zmax := min_le_min_left _ (M2 x hx)
  rcases le_total (min ((10 : ℝ) ^ (33 : ℕ)) |x|) (exp (zRange a).1) with h | h
  · rw [max_eq_left h, log_exp]; exact hlt.1.le
  · rw [max_eq_right h]
    exact (log_le_log (lt_of_lt_of_le (exp_pos _) h) hxm).trans hlt.2

/-- Quantisation: index range, sign and error in the logarithm. -/
theorem quant_spec (z1 z2 x L : ℝ) (hz : z1 < z2)
    (hL : L = log (max (exp z1) (min ((10 : ℝ) ^ (33 : ℕ)) |x|))) (hup : L ≤ z2) :
    (quant z1 z2 x).2 ≤ 4410 ∧ (quant z1 z2 x).1 = decide (x < 0) ∧
    |((z2 - z1) / 4410 * ((quant z1 z2 x).2 : ℝ) + z1) - L| ≤ (z2 - z1) / 8820 := by
  have hlo : z1 ≤ L := by
    rw [hL]
    calc z1 = log (exp z1) := (log_exp z1).symm
      _ ≤ _ := log_le_log (exp_pos _) (le_max_left _ _)
  have hd : 0 < z2 - z1 := by linarith
  set t := 4410 / (z2 - z1) * (L - z1) + 1 / 2 with ht
  have ht0 : 0 ≤ t := by
    have : 0 ≤ 4410 / (z2 - z1) * (L - z1) := by
      apply mul_nonneg (by positivity); linarith
    linarith
  have ht1 : t ≤ 4410 + 1 / 2 := by
    have : 4410 / (z2 - z1) * (L - z1) ≤ 4410 := by
      rw [div_mul_eq_mul_div, div_le_iff₀ hd]
      nlinarith
    linarith
  have hfl0 : 0 ≤ ⌊t⌋ := Int.floor_nonneg.mpr ht0
  have hfl1 : ⌊t⌋ ≤ 4410 := by
    have : ⌊t⌋ < 4411 := by
      rw [Int.floor_lt]; push_cast; linarith
    omega
  have hq : quant z1 z2 x = (decide (x < 0), ⌊t⌋.toNat) := by
    unfold quant INT
    simp only [← hL, ← ht, ht0, if_true]
    rw [max_eq_right hfl0, min_eq_right (by omega)]
  rw [hq]
  refine ⟨by simp only; omega, rfl, ?_⟩
  have hcast : ((⌊t⌋.toNat : ℕ) : ℝ) = (⌊t⌋ : ℝ) := by
    have : ((⌊t⌋.toNat : ℕ) : ℤ) = ⌊t⌋ := Int.toNat_of_nonneg hfl0
    exact_mod_cast this
  simp only [hcast]
  have hLt : L = (z2 - z1) / 4410 * (t - 1 / 2) + z1 := by
    rw [ht]; field_simp; ring
  have h1 := Int.floor_le t
  have h2 := Int.lt_floor_add_one t
  rw [hLt]
  have he : (z2 - z1) / 4410 * (⌊t⌋ : ℝ) + z1 - ((z2 - z1) / 4410 * (t - 1 / 2) + z1) =
      (z2 - z1) / 4410 * ((⌊t⌋ : ℝ) - t + 1 / 2) := by ring
  rw [he, abs_mul, abs_of_pos (by positivity)]
  have : |(⌊t⌋ : ℝ) - t + 1 / 2| ≤ 1 / 2 := by
    rw [abs_le]; constructor <;> linarith
  calc (z2 - z1) / 4410 * |(⌊t⌋ : ℝ) - t + 1 / 2| ≤ (z2 - z1) / 4410 * (1 / 2) :=
        mul_le_mul_of_nonneg_left this (by positivity)
    _ = (z2 - z1) / 8820 := by ring

end Viscid.Jrrle
