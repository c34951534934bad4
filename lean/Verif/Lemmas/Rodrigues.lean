import Verif.Lemmas.Rotation
import Mathlib.Analysis.SpecialFunctions.Trigonometric.Inverse
/-!
# Lemmas on axis-angle rotations
-/
namespace Viscid.Rotation
open Matrix Viscid.Spec.Rotation

theorem ext3 {a b : V3} (h0 : a 0 = b 0) (h1 : a 1 = b 1) (h2 : a 2 = b 2) : a = b := by
  ext i; fin_cases i <;> assumption

theorem len_sq (v : V3) : len v ^ 2 = v 0 ^ 2 + v 1 ^ 2 + v 2 ^ 2 := by
  unfold len; rw [Real.sq_sqrt]; positivity

theorem len_nonneg (v : V3) : 0 ≤ len v := Real.sqrt_nonneg _

theorem dot_self (v : V3) : dot v v = len v ^ 2 := by rw [len_sq]; unfold dot; ring

theorem len_eq_one {v : V3} (h : dot v v = 1) : len v = 1 := by
  rw [dot_self] at h
  have := len_nonneg v
  nlinarith

theorem unit_dot {v : V3} (h : len v ≠ 0) : dot (unit v) (unit v) = 1 := by
  have e := len_sq v
  unfold dot unit
  field_simp
  linarith

theorem unit_of_dot {v : V3} (h : dot v v = 1) : unit v = v := by
  ext i; unfold unit; rw [len_eq_one h, div_one]

theorem eq_zero_of_len {v : V3} (h : len v = 0) : v 0 = 0 ∧ v 1 = 0 ∧ v 2 = 0 := by
  have e := len_sq v
  rw [h] at e
  refine ⟨?_, ?_, ?_⟩ <;> nlinarith [sq_nonneg (v 0), sq_nonneg (v 1), sq_nonneg (v 2)]

/-- Rodrigues' formula with the sine and cosine as parameters. -/
def rodM (c s : ℝ) (k : V3) : M3 :=
  !![c + (1 - c) * k 0 * k 0, -s * k 2 + (1 - c) * k 0 * k 1, s * k 1 + (1 - c) * k 0 * k 2;
     s * k 2 + (1 - c) * k 1 * k 0, c + (1 - c) * k 1 * k 1, -s * k 0 + (1 - c) * k 1 * k 2;
     -s * k 1 + (1 - c) * k 2 * k 0, s * k 0 + (1 - c) * k 2 * k 1, c + (1 - c) * k 2 * k 2]

theorem rodrigues_eq (θ : ℝ) {k : V3} (h : dot k k = 1) : rodrigues θ k = rodM (Real.cos θ) (Real.sin θ) k := by
  unfold dot at h
  unfold rodrigues
  apply ext9 <;>
    simp only [Matrix.add_apply, Matrix.smul_apply, smul_eq_mul, mul9] <;>
    simp [crossMat, rodM] <;> grind

theorem rodM_isRot {c s : ℝ} {k : V3} (h : dot k k = 1) (hcs : c ^ 2 + s ^ 2 = 1) : IsRot (rodM c s k) := by
  unfold dot at h
  apply isRot_of_entries <;> simp [rodM, Matrix.det_fin_three] <;> grind

theorem rodrigues_isRot (θ : ℝ) {k : V3} (h : dot k k = 1) : IsRot (rodrigues θ k) := by
  rw [rodrigues_eq θ h]; exact rodM_isRot h (Real.cos_sq_add_sin_sq θ)

/-- A vector perpendicular to the axis is turned in its plane. -/
theorem rodM_perp {c s : ℝ} {k v : V3} (hv : dot k v = 0) :
    rodM c s k *ᵥ v = fun i => c * v i + s * cross k v i := by
  unfold dot at hv
  apply ext3 <;> rw [mulVec3] <;> simp [rodM, cross] <;> grind

theorem rodM_axis {c s : ℝ} {k : V3} (h : dot k k = 1) : rodM c s k *ᵥ k = k := by
  unfold dot at h
  apply ext3 <;> rw [mulVec3] <;> simp [rodM] <;> grind

theorem rodM_neg {c s : ℝ} {k : V3} : rodM c s (vsmul (-1) k) = rodM c (-s) k := by
  apply ext9 <;> simp [rodM, vsmul]

/-- Rotations keep inner products. -/
theorem IsRot_dot {R : M3} (h : IsRot R) (a b : V3) : dot (R *ᵥ a) (R *ᵥ b) = dot a b := by
  obtain ⟨k00, k11, k22, k01, k02, k12⟩ := h.transpose.entries
  simp only [Matrix.transpose_apply] at k00 k11 k22 k01 k02 k12
  unfold dot
  simp only [mulVec3]
  linear_combination a 0 * b 0 * k00 + a 1 * b 1 * k11 + a 2 * b 2 * k22 + (a 0 * b 1 + a 1 * b 0) * k01
    + (a 0 * b 2 + a 2 * b 0) * k02 + (a 1 * b 2 + a 2 * b 1) * k12

/-- Rotations keep cross products. -/
theorem IsRot_cross {R : M3} (h : IsRot R) (a b : V3) : R *ᵥ cross a b = cross (R *ᵥ a) (R *ᵥ b) := by
  obtain ⟨c00, c01, c02, c10, c11, c12, c20, c21, c22⟩ := h.cof
  apply ext3
  · simp only [cross, mulVec3, Matrix.cons_val]
    rw [c00, c01, c02]; ring
  · simp only [cross, mulVec3, Matrix.cons_val]
    rw [c10, c11, c12]; ring
  · simp only [cross, mulVec3, Matrix.cons_val]
    rw [c20, c21, c22]; ring

theorem IsRot_inj {R : M3} (h : IsRot R) {a b : V3} (e : R *ᵥ a = R *ᵥ b) : a = b := by
  have h1 : Rᵀ * R = 1 := mul_eq_one_comm.1 h.1
  have := congrArg (Rᵀ *ᵥ ·) e
  simpa [Matrix.mulVec_mulVec, h1] using this

/-- A matrix whose columns are `u`, `v` and `u x v`. -/
def frame (u v : V3) : M3 := Matrix.of fun i j => ![u i, v i, cross u v i] j

theorem frame_isRot {u v : V3} (hu : dot u u = 1) (hv : dot v v = 1) (huv : dot u v = 0) : IsRot (frame u v) := by
  have h : IsRot (frame u v)ᵀ := by
    unfold dot at *
    apply isRot_of_entries <;> simp [frame, cross, Matrix.det_fin_three] <;> grind
  simpa using h.transpose

/-- Two rotations that agree on two perpendicular unit vectors are equal. -/
theorem eq_of_frame {R S : M3} (hR : IsRot R) (hS : IsRot S) {u v : V3} (hu : dot u u = 1) (hv : dot v v = 1)
    (huv : dot u v = 0) (eu : R *ᵥ u = S *ᵥ u) (ev : R *ᵥ v = S *ᵥ v) : R = S := by
  have ec : R *ᵥ cross u v = S *ᵥ cross u v := by rw [IsRot_cross hR, IsRot_cross hS, eu, ev]
  have hB := frame_isRot hu hv huv
  have e : R * frame u v = S * frame u v := by
    ext i j
    have e0 := congrFun eu i
    have e1 := congrFun ev i
    have e2 := congrFun ec i
    rw [mulVec3, mulVec3] at e0 e1 e2
    rw [mul9, mul9]
    match j with
    | 0 => exact e0
    | 1 => exact e1
    | 2 => exact e2
  have := congrArg (· * (frame u v)ᵀ) e
  simpa [Matrix.mul_assoc, hB.1] using this

/-- A vector perpendicular to `u`, in the frame of `u`, `b`, `u x b`. -/
theorem perp_expand {u b w : V3} (hu : dot u u = 1) (hb : dot b b = 1) (hub : dot u b = 0) (huw : dot u w = 0) :
    w = fun i => dot b w * b i + dot (cross b w) u * cross u b i := by
  have h := frame_isRot hu hb hub
  obtain ⟨k00, k11, k22, k01, k02, k12⟩ := h.entries
  simp only [frame, Matrix.of_apply, Matrix.cons_val] at k00 k11 k22 k01 k02 k12
  unfold dot at *
  apply ext3 <;> simp only [cross, Matrix.cons_val] at * <;> grind

/-- A rotation that fixes `u` turns about `u`. -/
theorem eq_rodM {R : M3} (hR : IsRot R) {u b : V3} (hu : dot u u = 1) (hb : dot b b = 1) (hub : dot u b = 0)
    (hf : R *ᵥ u = u) :
    R = rodM (dot b (R *ᵥ b)) (dot (cross b (R *ᵥ b)) u) u ∧
    dot b (R *ᵥ b) ^ 2 + dot (cross b (R *ᵥ b)) u ^ 2 = 1 := by
  have huw : dot u (R *ᵥ b) = 0 := by
    have := IsRot_dot hR u b
    rw [hf, hub] at this; exact this
  have hww : dot (R *ᵥ b) (R *ᵥ b) = 1 := by rw [IsRot_dot hR, hb]
  have e := perp_expand hu hb hub huw
  have hcs : dot b (R *ᵥ b) ^ 2 + dot (cross b (R *ᵥ b)) u ^ 2 = 1 := by
    generalize dot b (R *ᵥ b) = c at e
    generalize dot (cross b (R *ᵥ b)) u = s at e
    rw [e] at hww
    have h := frame_isRot hu hb hub
    unfold dot at *
    simp only [cross, Matrix.cons_val] at hww
    grind
  refine ⟨?_, hcs⟩
  apply eq_of_frame hR (rodM_isRot hu hcs) hu hb hub
  · rw [hf, rodM_axis hu]
  · rw [rodM_perp hub]; exact e

theorem arctan2_spec {s c : ℝ} (h : c ^ 2 + s ^ 2 = 1) :
    Real.cos (arctan2 s c) = c ∧ Real.sin (arctan2 s c) = s := by
  have hn : ‖(⟨c, s⟩ : ℂ)‖ = 1 := by
    rw [Complex.norm_def, Complex.normSq_mk, show c * c + s * s = 1 by nlinarith]; exact Real.sqrt_one
  have hz : (⟨c, s⟩ : ℂ) ≠ 0 := by intro e; rw [e] at hn; simp at hn
  unfold arctan2
  constructor
  · rw [Complex.cos_arg hz, hn, div_one]
  · rw [Complex.sin_arg, hn, div_one]

end Viscid.Rotation
