import Verif.Spec.Rotation
import Mathlib.LinearAlgebra.Matrix.NonsingularInverse
import Mathlib.Tactic.LinearCombination
import Mathlib.Tactic.FinCases
import Mathlib.Tactic.FieldSimp
import Mathlib.Tactic.Linarith
/-!
# Lemmas on rotation matrices and quaternions
-/
namespace Viscid.Rotation
open Matrix Viscid.Spec.Rotation

/-- Entrywise equality of 3x3 matrices. -/
theorem ext9 {A B : M3} (h00 : A 0 0 = B 0 0) (h01 : A 0 1 = B 0 1) (h02 : A 0 2 = B 0 2)
    (h10 : A 1 0 = B 1 0) (h11 : A 1 1 = B 1 1) (h12 : A 1 2 = B 1 2)
    (h20 : A 2 0 = B 2 0) (h21 : A 2 1 = B 2 1) (h22 : A 2 2 = B 2 2) : A = B := by
  ext i j
  fin_cases i <;> fin_cases j <;> assumption

theorem mul9 (A B : M3) (i j : Fin 3) : (A * B) i j = A i 0 * B 0 j + A i 1 * B 1 j + A i 2 * B 2 j := by
  rw [Matrix.mul_apply, Fin.sum_univ_three]

theorem mulVec3 (A : M3) (v : V3) (i : Fin 3) : (A *ᵥ v) i = A i 0 * v 0 + A i 1 * v 1 + A i 2 * v 2 := by
  rw [Matrix.mulVec, dotProduct, Fin.sum_univ_three]

theorem isRot_of_entries {R : M3}
    (h00 : R 0 0 * R 0 0 + R 0 1 * R 0 1 + R 0 2 * R 0 2 = 1)
    (h11 : R 1 0 * R 1 0 + R 1 1 * R 1 1 + R 1 2 * R 1 2 = 1)
    (h22 : R 2 0 * R 2 0 + R 2 1 * R 2 1 + R 2 2 * R 2 2 = 1)
    (h01 : R 0 0 * R 1 0 + R 0 1 * R 1 1 + R 0 2 * R 1 2 = 0)
    (h02 : R 0 0 * R 2 0 + R 0 1 * R 2 1 + R 0 2 * R 2 2 = 0)
    (h12 : R 1 0 * R 2 0 + R 1 1 * R 2 1 + R 1 2 * R 2 2 = 0) (hd : R.det = 1) : IsRot R := by
  refine ⟨?_, hd⟩
  apply ext9 <;> rw [mul9] <;> simp only [Matrix.transpose_apply, Matrix.one_apply] <;> simp <;> linarith

theorem _root_.Viscid.Spec.Rotation.IsRot.entries {R : M3} (h : IsRot R) :
    R 0 0 * R 0 0 + R 0 1 * R 0 1 + R 0 2 * R 0 2 = 1 ∧
    R 1 0 * R 1 0 + R 1 1 * R 1 1 + R 1 2 * R 1 2 = 1 ∧
    R 2 0 * R 2 0 + R 2 1 * R 2 1 + R 2 2 * R 2 2 = 1 ∧
    R 0 0 * R 1 0 + R 0 1 * R 1 1 + R 0 2 * R 1 2 = 0 ∧
    R 0 0 * R 2 0 + R 0 1 * R 2 1 + R 0 2 * R 2 2 = 0 ∧
    R 1 0 * R 2 0 + R 1 1 * R 2 1 + R 1 2 * R 2 2 = 0 := by
  have e (i j : Fin 3) : R i 0 * R j 0 + R i 1 * R j 1 + R i 2 * R j 2 = (1 : M3) i j := by
    rw [← h.1, mul9]; rfl
  refine ⟨?_, ?_, ?_, ?_, ?_, ?_⟩
  · simpa using e 0 0
  · simpa using e 1 1
  · simpa using e 2 2
  · simpa using e 0 1
  · simpa using e 0 2
  · simpa using e 1 2

theorem _root_.Viscid.Spec.Rotation.IsRot.transpose {R : M3} (h : IsRot R) : IsRot Rᵀ := by
  refine ⟨?_, by rw [Matrix.det_transpose]; exact h.2⟩
  rw [Matrix.transpose_transpose]
  exact mul_eq_one_comm.1 h.1

theorem _root_.Viscid.Spec.Rotation.IsRot.mul {R S : M3} (h : IsRot R) (k : IsRot S) : IsRot (R * S) := by
  refine ⟨?_, by rw [Matrix.det_mul, h.2, k.2, mul_one]⟩
  rw [Matrix.transpose_mul, Matrix.mul_assoc, ← Matrix.mul_assoc S, k.1, Matrix.one_mul, h.1]

theorem _root_.Viscid.Spec.Rotation.IsRot.one : IsRot (1 : M3) := ⟨by simp, by simp⟩

/-- Each entry of a rotation is its own cofactor. -/
theorem _root_.Viscid.Spec.Rotation.IsRot.cof {R : M3} (h : IsRot R) :
    R 0 0 = R 1 1 * R 2 2 - R 1 2 * R 2 1 ∧ R 0 1 = R 1 2 * R 2 0 - R 1 0 * R 2 2 ∧
    R 0 2 = R 1 0 * R 2 1 - R 1 1 * R 2 0 ∧ R 1 0 = R 0 2 * R 2 1 - R 0 1 * R 2 2 ∧
    R 1 1 = R 0 0 * R 2 2 - R 0 2 * R 2 0 ∧ R 1 2 = R 0 1 * R 2 0 - R 0 0 * R 2 1 ∧
    R 2 0 = R 0 1 * R 1 2 - R 0 2 * R 1 1 ∧ R 2 1 = R 0 2 * R 1 0 - R 0 0 * R 1 2 ∧
    R 2 2 = R 0 0 * R 1 1 - R 0 1 * R 1 0 := by
  obtain ⟨h00, h11, h22, h01, h02, h12⟩ := h.entries
  have hd := h.2
  rw [Matrix.det_fin_three] at hd
  refine ⟨?_, ?_, ?_, ?_, ?_, ?_, ?_, ?_, ?_⟩ <;> grind

theorem rotOf_isRot {q : Quat} (h : IsUnit4 q) : IsRot (rotOf q) := by
  unfold IsUnit4 at h
  have hw : q.w ^ 2 = 1 - q.x ^ 2 - q.y ^ 2 - q.z ^ 2 := by linarith
  apply isRot_of_entries <;> simp [rotOf, Matrix.det_fin_three] <;> grind

end Viscid.Rotation

namespace Viscid.Rotation
open Matrix Viscid.Spec.Rotation

theorem qnorm_sq (q : Quat) : q.norm ^ 2 = q.w ^ 2 + q.x ^ 2 + q.y ^ 2 + q.z ^ 2 := by
  unfold Quat.norm; rw [Real.sq_sqrt]; positivity

theorem qnorm_nonneg (q : Quat) : 0 ≤ q.norm := Real.sqrt_nonneg _

theorem qnorm_unit {q : Quat} (h : IsUnit4 q) : q.norm = 1 := by
  unfold Quat.norm; rw [h]; exact Real.sqrt_one

theorem renorm_unit {q : Quat} (h : IsUnit4 q) : renorm q = q := by
  unfold renorm
  rw [if_pos]
  right
  rw [qnorm_unit h]
  unfold isClose
  norm_num

theorem scale_unit {q : Quat} (h : q.norm ≠ 0) : IsUnit4 (q.scale (1 / q.norm)) := by
  unfold IsUnit4 Quat.scale
  have := qnorm_sq q
  field_simp
  linarith

theorem quat2rot_unit {q : Quat} (h : IsUnit4 q) : quat2rot q = rotOf q := by
  unfold quat2rot; rw [renorm_unit h]

theorem rotOf_mul {a b : Quat} (ha : IsUnit4 a) (hb : IsUnit4 b) : rotOf (qmul a b) = rotOf a * rotOf b := by
  unfold IsUnit4 at ha hb
  have h1 : a.w ^ 2 = 1 - a.x ^ 2 - a.y ^ 2 - a.z ^ 2 := by linarith
  have h2 : b.w ^ 2 = 1 - b.x ^ 2 - b.y ^ 2 - b.z ^ 2 := by linarith
  apply ext9 <;> rw [mul9] <;> simp [rotOf, qmul] <;> grind

theorem qmul_unit {a b : Quat} (ha : IsUnit4 a) (hb : IsUnit4 b) : IsUnit4 (qmul a b) := by
  unfold IsUnit4 at *
  have : (qmul a b).w ^ 2 + (qmul a b).x ^ 2 + (qmul a b).y ^ 2 + (qmul a b).z ^ 2 =
    (a.w ^ 2 + a.x ^ 2 + a.y ^ 2 + a.z ^ 2) * (b.w ^ 2 + b.x ^ 2 + b.y ^ 2 + b.z ^ 2) := by
    simp only [qmul]; ring
  rw [this, ha, hb, mul_one]

end Viscid.Rotation

namespace Viscid.Rotation
open Matrix Viscid.Spec.Rotation

/-- The eigenvector `rot2quat` looks for. -/
def evec (q : Quat) : Fin 4 → ℝ := ![-q.x, -q.y, -q.z, q.w]

theorem ext4 {a b : Fin 4 → ℝ} (h0 : a 0 = b 0) (h1 : a 1 = b 1) (h2 : a 2 = b 2) (h3 : a 3 = b 3) : a = b := by
  ext i; fin_cases i <;> assumption

theorem mulVec4 (A : Matrix (Fin 4) (Fin 4) ℝ) (v : Fin 4 → ℝ) (i : Fin 4) :
    (A *ᵥ v) i = A i 0 * v 0 + A i 1 * v 1 + A i 2 * v 2 + A i 3 * v 3 := by
  rw [Matrix.mulVec, dotProduct, Fin.sum_univ_four]

theorem k3_mulVec {q : Quat} (h : IsUnit4 q) (u : Fin 4 → ℝ) :
    k3 (rotOf q) *ᵥ u =
      fun i => (4 * (-q.x * u 0 - q.y * u 1 - q.z * u 2 + q.w * u 3) * evec q i - u i) / 3 := by
  unfold IsUnit4 at h
  have hw : q.w ^ 2 = 1 - q.x ^ 2 - q.y ^ 2 - q.z ^ 2 := by linarith
  apply ext4 <;> rw [mulVec4] <;> simp [k3, rotOf, evec] <;> grind

theorem evec_eig {q : Quat} (h : IsUnit4 q) : Eig (k3 (rotOf q)) 1 (evec q) := by
  refine ⟨?_, ?_⟩
  · intro e
    have e0 := congrFun e 0
    have e1 := congrFun e 1
    have e2 := congrFun e 2
    have e3 := congrFun e 3
    simp only [evec, Matrix.cons_val, Pi.zero_apply] at e0 e1 e2 e3
    unfold IsUnit4 at h
    grind
  · rw [k3_mulVec h, one_smul]
    unfold IsUnit4 at h
    apply ext4 <;> simp only [evec, Matrix.cons_val] <;> grind

theorem eig_cases {q : Quat} (h : IsUnit4 q) {lam : ℝ} {u : Fin 4 → ℝ} (he : Eig (k3 (rotOf q)) lam u) :
    lam = -1 / 3 ∨ (lam = 1 ∧ ∃ c, c ≠ 0 ∧ u = fun i => c * evec q i) := by
  obtain ⟨hu, he⟩ := he
  rw [k3_mulVec h] at he
  have e (i : Fin 4) := congrFun he i
  simp only [Pi.smul_apply, smul_eq_mul] at e
  generalize hc : (-q.x * u 0 - q.y * u 1 - q.z * u 2 + q.w * u 3) = c at e
  unfold IsUnit4 at h
  have e0 := e 0
  have e1 := e 1
  have e2 := e 2
  have e3 := e 3
  simp only [evec, Matrix.cons_val] at e0 e1 e2 e3
  by_cases c0 : c = 0
  · left
    by_contra hl
    apply hu
    have k (i : Fin 4) : u i = 0 := by
      have := e i
      rw [c0] at this
      have : (lam - -1 / 3) * u i = 0 := by linarith
      rcases mul_eq_zero.1 this with h | h
      · exact absurd (by linarith) hl
      · exact h
    exact funext k
  · right
    have hl : lam = 1 := by
      have : (lam - 1) * c = 0 := by
        linear_combination (4 / 3 * c) * h - q.x * (-e0) - q.y * (-e1) - q.z * (-e2) - q.w * e3 + (lam + 1/3) * (- hc)
      rcases mul_eq_zero.1 this with h | h
      · linarith
      · exact absurd h c0
    refine ⟨hl, c, c0, funext fun i => ?_⟩
    have := e i
    rw [hl] at this
    linarith

end Viscid.Rotation

namespace Viscid.Rotation
open Matrix Viscid.Spec.Rotation

/-- Every rotation is that of a unit quaternion. -/
theorem exists_quat {R : M3} (h : IsRot R) : ∃ q, IsUnit4 q ∧ rotOf q = R := by
  obtain ⟨h00, h11, h22, h01, h02, h12⟩ := h.entries
  obtain ⟨k00, k11, k22, k01, k02, k12⟩ := h.transpose.entries
  obtain ⟨c00, c01, c02, c10, c11, c12, c20, c21, c22⟩ := h.cof
  simp only [Matrix.transpose_apply] at k00 k11 k22 k01 k02 k12
  have key : 0 < 1 + R 0 0 + R 1 1 + R 2 2 ∨ 0 < 1 + R 0 0 - R 1 1 - R 2 2 ∨
      0 < 1 - R 0 0 + R 1 1 - R 2 2 ∨ 0 < 1 - R 0 0 - R 1 1 + R 2 2 := by
    by_contra hc
    push Not at hc
    obtain ⟨_, _, _, _⟩ := hc
    linarith
  have sq {t : ℝ} (ht : 0 < t) : ∃ s : ℝ, s ≠ 0 ∧ 4 * s ^ 2 = t := by
    refine ⟨√(t / 4), ?_, ?_⟩
    · positivity
    · rw [Real.sq_sqrt (by positivity)]; ring
  have fin (w x y z : ℝ) (hu : w ^ 2 + x ^ 2 + y ^ 2 + z ^ 2 = 1)
    (e1 : 1 - 2 * (y ^ 2 + z ^ 2) = R 0 0) (e2 : 2 * (x * y - z * w) = R 0 1) (e3 : 2 * (x * z + y * w) = R 0 2)
    (e4 : 2 * (x * y + z * w) = R 1 0) (e5 : 1 - 2 * (x ^ 2 + z ^ 2) = R 1 1) (e6 : 2 * (y * z - x * w) = R 1 2)
    (e7 : 2 * (x * z - y * w) = R 2 0) (e8 : 2 * (y * z + x * w) = R 2 1) (e9 : 1 - 2 * (x ^ 2 + y ^ 2) = R 2 2) :
    ∃ q : Quat, IsUnit4 q ∧ rotOf q = R := by
    exact ⟨⟨w, x, y, z⟩, hu, by apply ext9 <;> simp only [rotOf] <;> assumption⟩
  generalize R 0 0 = a at *
  generalize R 0 1 = b at *
  generalize R 0 2 = c at *
  generalize R 1 0 = d at *
  generalize R 1 1 = e at *
  generalize R 1 2 = f at *
  generalize R 2 0 = g at *
  generalize R 2 1 = i at *
  generalize R 2 2 = j at *
  rcases key with k | k | k | k
  · obtain ⟨w, hw, hw2⟩ := sq k
    apply fin w ((i - f) / (4 * w)) ((c - g) / (4 * w)) ((d - b) / (4 * w)) <;> field_simp <;> grind
  · obtain ⟨x, hx, hx2⟩ := sq k
    apply fin ((i - f) / (4 * x)) x ((b + d) / (4 * x)) ((c + g) / (4 * x)) <;> field_simp <;> grind
  · obtain ⟨y, hy, hy2⟩ := sq k
    apply fin ((c - g) / (4 * y)) ((b + d) / (4 * y)) y ((f + i) / (4 * y)) <;> field_simp <;> grind
  · obtain ⟨z, hz, hz2⟩ := sq k
    apply fin ((d - b) / (4 * z)) ((c + g) / (4 * z)) ((f + i) / (4 * z)) z <;> field_simp <;> grind
end Viscid.Rotation
