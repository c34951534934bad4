import Verif.Model.Rotation
import Mathlib.Algebra.Quaternion
/-!
# What a rotation is, independently of how the library builds one
-/
namespace Viscid.Spec.Rotation
open Matrix Viscid.Rotation

/-- A proper rotation: an orthogonal matrix with determinant one. -/
def IsRot (R : Matrix (Fin 3) (Fin 3) ℝ) : Prop := R * Rᵀ = 1 ∧ R.det = 1

/-- The mathematical quaternion a stored quaternion stands for. -/
def toH (q : Quat) : Quaternion ℝ := ⟨q.w, q.x, q.y, q.z⟩

/-- Unit quaternions. -/
def IsUnit4 (q : Quat) : Prop := q.w ^ 2 + q.x ^ 2 + q.y ^ 2 + q.z ^ 2 = 1

end Viscid.Spec.Rotation
