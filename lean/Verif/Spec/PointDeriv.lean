import Verif.Model.PointDeriv
import Verif.Spec.Interp
/-!
# Specification for C33
-/
namespace Viscid.Spec.PointDeriv
open Viscid.PointDeriv Viscid.Spec.Interp

/-- The field is B_m = k_m + J_m0 x + J_m1 y + J_m2 z at the grid points. -/
def AffineField (B : VFld) (k : Fin 3 → ℚ) (J : Fin 3 → Fin 3 → ℚ) : Prop :=
  ∀ (m : Fin 3) (i j l : Nat) (x y z : ℚ), B.ax.crds[i]? = some x → B.ay.crds[j]? = some y → B.az.crds[l]? = some z →
    B.data m i j l = k m + J m 0 * x + J m 1 * y + J m 2 * z

/-- The point and its neighbours at distance h are inside the axis. -/
def Room (a : Interp.Axis) (x h : ℚ) : Prop := InRange a x ∧ InRange a (x - h) ∧ InRange a (x + h)

/-- Curl of an affine field. -/
def curlOf (J : Fin 3 → Fin 3 → ℚ) : Fin 3 → ℚ := ![J 2 1 - J 1 2, J 0 2 - J 2 0, J 1 0 - J 0 1]

end Viscid.Spec.PointDeriv
