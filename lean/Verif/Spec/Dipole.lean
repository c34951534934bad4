import Verif.Model.Rotation
/-!
# Geometry of an ideal dipole along the z axis, independently of the code
-/
namespace Viscid.Spec.Dipole
open Viscid.Rotation

noncomputable section

/-- Distance from the z axis. -/
def rho (v : V3) : ℝ := √(v 0 ^ 2 + v 1 ^ 2)

/-- A field line of the dipole is `|v|^3 = L * rho^2` in a half plane through the axis. -/
def lshell (v : V3) : ℝ := len v ^ 3 / rho v ^ 2

/-- Same half plane through the z axis. -/
def SameLongitude (v w : V3) : Prop := ∃ k : ℝ, 0 < k ∧ w 0 = k * v 0 ∧ w 1 = k * v 1

/-- The field of a dipole with moment `m` at `v`: `3 v (m.v) / |v|^5 - m / |v|^3`. -/
def field (m v : V3) : V3 := fun j => 3 * v j * dot m v / len v ^ 5 - m j / len v ^ 3

end
end Viscid.Spec.Dipole
