import Mathlib.Analysis.SpecialFunctions.Trigonometric.Basic
/-!
# Arrays of vectors, and the axis of the dipole from its angles
-/
namespace Viscid.Spec.ManyVecs

/-- The `j`th column of the array with the rows `x`, `y` and `z` is the vector `v` -/
def Column (x y z : List ℝ) (j : Nat) (v : Fin 3 → ℝ) : Prop :=
  x[j]? = some (v 0) ∧ y[j]? = some (v 1) ∧ z[j]? = some (v 2)

/-- A row of an array is the vector `v` -/
def Row (r : List ℝ) (v : Fin 3 → ℝ) : Prop := r = [v 0, v 1, v 2]

noncomputable section

/-- degrees -/
def sind (a : ℝ) : ℝ := Real.sin (a * Real.pi / 180)
def cosd (a : ℝ) : ℝ := Real.cos (a * Real.pi / 180)

/-- The direction of the north magnetic pole: tilted by `tilt` degrees from z towards x (the Sun), after which the
    plane of the tilt is turned by `gsm` degrees about x, from z towards y (dusk) -/
def north (tilt gsm : ℝ) : Fin 3 → ℝ := ![sind tilt, cosd tilt * sind gsm, cosd tilt * cosd gsm]

end
end Viscid.Spec.ManyVecs
