import Mathlib.Data.Real.Basic
/-! Coordinates at equal distances -/
namespace Viscid.Spec.Scene3d

/-- the i-th of `n` coordinates at equal distances from `a` to `b` -/
noncomputable def node (a b : ℝ) (n i : ℕ) : ℝ := a + (b - a) * (i / ((n : ℝ) - 1))

end Viscid.Spec.Scene3d
