import Mathlib.Data.Real.Basic
/-! The side of the earth toward the sun -/
namespace Viscid.Spec.Earth

/-- is a point with this x toward the sun? In GSE the sun is at positive x, in the coordinates of the simulation at negative x -/
def sunward (gse : Bool) (x : ℝ) : Prop := if gse then 0 < x else x < 0

end Viscid.Spec.Earth
