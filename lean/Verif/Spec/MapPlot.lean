import Mathlib.Algebra.Order.Field.Rat
/-! Circles of latitude -/
namespace Viscid.Spec.MapPlot

/-- the circle of latitude `lat` is at the angle `r` from the pole at latitude `pole` (90 or -90), on the way to the equator -/
def FromPole (pole lat r : ℚ) : Prop := |pole - lat| = r ∧ |lat| = |90 - r|

end Viscid.Spec.MapPlot
