import Mathlib.Algebra.Order.Ring.Rat
/-! Colours -/
namespace Viscid.Spec.Cmap

/-- `b` is the byte of a fraction `v` of full intensity, rounded down -/
def ByteOf (v : ℚ) (b : Int) : Prop := (b : ℚ) ≤ 255 * v ∧ 255 * v < b + 1

end Viscid.Spec.Cmap
