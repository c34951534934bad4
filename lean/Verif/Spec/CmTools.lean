import Mathlib.Algebra.Order.Field.Rat
/-! Colours with an opacity -/
namespace Viscid.Spec.CmTools

/-- `b` is the colour `a` with the same red, green and blue; opaque if it has no opacity -/
def Opaque (a b : List ℚ) : Prop := b.length = 4 ∧ b.take 3 = a.take 3 ∧ b[3]? = some ((a[3]?).getD 1)

end Viscid.Spec.CmTools
