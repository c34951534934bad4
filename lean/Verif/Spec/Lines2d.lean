import Mathlib.Algebra.Order.Field.Rat
import Mathlib.Algebra.Order.Group.Unbundled.Abs
/-! Segments of lines -/
namespace Viscid.Spec.Lines2d

/-- From `p` to `q` some coordinate changes (to the precision of np.allclose). -/
def Moves (p q : List ℚ) : Prop := ∃ (k : Nat) (a b : ℚ), p[k]? = some a ∧ q[k]? = some b ∧ 1 / 10 ^ 8 + 1 / 10 ^ 5 * |a| < |b - a|

end Viscid.Spec.Lines2d
