import Verif.Model.PlotAxes
import Verif.Spec.AsCotr
/-! What limits and directions of axes ought to be. -/
namespace Viscid.Spec.PlotAxes

/-- Between the two limits, whichever of them is the greater. -/
def Within (lim : ℚ × ℚ) (x : ℚ) : Prop := (lim.1 ≤ x ∧ x ≤ lim.2) ∨ (lim.2 ≤ x ∧ x ≤ lim.1)

/-- The limits do what is asked of them: all points are seen, everything that was seen still is, and an end that has moved is at a point; the axis still points
in the same direction. -/
structure Shows (old new : ℚ × ℚ) (row : List ℚ) : Prop where
  points : ∀ x ∈ row, Within new x
  more : ∀ x, Within old x → Within new x
  first : new.1 = old.1 ∨ new.1 ∈ row
  second : new.2 = old.2 ∨ new.2 ∈ row
  same : old.1 < old.2 ↔ new.1 < new.2

/-- Nothing changes along the row (to the precision of np.allclose). -/
def Flat (row : List ℚ) : Prop := ∃ x, row.head? = some x ∧ ∀ y ∈ row, |y - x| ≤ 1 / 10 ^ 8 + 1 / 10 ^ 5 * |x|

end Viscid.Spec.PlotAxes
