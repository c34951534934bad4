import Mathlib.Algebra.Order.Field.Rat
/-! Ticks within limits, limits that are shared, and cells of a grid -/
namespace Viscid.Spec.AxesKeep

/-- a tick is within limits, in whichever order these are -/
def Within (lim : ℚ × ℚ) (t : ℚ) : Prop := (lim.1 ≤ t ∧ t ≤ lim.2) ∨ (lim.2 ≤ t ∧ t ≤ lim.1)

/-- axes that are shared have the same limits, and each axes has limits and a group -/
def Shared (group : List ℕ) (lims : List (ℚ × ℚ)) : Prop :=
  group.length = lims.length ∧ ∀ i j : ℕ, i < lims.length → j < lims.length → group[i]? = group[j]? → lims[i]? = lims[j]?

/-- the number of the cell in a row and column of a grid counted by rows -/
def cell (ncols r c : ℕ) : ℕ := r * ncols + c

end Viscid.Spec.AxesKeep
