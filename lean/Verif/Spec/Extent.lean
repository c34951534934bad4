import Mathlib.Algebra.Order.Ring.Rat
/-! Limits of boxes -/
namespace Viscid.Spec.Extent

/-- `m` is the least number in column `k` of the rows -/
def Least (rows : List (List ℚ)) (k : Nat) (m : ℚ) : Prop := (∃ r ∈ rows, r[k]? = some m) ∧ ∀ r ∈ rows, ∀ x, r[k]? = some x → m ≤ x

/-- the greatest -/
def Greatest (rows : List (List ℚ)) (k : Nat) (m : ℚ) : Prop := (∃ r ∈ rows, r[k]? = some m) ∧ ∀ r ∈ rows, ∀ x, r[k]? = some x → x ≤ m

end Viscid.Spec.Extent
