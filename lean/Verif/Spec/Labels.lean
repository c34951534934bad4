import Mathlib.Algebra.Order.Field.Rat
/-! The best of candidates -/
namespace Viscid.Spec.Labels

/-- `w` is the best of `m` candidates: none has a lower penalty, and none of the same penalty is nearer -/
def Best (m : Nat) (cost : Nat → Nat) (dist : Nat → ℚ) (w : Nat) : Prop :=
  w < m ∧ ∀ c < m, cost w ≤ cost c ∧ (cost c = cost w → dist w ≤ dist c)

end Viscid.Spec.Labels
