import Mathlib.Algebra.Order.Ring.Rat
/-!
# Values interior to a slice
-/
namespace Viscid.Spec.Interior

/-- `v` is not below all points of the axis and not above all of them -/
def On (a : List ℚ) (v : ℚ) : Prop :=
  (∃ (i : Nat) (x : ℚ), a[i]? = some x ∧ x ≤ v) ∧ ∃ (i : Nat) (x : ℚ), a[i]? = some x ∧ v ≤ x

/-- point `i` is the last that is not above `v` -/
def LastUpTo (a : List ℚ) (v : ℚ) (i : Nat) : Prop :=
  (∃ x, a[i]? = some x ∧ x ≤ v) ∧ ∀ (j : Nat) (y : ℚ), a[j]? = some y → y ≤ v → j ≤ i

/-- point `i` is the first that is not below `v` -/
def FirstFrom (a : List ℚ) (v : ℚ) (i : Nat) : Prop :=
  (∃ x, a[i]? = some x ∧ v ≤ x) ∧ ∀ (j : Nat) (y : ℚ), a[j]? = some y → v ≤ y → i ≤ j

/-- `lo` to `hi` are the fewest points of the axis with the values, where there are any, between the outermost -/
def Enclose (a : List ℚ) (lower upper : Option ℚ) (lo hi : Nat) : Prop :=
  lo ≤ hi ∧ hi < a.length ∧ (lower.elim (lo = 0) fun v => LastUpTo a v lo) ∧
    upper.elim (hi + 1 = a.length) fun v => FirstFrom a v hi

end Viscid.Spec.Interior
