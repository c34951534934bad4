import Mathlib.Algebra.Order.Ring.Rat
/-! # Selecting by value, stated on the points of the axis -/
namespace Viscid.Spec.Select

/-- Every `s`-th element, starting with the first. -/
def stride (s : Nat) : List Nat → List Nat
  | [] => []
  | x :: xs => x :: stride s (xs.drop (s - 1))
termination_by l => l.length
decreasing_by simp only [List.length_drop, List.length_cons]; omega

/-- Positions of the axis `a` whose coordinate satisfies `P`, in increasing order. -/
def positions (a : List ℚ) (P : ℚ → Prop) [DecidablePred P] : List Nat :=
  (List.range a.length).filter fun i => decide (∃ x, a[i]? = some x ∧ P x)

/-- `lo ≤ x` when a lower value is given. -/
def above (lo : Option ℚ) (x : ℚ) : Prop := ∀ v, lo = some v → v ≤ x
/-- `x ≤ hi` when an upper value is given. -/
def below (hi : Option ℚ) (x : ℚ) : Prop := ∀ v, hi = some v → x ≤ v

end Viscid.Spec.Select
