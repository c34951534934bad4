import Mathlib.Data.Rat.Defs
/-!
# Lines put together: the specification
-/
namespace Viscid.Spec.PrepLines

/-- Where vertex `k` of line `i` is when the lines, which have `npts` vertices, are put one after the other. -/
def place (npts : List Nat) (i k : Nat) : Nat := (npts.take i).sum + k

/-- `a` and `b` are the places of consecutive vertices of one line. -/
def Joined (npts : List Nat) (a b : Nat) : Prop :=
  ∃ i k n, npts[i]? = some n ∧ k + 1 < n ∧ a = place npts i k ∧ b = place npts i (k + 1)

end Viscid.Spec.PrepLines
