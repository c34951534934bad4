import Verif.Model.Dims
import Verif.Spec.Arith
/-!
# Specification for C164 and C165

Points of a field with more axes and points of a field with fewer axes.
-/
namespace Viscid.Spec.Dims

/-- `more` has the axes of `less`, in their order, and axes with one point; `p` is a point of `less` and `q` the same point of `more`, which is the only one
    along the other axes. -/
inductive Same : List (String × List ℚ) → List (String × List ℚ) → List Nat → List Nat → Prop
  | nil : Same [] [] [] []
  | keep (a : String × List ℚ) (i : Nat) : Same l m p q → Same (a :: l) (a :: m) (i :: p) (i :: q)
  | add (s : String) (x : ℚ) : Same l m p q → Same l ((s, [x]) :: m) p (0 :: q)

/-- `p` is a point on the axes `less` and `q` the one on the axes `more` that it stands for: along the axes that were left out the index is 0 if they have
    one point, else that of the point which `near` chooses. -/
inductive Cut (near : List ℚ → Nat) : List (String × List ℚ) → List (String × List ℚ) → List Nat → List Nat → Prop
  | nil : Cut near [] [] [] []
  | keep (a : String × List ℚ) (i : Nat) : Cut near l m p q → Cut near (a :: l) (a :: m) (i :: p) (i :: q)
  | one (s : String) (x : ℚ) : Cut near l m p q → Cut near l ((s, [x]) :: m) p (0 :: q)
  | many (a : String × List ℚ) : a.2.length ≠ 1 → Cut near l m p q → Cut near l (a :: m) p (near a.2 :: q)

end Viscid.Spec.Dims
