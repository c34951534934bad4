import Verif.Model.Yee
/-!
# Where the components of a vector field are
-/
namespace Viscid.Spec.Yee
open Viscid.Yee (Center)

/-- the cell `k` of an axis with nodes `xs` is between `lo` and `hi`; an axis with a single node has one cell, which is there -/
def Cell (xs : List ℚ) (k : Nat) (lo hi : ℚ) : Prop := (xs[k]? = some lo ∧ xs[k + 1]? = some hi) ∨ (xs = [lo] ∧ k = 0 ∧ hi = lo)

/-- `p` is where a component is along an axis with nodes `xs`, at index `k`. `own`: it is the component along this axis. Faces are perpendicular to their component, edges
are along theirs. -/
def At : Center → List ℚ → Bool → Nat → ℚ → Prop
  | .node, xs, _, k, p => xs[k]? = some p
  | .cell, xs, _, k, p => ∃ lo hi, Cell xs k lo hi ∧ p = (lo + hi) / 2
  | .face, xs, true, k, p => ∃ hi, Cell xs k p hi
  | .face, xs, false, k, p => ∃ lo hi, Cell xs k lo hi ∧ p = (lo + hi) / 2
  | .edge, xs, true, k, p => ∃ lo hi, Cell xs k lo hi ∧ p = (lo + hi) / 2
  | .edge, xs, false, k, p => ∃ hi, Cell xs k p hi

/-- component `c` of a vector field at a point of its grid -/
def value (b : Viscid.Yee.Vec α) (c : Nat) (idx : List Nat) : α := if b.last then b.data.get (idx ++ [c]) else b.data.get (c :: idx)

end Viscid.Spec.Yee
