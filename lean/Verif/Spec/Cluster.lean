import Mathlib.Data.Rat.Defs
import Mathlib.Algebra.Order.Ring.Rat
import Mathlib.Logic.Relation
/-!
# Specification for C35 and C64
-/
namespace Viscid.Spec.Cluster

/-- Two grid points are adjacent: at most one step apart along each axis, and along one axis only unless
diagonals count.  A point is adjacent to itself. -/
def Adjacent (diagonals : Bool) (p q : Nat × Nat) : Prop :=
  p.1 ≤ q.1 + 1 ∧ q.1 ≤ p.1 + 1 ∧ p.2 ≤ q.2 + 1 ∧ q.2 ≤ p.2 + 1 ∧ (diagonals = true ∨ p.1 = q.1 ∨ p.2 = q.2)

/-- Adjacency of the points number i and j. -/
def Joined (diagonals : Bool) (inds : List (Nat × Nat)) (i j : Nat) : Prop :=
  ∃ p q, inds[i]? = some p ∧ inds[j]? = some q ∧ Adjacent diagonals p q

/-- There is a path of adjacent points. -/
def Connected (diagonals : Bool) (inds : List (Nat × Nat)) : Nat → Nat → Prop :=
  Relation.ReflTransGen (Joined diagonals inds)

/-- The groups partition the point numbers 0, 1, ... into connected components. -/
structure AreComponents (diagonals : Bool) (inds : List (Nat × Nat)) (groups : List (List Nat)) : Prop where
  partition : groups.flatten.Perm (List.range inds.length)
  nonempty : ∀ g ∈ groups, g ≠ []
  component : ∀ g ∈ groups, ∀ i ∈ g, ∀ j, j < inds.length → (j ∈ g ↔ Connected diagonals inds i j)

/-- Mean location of a group of points. -/
def mean (inds : List (Nat × Nat)) (x y : List ℚ) (g : List Nat) : ℚ × ℚ :=
  ((g.map fun i => x.getD (inds.getD i (0, 0)).1 0).sum / g.length,
   (g.map fun i => y.getD (inds.getD i (0, 0)).2 0).sum / g.length)

end Viscid.Spec.Cluster
