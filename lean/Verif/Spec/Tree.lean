/-! # Specification of nearest-ancestor search -/
namespace Viscid.Spec.Tree

/-- All nodes reached by walking up exactly `d` parent links, in left-to-right order
(with repetitions). -/
def level (parents : N → List N) (self : N) : Nat → List N
  | 0 => [self]
  | d + 1 => (level parents self d).flatMap parents

/-- `n` is the first node satisfying `p` in breadth-first order. -/
def FirstInBfs (parents : N → List N) (p : N → Bool) (self n : N) : Prop :=
  ∃ d, (level parents self d).find? p = some n ∧ ∀ d' < d, ∀ m ∈ level parents self d', p m = false

/-- The nodes that can occur are among `univ`: the graph seen from `self` is finite. -/
def FiniteFrom (parents : N → List N) (self : N) (univ : List N) : Prop :=
  (∀ m ∈ parents self, m ∈ univ) ∧ ∀ n ∈ univ, ∀ m ∈ parents n, m ∈ univ

end Viscid.Spec.Tree
