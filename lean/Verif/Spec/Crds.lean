import Mathlib.Algebra.Order.Ring.Rat
import Mathlib.Data.Rat.Defs
/-!
# Specification for C36, C37, C65, C66
-/
namespace Viscid.Spec.Crds

/-- Strictly increasing coordinates. -/
def Increasing (l : List ℚ) : Prop := l.Pairwise (· < ·)

/-- The centres interleave the nodes: one less, each strictly inside its cell. -/
def Interleave (nodes centres : List ℚ) : Prop :=
  centres.length + 1 = nodes.length ∧
    ∀ (i : Nat) (a b c : ℚ), nodes[i]? = some a → nodes[i + 1]? = some b → centres[i]? = some c → a < c ∧ c < b

/-- Equally spaced with step d ≠ 0. -/
def Equidistant (l : List ℚ) (d : ℚ) : Prop := d ≠ 0 ∧ ∀ (i : Nat) (a b : ℚ), l[i]? = some a → l[i + 1]? = some b → b - a = d

end Viscid.Spec.Crds
