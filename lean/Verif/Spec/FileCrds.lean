import Mathlib.Data.Rat.Defs
import Mathlib.Algebra.Order.Field.Rat
/-! What nodes of cells ought to be. -/
namespace Viscid.Spec.FileCrds

/-- one more node than there are cells, and each centre is half way between its nodes -/
def Centred (cc nc : List ℚ) : Prop :=
  nc.length = cc.length + 1 ∧ ∀ (i : Nat) c, cc[i]? = some c → ∃ a b, nc[i]? = some a ∧ nc[i + 1]? = some b ∧ a < b ∧ c = (a + b) / 2

/-- one more node than there are cells, and each centre is between its nodes -/
def Between (cc nc : List ℚ) : Prop :=
  nc.length = cc.length + 1 ∧ ∀ (i : Nat) c, cc[i]? = some c → ∃ a b, nc[i]? = some a ∧ nc[i + 1]? = some b ∧ a < c ∧ c < b

/-- equally spaced -/
def Spaced (cc : List ℚ) (d : ℚ) : Prop := ∀ (i : Nat) a b, cc[i]? = some a → cc[i + 1]? = some b → b - a = d

/-- increasing -/
def Up (cc : List ℚ) : Prop := ∀ (i : Nat) a b, cc[i]? = some a → cc[i + 1]? = some b → a < b

end Viscid.Spec.FileCrds
