import Verif.Model.RotStack
/-! # Entries of stacks -/
namespace Viscid.Spec.RotStack
open Viscid.RotStack (Stk)

/-- `x` is entry `k`: one value, or the only one of a stack, is used for all entries -/
inductive Entry : Stk α → Nat → α → Prop
  | one (x : α) (k : Nat) : Entry (.one x) k x
  | only (x : α) (k : Nat) : Entry (.many [x]) k x
  | many (l : List α) (k : Nat) (x : α) : 1 < l.length → l[k]? = some x → Entry (.many l) k x

/-- a stack of `n` -/
def Size (n : Nat) (s : Stk α) : Prop := ∃ l, s = .many l ∧ l.length = n

/-- one value, a stack of one, or a stack of `n` -/
def Fits (n : Nat) (s : Stk α) : Prop := (∃ x, s = .one x) ∨ Size 1 s ∨ Size n s

def IsOne (s : Stk α) : Prop := ∃ x, s = .one x

end Viscid.Spec.RotStack
