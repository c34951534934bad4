import Verif.Spec.Arith
/-!
# Arrays of values at points
-/
namespace Viscid.Spec.Region
open Viscid.Spec.Arith (Within)
open Viscid.Layout (Arr)

/-- one value at each point -/
def OnPoints (s : List Nat) (a : Arr α) (v : List Nat → α) : Prop := a.shape = s ∧ ∀ idx, Within s idx → a.get idx = v idx

/-- `n` values at each point, the components first -/
def First (n : Nat) (s : List Nat) (a : Arr α) (v : Nat → List Nat → α) : Prop :=
  a.shape = n :: s ∧ ∀ c idx, c < n → Within s idx → a.get (c :: idx) = v c idx

/-- `n` values at each point, the components last -/
def Last (n : Nat) (s : List Nat) (a : Arr α) (v : Nat → List Nat → α) : Prop :=
  a.shape = s ++ [n] ∧ ∀ c idx, c < n → Within s idx → a.get (idx ++ [c]) = v c idx

/-- each size is 1 or the next size, and the last one `n` -/
def Shifted (s : List Nat) (n : Nat) : Prop := List.Forall₂ (fun a b => a = 1 ∨ a = b) s ((s ++ [n]).drop 1)

end Viscid.Spec.Region
