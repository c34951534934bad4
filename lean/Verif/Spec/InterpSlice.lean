import Verif.Model.InterpSlice
/-!
# What an interpolated slice should be, and what is near
-/
namespace Viscid.Spec.InterpSlice
open Viscid.InterpSlice (Sel)

/-- `i` is the first of the places nearest to `v` -/
def Nearest (c : List ℚ) (v : ℚ) (i : Nat) : Prop :=
  ∃ x, c[i]? = some x ∧ ∀ (j : Nat) (y : ℚ), c[j]? = some y → |x - v| ≤ |y - v| ∧ (j < i → |x - v| < |y - v|)

/-- the places at which the values of a slice should be -/
def Places (c : List ℚ) : Sel → List ℚ
  | none => c
  | some v => [v]

/-- the indices of a slice that takes the nearest -/
def NearestIdx (c : List ℚ) : Sel → List Nat → Prop
  | none, l => l = List.range c.length
  | some v, l => ∃ i, Nearest c v i ∧ l = [i]

/-- the values of a field at some indices, the last axis fastest -/
def take (f : Nat → Nat → Nat → ℚ) (xs ys zs : List Nat) : List ℚ := xs.flatMap fun i => ys.flatMap fun j => zs.map fun k => f i j k

/-- the values of a function at some places, the last axis fastest -/
def values (f : ℚ → ℚ → ℚ → ℚ) (xs ys zs : List ℚ) : List ℚ := xs.flatMap fun i => ys.flatMap fun j => zs.map fun k => f i j k

end Viscid.Spec.InterpSlice
