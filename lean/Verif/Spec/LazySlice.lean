import Verif.Model.Layout
/-! # What it means that two arrays are the same, and where a field's value is stored -/
namespace Viscid.Spec.LazySlice
open Viscid.Layout (Arr)

/-- An index of an array of a shape -/
def Valid : List Nat → List Nat → Prop
  | [], [] => True
  | n :: shape, i :: idx => i < n ∧ Valid shape idx
  | _, _ => False

/-- Same shape and the same value at every index -/
def Same (a b : Arr α) : Prop := a.shape = b.shape ∧ ∀ idx, Valid a.shape idx → a.get idx = b.get idx

/-- Along reflected axes of length n the value at i is stored at n - 1 - i. -/
def mirror : List Nat → List Bool → List Nat → List Nat
  | n :: shape, r :: rev, i :: idx => (if r then n - 1 - i else i) :: mirror shape rev idx
  | _, _, _ => []

/-- The storage index: the order of the spatial axes is reversed if the data are stored z first. -/
def stored (zyx : Bool) (shape : List Nat) (rev : List Bool) (idx : List Nat) : List Nat :=
  if zyx then (mirror shape rev idx).reverse else mirror shape rev idx

end Viscid.Spec.LazySlice
