import Verif.Model.MakeField
/-!
# Coordinates and fields made of arrays

Only the types of coordinates, arrays and fields, and their observers `nodes`, `data` and `layout` are taken from the model.
-/
namespace Viscid.Spec.MakeField
open Viscid.MakeField
open Viscid.Hdf5 (Center)
open Viscid.Layout (Arr)

/-- `n` points from `a` with distance `d` -/
def even (a d : ℚ) (n : Nat) : List ℚ := (List.range n).map fun (i : Nat) => a + i * d

/-- the shape of the nodes of arrays -/
def nodeShape (arrs : List (List ℚ)) : List Nat := arrs.map List.length

/-- the shape of the cells between them -/
def cellShape (arrs : List (List ℚ)) : List Nat := arrs.map fun a => a.length - 1

/-- at most one axis per name, and no axis without a point -/
def Proper (names : List String) (arrs : List (List ℚ)) : Prop := arrs ≠ [] ∧ arrs.length ≤ names.length ∧ ∀ a ∈ arrs, a ≠ []

/-- the value of component `c` at a point; scalar fields have one component -/
def value (m : Made α) (c : Nat) (idx : List Nat) : Option α :=
  match m.data with
  | .error _ => none
  | .ok a => match m.layout with
    | .flat => some (a.get (c :: idx))
    | .interlaced => some (a.get (idx ++ [c]))
    | .scalar => some (a.get idx)
    | _ => none

/-- a scalar field on `center` with the values of `dat` -/
structure IsScalar (m : Made α) (center : Center) (dat : Arr α) : Prop where
  vector : m.vector = false
  center : m.center = center
  values : ∀ c idx, value m c idx = some (dat.get idx)

/-- a vector field on `center` with values `v` of component and point; the layout does not matter -/
structure IsVector (m : Made α) (center : Center) (v : Nat → List Nat → α) : Prop where
  vector : m.vector = true
  center : m.center = center
  values : ∀ c idx, value m c idx = some (v c idx)

end Viscid.Spec.MakeField
