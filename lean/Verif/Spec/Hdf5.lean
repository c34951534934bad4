import Verif.Model.Hdf5
/-!
# Fields saved in HDF5 files and loaded again

Only the types of fields, files and arrays are taken from the model.
-/
namespace Viscid.Spec.Hdf5
open Viscid.Hdf5
open Viscid.Layout (Arr)

/-- number of values along an axis with `n` nodes -/
def points : Center → Nat → Nat
  | .node, n => n
  | .cell, n => if n = 1 then 1 else n - 1

/-- the shape of the grid of a field -/
def grid (f : Fld α) : List Nat := f.crds.map fun c => points f.center c.2.length

/-- the data has the shape of the grid, and a vector field has `n` components -/
def Shaped (f : Fld α) (n : Nat) : Prop :=
  f.data.shape = if f.vector then (if f.flat then n :: grid f else grid f ++ [n]) else grid f

/-- `idx` is a point of the grid -/
def Inside (idx shape : List Nat) : Prop := List.Forall₂ (· < ·) idx shape

/-- the value of component `c` at a point -/
def value (f : Fld α) (c : Nat) (idx : List Nat) : α :=
  f.data.get (if f.vector then (if f.flat then c :: idx else idx ++ [c]) else idx)

/-- the value of component `c` at a point, of a field that was loaded -/
def loadedValue (g : LFld α) (c : Nat) (idx : List Nat) : Option α :=
  match g.data with
  | .error _ => none
  | .ok (l, a) => some (a.get (if g.vector then (match l with | .flat => c :: idx | _ => idx ++ [c]) else idx))

/-- `g` is the field `f`, with `n` components, again: a missing axis is one with a single point -/
structure Same (t : ℚ) (f : Fld α) (n : Nat) (g : LFld α) : Prop where
  name : g.name = f.name
  center : g.center = f.center
  time : g.time = t
  vector : g.vector = true ↔ f.vector = true ∧ n ≠ 1
  value : ∀ c idx, Inside idx (grid f) → (f.vector = true → c < n) →
    loadedValue g c (idx ++ List.replicate (3 - f.crds.length) 0) = some (value f c idx)

/-- names that XML and the paths in XDMF files can take -/
def Safe (s : String) : Prop := (∀ c ∈ s.toList, c ∉ ['<', '&', '"', ':']) ∧ ∃ c, s.toList.getLast? = some c ∧ c ≠ ' '

/-- fields of different names on the same coordinates, at most three, at the same time; `comps` is the number of components of each. Vector fields with
the components first have three axes, and not all with as many points as there are components -/
structure Savable (crds : List (String × List ℚ)) (t : ℚ) (comps : Fld α → Nat) (flds : List (Fld α)) : Prop where
  some_fields : flds ≠ []
  axes : crds.length ≤ 3
  names : (flds.map Fld.name).Nodup
  safe : ∀ f ∈ flds, Safe f.name
  same_crds : ∀ f ∈ flds, f.crds = crds
  same_time : ∀ f ∈ flds, f.time = some t
  shaped : ∀ f ∈ flds, Shaped f (comps f)
  positive : ∀ f ∈ flds, 0 < comps f
  several : ∀ f ∈ flds, f.data.shape.foldr (· * ·) 1 ≠ 1
  flat : ∀ f ∈ flds, f.vector = true → f.flat = true → comps f ≠ 1 → crds.length = 3 ∧ ∃ m ∈ grid f, m ≠ comps f

end Viscid.Spec.Hdf5
