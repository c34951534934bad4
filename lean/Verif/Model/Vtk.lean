import Verif.Model.Layout
import Mathlib.Algebra.Order.Ring.Rat
/-!
# Model of `viscid/plot/vlab.py`: fields as sources of VTK

Arrays are shapes with functions of indices (`Layout.Arr`). The order of bytes and the types of the numbers are not modelled.
-/
namespace Viscid.Vtk
open Viscid.Layout (Arr prod unravel)

variable {α : Type}

inductive Err
  | value
  | index
  | notImplemented
deriving DecidableEq, Repr

inductive Center
  | node
  | cell
  | face
  | edge
deriving DecidableEq, Repr

inductive Lay
  | scalar
  | interlaced
  | flat
  | other
deriving DecidableEq, Repr

/-- A field: the coordinates of the nodes and of the cells along each axis, and its data -/
structure Fld (α : Type) where
  name : String
  nc : List (List ℚ)
  cc : List (List ℚ)
  center : Center
  lay : Lay
  data : Arr α

/-- Data of a source: one number, or a row, for each point or cell -/
inductive Vals (α : Type)
  | scalars (l : List α)
  | vectors (l : List (List α))

/-- `tvtk.RectilinearGrid` with its data, and the name of the source -/
structure Source (α : Type) where
  dims : List Nat
  x : List ℚ
  y : List ℚ
  z : List ℚ
  onCells : Bool
  vals : Vals α
  name : String

/-- `np.transpose(a, axes)` with `axes` a permutation of their numbers -/
def npTranspose (a : Arr α) (axes : List Nat) : Except Err (Arr α) :=
  if axes.length = a.shape.length then
    .ok ⟨axes.map fun i => a.shape.getD i 0, fun idx => a.get ((List.range axes.length).map fun d => idx.getD (axes.idxOf d) 0)⟩
  else .error .value

/-- `np.rollaxis(a, 0, n)` with all the axes: the first axis becomes the last -/
def rollFirst (a : Arr α) : Arr α := ⟨a.shape.tail ++ a.shape.take 1, fun idx => a.get (idx.getLastD 0 :: idx.dropLast)⟩

/-- `np.reshape(a, (-1,))` -/
def ravelAll (a : Arr α) : List α := (List.range (prod a.shape)).map fun k => a.get (unravel a.shape k)

/-- `np.reshape(a, (-1, 3))` -/
def rows3 (a : Arr α) : Except Err (List (List α)) :=
  if prod a.shape % 3 = 0 then
    .ok ((List.range (prod a.shape / 3)).map fun r => (List.range 3).map fun c => a.get (unravel a.shape (3 * r + c)))
  else .error .value

/-- vlab.py:220-244 `_prep_field` -/
def prepField (f : Fld α) : Except Err (Vals α) :=
  match f.lay with
  | .scalar => (npTranspose f.data (List.range f.data.shape.length).reverse).map fun a => .scalars (ravelAll a)
  | .interlaced => do
    let a ← npTranspose f.data [2, 1, 0, 3]
    let r ← rows3 a
    .ok (.vectors r)
  | .flat => do
    let a ← npTranspose f.data [0, 3, 2, 1]
    let r ← rows3 (rollFirst a)
    .ok (.vectors r)
  | .other => .error .value

/-- three arrays of coordinates -/
def three (crds : List (List ℚ)) : Except Err (List ℚ × List ℚ × List ℚ) :=
  match crds[0]?, crds[1]?, crds[2]? with
  | some x, some y, some z => .ok (x, y, z)
  | _, _, _ => .error .index

/-- vlab.py:246-255 `_finalize_source`, and the name: `if name: src.name = name` -/
def finish (f : Fld α) (name : String) (onCells : Bool) (crds : List (List ℚ)) (v : Vals α) : Except Err (Source α) := do
  let (x, y, z) ← three crds
  .ok ⟨crds.map List.length, x, y, z, onCells, v, if name = "" then f.name else name⟩

/-- vlab.py:176-197 `field2point_source` -/
def field2pointSource (f : Fld α) (name : String) : Except Err (Source α) := do
  let v ← prepField f
  if f.center = .cell then finish f name false f.cc v
  else if f.center = .node then finish f name false f.nc v
  else .error .value

/-- vlab.py:199-217 `field2cell_source` -/
def field2cellSource (f : Fld α) (name : String) : Except Err (Source α) := do
  let v ← prepField f
  if f.center = .cell then finish f name true f.nc v
  else if f.center = .node then .error .notImplemented
  else .error .value

/-- vlab.py:143-174 `field2source`; `none`: no centering is asked for -/
def field2source (f : Fld α) (center : Option Center) (name : String) : Except Err (Source α) :=
  match center.getD f.center with
  | .node => field2pointSource f name
  | .cell => field2cellSource f name
  | _ => .error .notImplemented

end Viscid.Vtk
