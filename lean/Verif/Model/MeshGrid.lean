import Verif.Model.Layout
import Verif.Model.SeedGrid
/-!
# Model of `Field.meshgrid`, `Field.meshgrid_flat` (`viscid/field.py`) and `StructuredCrds.as_mesh` (`viscid/coordinate.py`)

Arrays are shapes with functions of indices (`Layout.Arr`). The coordinates of a field are those of its centering, one list for each axis. Axes are asked for by their numbers.
-/
namespace Viscid.MeshGrid
open Viscid.Layout (Arr prod ravel unravel)

variable {α : Type}

inductive Err
  | indexError
  | valueError
deriving DecidableEq, Repr

/-- Where the components of a field are: it has none, or `n` of them along the last or the first axis -/
inductive Comps
  | scalar
  | last (n : Nat)
  | first (n : Nat)
deriving DecidableEq, Repr

structure Fld (α : Type) where
  crds : List (List α)
  comps : Comps

/-- field.py:684-692 `shape`, with 706-719 `sshape`, 664-681 `nr_comp` -/
def Fld.shape (f : Fld α) : List Nat :=
  let s := f.crds.map List.length
  match f.comps with
  | .scalar => s
  | .last n => s ++ [n]
  | .first n => n :: s

/-- coordinate.py:551-562 `_ogrid_single`: the open array of axis `i` of `d` -/
def openArr [Inhabited α] (d i : Nat) (c : List α) : Arr α := ⟨(List.replicate d 1).set i c.length, fun idx => c.getD (idx.getD i 0) default⟩

/-- coordinate.py:931-951 `get_crds` with `shaped=True`; axes by number -/
def getCrds [Inhabited α] (f : Fld α) (axes : List Nat) : Except Err (List (Arr α)) :=
  axes.mapM fun i => match f.crds[i]? with
    | some c => .ok (openArr f.crds.length i c)
    | none => .error .indexError

/-- field.py:1512-1516: from the last axis to the first, `crds.pop(i)` of those with one point -/
def popLoop {β : Type} (shape : List Nat) : Nat → List β → List Nat → Except Err (List β × List Nat)
  | 0, crds, pops => .ok (crds, pops)
  | i + 1, crds, pops =>
    if shape.getD i 0 ≤ 1 then
      if i < crds.length then popLoop shape i (crds.eraseIdx i) (pops ++ [i]) else .error .indexError
    else popLoop shape i crds pops

/-- field.py:1519-1521: an array, with the index 0 along one axis -/
def take0 (pi : Nat) (a : Arr α) : Except Err (Arr α) :=
  match a.shape[pi]? with
  | none | some 0 => .error .indexError
  | some (_ + 1) => .ok ⟨a.shape.eraseIdx pi, fun idx => a.get (idx.take pi ++ 0 :: idx.drop pi)⟩

/-- field.py:1517-1521 -/
def sliceLoop : List Nat → List (Arr α) → Except Err (List (Arr α))
  | [], crds => .ok crds
  | pi :: pops, crds => do sliceLoop pops (← crds.mapM (take0 pi))

/-- numpy: two lengths that are broadcast -/
def bdim (a b : Nat) : Except Err Nat := if a = b then .ok a else if a = 1 then .ok b else if b = 1 then .ok a else .error .valueError

def bzip : List Nat → List Nat → Except Err (List Nat)
  | a :: s, b :: t => do .ok ((← bdim a b) :: (← bzip s t))
  | _, _ => .ok []

/-- `np.broadcast_arrays` -/
def broadcast (l : List (Arr α)) : Except Err (List (Arr α)) :=
  let m := (l.map fun a => a.shape.length).foldl max 0
  match l.foldlM (fun s a => bzip s (List.replicate (m - a.shape.length) 1 ++ a.shape)) (List.replicate m 1) with
  | .error e => .error e
  | .ok s => .ok (l.map fun a => ⟨s, fun idx => a.get (List.zipWith (fun n i => if n = 1 then 0 else i) a.shape (idx.drop (m - a.shape.length)))⟩)

/-- field.py:1509-1522 `meshgrid` -/
def meshgrid [Inhabited α] (f : Fld α) (axes : Option (List Nat)) (prune : Bool) : Except Err (List (Arr α)) := do
  let crds ← getCrds f (axes.getD (List.range f.crds.length))
  if prune then
    let (crds, pops) ← popLoop f.shape f.shape.length crds []
    broadcast (← sliceLoop pops crds)
  else broadcast crds

/-- field.py:1524-1526 `meshgrid_flat` -/
def meshgridFlat [Inhabited α] (f : Fld α) (axes : Option (List Nat)) (prune : Bool) : Except Err (List (List α)) := do
  let arrs ← meshgrid f axes prune
  .ok (arrs.map fun a => (List.range (prod a.shape)).map fun k => a.get (unravel a.shape k))

/-- coordinate.py:1085-1090: lengths of 1 are removed until two are left -/
def meaningful : Nat → List Nat → Except Err (List Nat)
  | 0, s => .ok s
  | fuel + 1, s => if s.length > 2 then (if 1 ∈ s then meaningful fuel (s.erase 1) else .error .valueError) else .ok s

/-- coordinate.py:1081-1091 `as_mesh`, for the coordinates of a centering -/
def asMesh [Inhabited α] (crds : List (List α)) : Except Err (Arr α) :=
  match meaningful crds.length (crds.map List.length) with
  | .error e => .error e
  | .ok s =>
    let pts := (Seed.gridRows crds).flatten
    if pts.length = 3 * prod s then .ok ⟨3 :: s, fun idx => pts.getD (ravel (3 :: s) idx) default⟩
    else .error .valueError

end Viscid.MeshGrid
