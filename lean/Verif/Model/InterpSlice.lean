import Verif.Model.Interp
import Verif.Model.Select
/-!
# Model of `Field.interpolated_slice`, `StructuredCrds.slice_interp` and `ScalarField.downsample`

Coordinates and data are rational. An array that is written to is modelled by what it is afterwards: the field is an argument and a result.
-/
namespace Viscid.InterpSlice
open Viscid.Interp (Axis Grid)

/-- one axis of a field: nodes, and cell centers as they are in the cache of coordinates -/
structure Crd where
  nc : List ℚ
  cc : List ℚ
  deriving DecidableEq, Repr

/-- coordinate.py:498-507: cell centers of an axis. With a single node it is the same array -/
def centers : List ℚ → List ℚ
  | [x] => [x]
  | x :: y :: l => (x + 1 / 2 * (y - x)) :: (match l with | [] => [] | _ => centers (y :: l))
  | [] => []

/-- an axis that was just made -/
def Crd.fresh (nc : List ℚ) : Crd := ⟨nc, centers nc⟩

/-- What is selected along an axis: everything, or a value. Selections by index, slices and new axes are not modelled -/
abbrev Sel := Option ℚ

/-- coordinate.py:826-845 `make_slice_keep` and 906-917 `slice_interp`, one axis: the coordinates of the field afterwards, and those of the slice.
The piece of an axis that `make_slice_keep` returns is a view of the array in the cache, so that assigning to it changes the field. With a single node the array of the cell
centers is the same as that of nodes. -/
def sliceInterp1 (cell : Bool) (c : Crd) : Sel → Except Select.Err (Crd × List ℚ)
  | none => .ok (c, c.nc)
  | some v =>
    match Select.selValue (if cell then c.cc else c.nc) v with
    | .error e => .error e
    | .ok i =>
      if cell then
        let nc := (c.nc.set i v).set (i + 1) v
        .ok (⟨nc, if c.nc.length = 1 then nc else c.cc⟩, if c.nc.length = 1 then [v] else [v, v])
      else
        let nc := c.nc.set i v
        .ok (⟨nc, if c.nc.length = 1 then nc else c.cc⟩, [v])

/-- a scalar field, or a component of a vector field -/
structure Fld where
  cell : Bool
  uniform : Bool
  x : Crd
  y : Crd
  z : Crd
  data : Nat → Nat → Nat → ℚ

/-- the coordinates at which the values are: field.py `get_crds_vector` -/
def Fld.at_ (f : Fld) (c : Crd) : List ℚ := if f.cell then c.cc else c.nc

/-- the field as the interpolation sees it: cyfield.pyx:21-112 -/
def Fld.grid (f : Fld) : Grid := ⟨⟨f.at_ f.x, f.uniform⟩, ⟨f.at_ f.y, f.uniform⟩, ⟨f.at_ f.z, f.uniform⟩, f.data⟩

/-- coordinate.py:1069-1079 `get_points`: the points of a grid, the last axis fastest -/
def points (xs ys zs : List ℚ) : List (ℚ × ℚ × ℚ) := xs.flatMap fun x => ys.flatMap fun y => zs.map fun z => (x, y, z)

/-- the result: the places of the values along the axes, and the values, the last axis fastest. Axes with a single place are left out by `slice_reduce("")` -/
structure Out where
  xs : List ℚ
  ys : List ℚ
  zs : List ℚ
  vals : List ℚ
  deriving DecidableEq, Repr

/-- field.py:1345-1351 `interpolated_slice`: the field afterwards, and the values; `none` for the values is a read outside of an array -/
def interpolatedSlice (f : Fld) (sx sy sz : Sel) : Except Select.Err (Fld × Option Out) :=
  match sliceInterp1 f.cell f.x sx, sliceInterp1 f.cell f.y sy, sliceInterp1 f.cell f.z sz with
  | .ok (x, nx), .ok (y, ny), .ok (z, nz) =>
    let f := { f with x := x, y := y, z := z }
    let place := fun c => if f.cell then centers c else c
    let pts := (points (place nx) (place ny) (place nz)).map fun p => (f.grid, p)
    .ok (f, (Interp.sweep Interp.trilin pts (0, 0, 0)).map fun v => ⟨place nx, place ny, place nz, v⟩)
  | .error e, _, _ => .error e
  | _, .error e, _ => .error e
  | _, _, .error e => .error e

/-! ## downsample -/

/-- the exceptions -/
inductive Exc
  | value
  | type
  deriving DecidableEq, Repr

/-- how many values `dat[:end:2]`, or `dat[1:end:2]`, has, given that there are at least as many -/
def nEven (e : Nat) : Nat := (e + 1) / 2
def nOdd (e : Nat) : Nat := e / 2

/-- whether two sizes broadcast with each other, and to which -/
def bcast1 (m n : Nat) : Option Nat := if m = n then some m else if m = 1 then some n else if n = 1 then some m else none

/-- what `get_clist` is given as `axes` -/
inductive AxesArg
  | none
  | names (l : List String)
  | slc
  deriving DecidableEq, Repr

/-- coordinate.py:990-1011 and 1371-1401 `get_clist`: the names of axes are looped over, which can not be done with a slice -/
def getClist (own : List String) : AxesArg → Except Exc (List String)
  | .none => .ok own
  | .names l => .ok l
  | .slc => .error .type

/-- field.py:2264-2291 `downsample`: the sizes of the result and the names of its axes. The parts of the data that are added have `nEven` or `nOdd` values of each half axis,
in all combinations, which broadcast with each other or are a ValueError. With more than three axes nothing is added. The slice is given to `get_clist` as its first
argument, which are the axes. -/
def downsample (axes : List String) (shape : List Nat) : Except Exc (List Nat × List String) :=
  let ends := shape.map (· / 2)
  let sizes := if shape.length ≤ 3 then ends.map fun e => bcast1 (nEven e) (nOdd e) else ends.map some
  if sizes.any Option.isNone then .error .value
  else
    match getClist axes .slc with
    | .error e => .error e
    | .ok l => .ok (sizes.map fun s => s.getD 0, l)

end Viscid.InterpSlice
