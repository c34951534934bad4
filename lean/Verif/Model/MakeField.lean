import Verif.Model.XdmfGeo
import Verif.Model.Layout
import Verif.Model.Hdf5
/-!
# Model of coordinates and fields made of arrays

`viscid/coordinate.py` (`arrays2crds`) and `viscid/field.py` (`arrays2field`, `dat2field`, `full`, `full_like`, `wrap_field`). Arrays of coordinates are
lists of rationals. Not modelled: coordinates that are times, single arrays given for a list of arrays, `center` of `arrays2field` (it converts the
field afterwards: C65), face and edge centred fields, names and types of numbers.
-/
namespace Viscid.MakeField
open Viscid.Layout (Arr prod reshape)
open Viscid.Crds (Uniform linspace)
open Viscid.XdmfGeo (diffs allClose)
open Viscid.Hdf5 (Center cells)

/-- exceptions of coordinate.py:44-98 and field.py:42-260 -/
inductive Exc
  | index
  | value
  | runtime
  | notImplemented
deriving DecidableEq, Repr

/-- UniformCrds with linspace arguments, or NonuniformCrds with arrays -/
inductive Crds
  | uniform (axes : List (String × Uniform))
  | arrays (axes : List (String × List ℚ))
deriving DecidableEq, Repr

/-- the names and the nodes of the axes -/
def Crds.nodes : Crds → List (String × List ℚ)
  | .uniform axes => axes.map fun a => (a.1, linspace a.2.xl a.2.xh a.2.n)
  | .arrays axes => axes

/-- `shape_nc` -/
def Crds.shapeNc : Crds → List Nat
  | .uniform axes => axes.map fun a => a.2.n
  | .arrays axes => axes.map fun a => a.2.length

/-- `shape_cc`: coordinate.py:1272-1273 and 1290-1291 for uniform ones, 498-506 for the others -/
def Crds.shapeCc : Crds → List Nat
  | .uniform axes => axes.map fun a => a.2.shapeCc
  | .arrays axes => axes.map fun a => cells a.2.length

/-- `crd_type` (coordinate.py:86-93): none or beginning with AUTO, uniform or nonuniform, or another one -/
inductive CType
  | auto
  | uniform
  | nonuniform
  | other
deriving DecidableEq, Repr

/-- coordinate.py:62-80: the entry of one axis in `uniform_clist`, if any; `arr[0]` of an empty array is an IndexError -/
def axisOf (rtol : ℚ) (arr : List ℚ) : Except Exc (Option Uniform) :=
  if allClose rtol (diffs arr) then
    match arr.head?, arr.getLast? with
    | some a, some b => .ok (some ⟨a, b, arr.length⟩)
    | _, _ => .error .index
  else .ok none

/-- all axes -/
def axesOf (rtol : ℚ) : List (String × List ℚ) → Except Exc (List (String × Option Uniform))
  | [] => .ok []
  | a :: as =>
    match axisOf rtol a.2 with
    | .error e => .error e
    | .ok u =>
      match axesOf rtol as with
      | .error e => .error e
      | .ok us => .ok ((a.1, u) :: us)

/-- `uniform_clist` -/
def uniformList (us : List (String × Option Uniform)) : List (String × Uniform) := us.filterMap fun u => u.2.map fun v => (u.1, v)

/-- coordinate.py:44-98 `arrays2crds`; `rtol` is four times the eps of the type of numbers, 0 for integers -/
def arrays2crds (rtol : ℚ) (type : CType) (names : List String) (arrs : List (List ℚ)) : Except Exc Crds :=
  if arrs = [] then .error .index
  else
    match axesOf rtol (names.zip arrs) with
    | .error e => .error e
    | .ok us =>
      match type with
      | .auto => if us.all (fun u => u.2.isSome) then .ok (.uniform (uniformList us)) else .ok (.arrays (names.zip arrs))
      | .uniform => .ok (.uniform (uniformList us))
      | .nonuniform => .ok (.arrays (names.zip arrs))
      | .other => .error .notImplemented

/-- a field that was made: `wrap_field` -/
structure Made (α : Type) where
  crds : Crds
  center : Center
  vector : Bool
  dat : Arr α

/-- field.py:707-720 -/
def Made.sshape (m : Made α) : List Nat :=
  match m.center with
  | .node => m.crds.shapeNc
  | .cell => m.crds.shapeCc

/-- field.py:600-609; the keyword `layout` goes to the meta data (559-563), where nothing looks for it -/
def Made.layout (m : Made α) : Layout.Layout := if m.vector then (Layout.new m.sshape m.dat).layout else .scalar

/-- the exceptions of `data` -/
def lift {β : Type} : Except Layout.Err β → Except Exc β
  | .ok b => .ok b
  | .error .valueError => .error .value
  | .error .indexError => .error .index
  | .error .runtimeError => .error .runtime

/-- field.py:766-771 `data` -/
def Made.data (m : Made α) : Except Exc (Arr α) :=
  if m.vector then lift (Layout.new m.sshape m.dat).data else lift (reshape m.dat m.sshape)

/-- field.py:362-394 `wrap_field`: it is a vector field if there is a multiple of the points; of no points, it is what was said -/
def wrapField (dat : Arr α) (crds : Crds) (vector : Bool) (center : Center) : Made α :=
  let n := prod (match center with | .node => crds.shapeNc | .cell => crds.shapeCc)
  ⟨crds, center, vector || (n ≠ 0 && prod dat.shape % n = 0 && prod dat.shape / n > 1), dat⟩

/-- field.py:24-30 `_DEFAULT_COMPONENT_NAMES`, the default of `crd_names` -/
def xyzuvw : List String := ["x", "y", "z", "u", "v", "w"]

/-- field.py:60-96: type and centering by the shape -/
def discover (crds : Crds) (shape : List Nat) : Except Exc (Bool × Center) :=
  if shape.length = crds.shapeNc.length then
    if crds.shapeNc = shape then .ok (false, .node)
    else if crds.shapeCc = shape then .ok (false, .cell)
    else .error .value
  else if shape.length = crds.shapeNc.length + 1 then
    if crds.shapeNc = shape.dropLast then .ok (true, .node)
    else if crds.shapeCc = shape.dropLast then .ok (true, .cell)
    else if crds.shapeNc = shape.tail then .ok (true, .node)
    else if crds.shapeCc = shape.tail then .ok (true, .cell)
    else .error .value
  else .error .value

/-- field.py:42-99 `arrays2field` -/
def arrays2field (rtol : ℚ) (type : CType) (names : List String) (arrs : List (List ℚ)) (dat : Arr α) : Except Exc (Made α) :=
  match arrays2crds rtol type names arrs with
  | .error e => .error e
  | .ok crds =>
    match discover crds dat.shape with
    | .error e => .error e
    | .ok (v, c) => .ok (wrapField dat crds v c)

/-- `np.arange(n)` -/
def arange (n : Nat) : List ℚ := (List.range n).map fun (i : Nat) => (i : ℚ)

/-- `fldtype` and `layout` of field.py:101-127 -/
inductive As
  | scalar
  | flat
  | interlaced
  | unknown
deriving DecidableEq, Repr

/-- field.py:101-127 `dat2field` -/
def dat2field (rtol : ℚ) (as : As) (dat : Arr α) : Except Exc (Made α) :=
  match as with
  | .unknown => .error .value
  | .scalar => arrays2field rtol .auto xyzuvw (dat.shape.map arange) dat
  | .flat => arrays2field rtol .auto xyzuvw (dat.shape.tail.map arange) dat
  | .interlaced => arrays2field rtol .auto xyzuvw (dat.shape.dropLast.map arange) dat

/-- field.py:129-193 `full` for coordinates -/
def fullOn (crds : Crds) (v : α) (center : Center) (interlaced : Bool) (nrComps : Nat) : Made α :=
  let s := match center with | .node => crds.shapeNc | .cell => crds.shapeCc
  let shape := if nrComps = 0 then s else if interlaced then s ++ [nrComps] else nrComps :: s
  wrapField ⟨shape, fun _ => v⟩ crds (nrComps ≠ 0) center

/-- field.py:129-193 `full` for a list of integers (157-158): 4 eps of the numbers are the tolerance -/
def fullOf (rtol : ℚ) (ns : List Nat) (v : α) (center : Center) (interlaced : Bool) (nrComps : Nat) : Except Exc (Made α) :=
  match arrays2crds rtol .auto xyzuvw (ns.map arange) with
  | .error e => .error e
  | .ok crds => .ok (fullOn crds v center interlaced nrComps)

/-- field.py:231-260 `full_like`: `fld.shape` (684-692) -/
def fullLike (m : Made α) (v : β) : Except Exc (Made β) :=
  match (if m.vector then lift (Layout.new m.sshape m.dat).shape else .ok m.sshape) with
  | .error e => .error e
  | .ok shape => .ok (wrapField ⟨shape, fun _ => v⟩ m.crds m.vector m.center)

end Viscid.MakeField
