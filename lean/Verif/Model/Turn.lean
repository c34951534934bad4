import Verif.Model.LazySlice
import Verif.Model.Crds
/-!
# Turning what OpenGGCM files hold from MHD to GSE: `viscid/readers/openggcm.py`, `GGCMGrid`

Whether a grid is turned is decided elsewhere (`GgcmFile`, C115); here `turn` is the decision. Fields are on disk or are arrays; their values
are rational numbers. Not modelled: arrays of whole numbers (which `*=` with a fraction refuses), that without `copy_on_transform` the array is
changed in place (`Recenter`, C162), coordinates that were looked at before they were given to the grid.
-/
namespace Viscid.Turn
open Viscid.LazySlice (Fld Idx Center fwd hack zipLongest h5index index second)
open Viscid.Layout (Arr)
open Viscid.Crds (Axis)

inductive Err
  | attribute
  | notImplemented
  | value
  | lazy (e : LazySlice.Err)
deriving DecidableEq, Repr

/-- The `post_reshape_transform_func`s: openggcm.py:125-138 `mhd2gse_field_scalar_m1`, 140-148 `mhd2gse_field_scalar`, 150-172
    `mhd2gse_field_vector` -/
inductive Tf
  | minus
  | same
  | vector
deriving DecidableEq, Repr

/-- A field: its name, its coordinates (`_src_crds`: name and arrays of each axis), where the values are, if they are stored z first, its
    components (none for a scalar field, else if they come first and how many there are), the source, the transform function, and
    `copy_on_transform` (field.py:497-575) -/
structure Field where
  name : String
  axes : List (String × Axis)
  center : Center
  zyx : Bool
  comps : Option (Bool × Nat)
  src : Arr ℚ
  tf : Option Tf
  copy : Bool

/-- openggcm.py:336-346 `set_crds`: `reflect_axes = "xy"`; an axis is reflected if its name is in it, `ax in "xy"` (coordinate.py:435, 474) -/
def setCrds (turn : Bool) (axes : List (String × Axis)) : List (String × Axis) :=
  if turn then axes.map fun a => (a.1, { a.2 with reflect := a.1 ∈ ["", "x", "y", "xy"] }) else axes

/-- openggcm.py:218-222 -/
def flipComps : List String :=
  ["bx", "by", "ex", "ey", "vx", "vy", "rv1x", "rv1y", "jx", "jy", "xjx", "xjy", "b1x", "b1y", "bx1", "by1", "b2x", "b2y", "bx2", "by2",
   "ex_cc", "ey_cc", "ex_ec", "ey_ec", "eflx", "efly"]

/-- openggcm.py:223-224 -/
def flipNames : List String := ["v", "b", "b1", "b2", "b_cc", "b_fc", "e_cc", "e_ec", "efl", "j", "xj"]

/-- openggcm.py:351-360 -/
def choose (f : Field) : Except Err Tf :=
  if f.comps.isSome then .ok .vector
  else if f.name ∈ flipComps then .ok .minus
  else if f.name ∈ flipNames then .error .notImplemented
  else .ok .same

/-- openggcm.py:348-366 `add_field`, for one field -/
def addField (turn copy : Bool) (f : Field) : Except Err Field :=
  if turn then do
    let t ← choose f
    .ok { f with tf := some t, copy := copy }
  else .ok f

/-- What a reader does with a field and the coordinates of its grid (readers/xdmf.py:189-206, readers/ggcm_fortbin.py:309-330) -/
def load (turn copy : Bool) (f : Field) : Except Err Field := addField turn copy { f with axes := setCrds turn f.axes }

/-- The field, as `LazySlice` has it -/
def Field.fld (f : Field) : Fld ℚ :=
  { nc := f.axes.map fun a => a.2.nodes.length, cc := f.axes.map fun a => a.2.centres.length, center := f.center,
    reflect := f.axes.map fun a => a.2.reflect, zyx := f.zyx, comps := f.comps, src := f.src }

/-- field.py:754-758, 1416-1430 `crds` and `get_crds`, of a node or cell centred field: the coordinates along each axis -/
def Field.points (f : Field) : List (List ℚ) :=
  f.axes.map fun a =>
    let b := a.2.applyReflections
    if f.center = .node then b.nodes else b.centres

/-- openggcm.py:160 -/
def factor (k : Nat) : ℚ := [-1, -1, 1].getD k 0

/-- openggcm.py:150-172 for an array with the components first, or last; `arr *= factor` refuses to become larger -/
def vectorTf (first copy : Bool) (a : Arr ℚ) : Except Err (Arr ℚ) :=
  let n := if first then a.shape.headD 0 else a.shape.getLastD 0
  let comp (idx : List Nat) := if first then idx.headD 0 else idx.getLastD 0
  if n = 3 then .ok ⟨a.shape, fun idx => a.get idx * factor (comp idx)⟩
  else if n = 1 ∧ copy then
    if first then .ok ⟨3 :: a.shape.tail, fun idx => a.get (0 :: idx.tail) * factor (comp idx)⟩
    else .ok ⟨a.shape.dropLast ++ [3], fun idx => a.get (idx.dropLast ++ [0]) * factor (comp idx)⟩
  else .error .value

/-- openggcm.py:125-172 for a whole array -/
def Tf.apply (t : Tf) (f : Field) (a : Arr ℚ) : Except Err (Arr ℚ) :=
  match t with
  | .minus => .ok ⟨a.shape, fun idx => a.get idx * -1⟩
  | .same => .ok a
  | .vector => match f.comps with
    | some (first, _) => vectorTf first f.copy a
    | none => .error .value

def ofLazy : Except LazySlice.Err β → Except Err β
  | .ok x => .ok x
  | .error e => .error (.lazy e)

/-- field.py:768-773, 889-998 `data`: read, put in order, reflected, then transformed -/
def Field.read (f : Field) : Except Err (Arr ℚ) := do
  let a ← ofLazy f.fld.data
  match f.tf with
  | none => .ok a
  | some t => t.apply f a

/-- field.py:1243-1254: slicing a field that is in memory, or whose source can not be sliced -/
def Field.loaded (f : Field) (slices : List Idx) (comp : Idx) : Except Err (Arr ℚ) := do
  let d ← f.read
  ofLazy (index d (f.fld.withComp (fun _ => comp) slices))

/-- field.py:1153-1254: slicing a field on disk whose data have not been read. The transform function gets the sliced array (1231-1241); for a
    vector field its shape is made with `insert`, which numpy arrays (`shape_nc`, `shape_cc`; coordinate.py:346-352) do not have. The slices
    have as many coordinates as values, so that reshaping changes nothing. -/
def Field.lazy (f : Field) (slices : List Idx) (comp : Idx) : Except Err (Arr ℚ) := do
  let xs ← ofLazy (fwd f.fld.sshape slices f.fld.reflect)
  let (nfst, nsnd) := f.fld.native xs comp
  let (nfst, nsnd) ←
    if f.src.shape.length ≠ nfst.length then do
      let r ← ofLazy (hack f.src.shape f.fld.nativeShape (zipLongest nfst nsnd))
      .ok (r.map (·.1), r.filterMap (·.2))
    else .ok (nfst, nsnd)
  if f.src.shape.length = nfst.length then do
    let a ← ofLazy (h5index f.src nfst)
    let b ← ofLazy (index a (nsnd.filterMap second))
    match f.tf with
    | none => .ok (f.fld.back comp b)
    | some t => if f.comps.isSome then .error .attribute else t.apply f (f.fld.back comp b)
  else f.loaded slices comp

/-- field.py:774-785: assigning to `data`. Coordinates and transform function stay. -/
def Field.assign (f : Field) (a : Arr ℚ) : Field := { f with src := a, zyx := false }

/-- A field with the values `a` on the coordinates of `f`, as arithmetic makes it (field.py:1805-1840 `wrap`): no transform function, and the
    coordinates with the reflections applied -/
def Field.wrap (f : Field) (name : String) (a : Arr ℚ) : Field :=
  { f with name := name, axes := f.axes.map fun x => (x.1, x.2.applyReflections), src := a, zyx := false, tf := none, copy := false }

/-- openggcm.py:401-406 `_assemble_vector`, field.py:308-338 `scalar_fields_to_vector`: a vector field made of scalar fields, on coordinates
    with the nodes of those of the first. -/
def assembled (f : Field) : List (String × Axis) := f.axes.map fun x => (x.1, ⟨x.2.nodes, none, false⟩)

/-- field.py:945-998 for a list of fields (their data, components first), and 918-931 if the components have to come last. Components of
    other shapes are refused. -/
def stack (interlaced : Bool) (ds : List (Arr ℚ)) (s : List Nat) : Except Err (Arr ℚ) :=
  if ∀ d ∈ ds, d.shape = s then
    if interlaced then
      .ok ⟨s ++ [ds.length], fun idx => (ds.getD (idx.getLastD 0) ⟨[], fun _ => 0⟩).get idx.dropLast⟩
    else .ok ⟨ds.length :: s, fun idx => (ds.getD (idx.headD 0) ⟨[], fun _ => 0⟩).get idx.tail⟩
  else .error .value

/-- The data of the vector field: field.py:960-973, the shape is that of the first -/
def assemble (interlaced : Bool) (fs : List Field) : Except Err (Arr ℚ) := do
  let ds ← fs.mapM Field.read
  match ds with
  | [] => .error .value
  | d :: _ => stack interlaced ds d.shape

end Viscid.Turn
