import Verif.Model.Layout
import Verif.Model.Dict
import Verif.Model.XdmfGeo
import Verif.Model.Basic
/-!
# Model of saving fields as an HDF5 file with its XDMF file, and of loading them

`viscid/readers/hdf5.py` (`save_fields`, H5pyDataWrapper), the parts of `viscid/readers/xdmf.py` that read what it writes, and fields with data in the order
zyx (`viscid/field.py`). An HDF5 file is a list of arrays by path; arrays of coordinates are lists of rationals. The text of the XDMF file is taken
as its elements: the Time, the Geometry and the Attributes; what XML does not allow in an attribute is a parse error. Not modelled: compression,
groups of HDF5 files (names with slashes that are prefixes of each other), globs (names that are not found are a KeyError), entities in names, other white
space than blanks, files that are left behind by a `save_fields` that fails, face and edge centred fields, reflected axes, the crd_system, OpenGGCM's time string, units, the types of numbers.
-/
namespace Viscid.Hdf5
open Viscid.Layout (Arr prod detect reshape)
open Viscid.XdmfGeo (Coords parseGeometry)

/-- exceptions of hdf5.py:226-331, xdmf.py and field.py -/
inductive Exc
  | assertion
  | index
  | attribute
  | value
  | key
  | parse
  | runtime
deriving DecidableEq, Repr

/-! ### Fields with data in the order zyx -/

/-- `a.T` -/
def T (a : Arr α) : Arr α := ⟨a.shape.reverse, fun idx => a.get idx.reverse⟩

/-- field.py:873-884 with components: `np.transpose(src, spatial_transpose)`, where axis `k` stays and the others are reversed; `list.remove` is a
ValueError if there is no axis `k` -/
def spatialT (k : Nat) (a : Arr α) : Except Exc (Arr α) :=
  match a.shape[k]? with
  | none => .error .value
  | some n =>
    let rest := (a.shape.eraseIdx k).reverse
    .ok ⟨rest.take k ++ n :: rest.drop k, fun idx =>
      let r := (idx.eraseIdx k).reverse
      a.get (r.take k ++ idx.getD k 0 :: r.drop k)⟩

/-- the exceptions of `reshape` -/
def lift {β : Type} : Except Layout.Err β → Except Exc β
  | .ok b => .ok b
  | .error .valueError => .error .value
  | .error .indexError => .error .index
  | .error .runtimeError => .error .runtime

/-- field.py:766-771, 889-902 and 945-1008 for a scalar field with zyx_native (879-884) -/
def scalarData (sshape : List Nat) (src : Arr α) : Except Exc (Arr α) := lift (reshape (T src) sshape)

/-- the same for a vector field, with its layout: 640-681 `nr_comps` and `nr_comp`, 684-692 `shape`. No layout is forced -/
def vectorData (sshape : List Nat) (src : Arr α) : Except Exc (Layout.Layout × Arr α) :=
  let l := detect sshape.reverse src.shape
  let comps : Except Exc (Nat × Nat) := match l with
    | .interlaced => (match src.shape.getLast? with
      | some n => .ok (sshape.length, n)
      | none => .error .index)
    | .flat => (match src.shape.head? with
      | some n => .ok (0, n)
      | none => .error .index)
    | .scalar => .ok (sshape.length, 1)
    | _ => .error .runtime
  match comps with
  | .error e => .error e
  | .ok (k, n) =>
    match (if n > 0 then spatialT k src else .ok (T src)) with
    | .error e => .error e
    | .ok a =>
      match lift (reshape a (sshape.take k ++ n :: sshape.drop k)) with
      | .error e => .error e
      | .ok b => .ok (l, b)

/-! ### Saving -/

inductive Center
  | node
  | cell
deriving DecidableEq, Repr

/-- a field; `data` in the order xyz. For a vector field, `flat` says if the components come first -/
structure Fld (α : Type) where
  name : String
  center : Center
  vector : Bool
  flat : Bool
  crds : List (String × List ℚ)
  time : Option ℚ
  data : Arr α

/-- coordinate.py:502-506: the number of cells of an axis -/
def cells (n : Nat) : Nat := if n = 1 then 1 else n - 1

/-- field.py:707-717 `sshape`, for arrays of coordinates -/
def sshape (c : Center) (arrs : List (List ℚ)) : List Nat :=
  match c with
  | .node => arrs.map List.length
  | .cell => arrs.map fun a => cells a.length

/-- the number of components of a field -/
def Fld.comps (f : Fld α) : Nat := if f.vector then (if f.flat then f.data.shape.headD 0 else f.data.shape.getLastD 0) else 0

/-- hdf5.py:165-168 `_FLD_GROUPS` -/
def group : Center → String
  | .node => "/flds_nc"
  | .cell => "/flds_cc"

/-- an Attribute of the XDMF file: Name, AttributeType, Center, and the text of its DataItem -/
structure Attr where
  name : String
  vector : Bool
  center : Center
  text : String
deriving DecidableEq, Repr

/-- a pair of files: the coordinates and the data in the HDF5 file; time, texts of the three data items of the Geometry and Attributes of the other one -/
structure Files (α : Type) where
  crds : List (String × List ℚ)
  data : List (String × Arr α)
  time : Option ℚ
  geo : List (String × String)
  attrs : List Attr

/-- hdf5.py:239-243: a list of fields as OrderedDict -/
def toDict (flds : List (Fld α)) : Dict String (Fld α) := flds.foldl (fun d f => Dict.set d f.name f) []

/-- hdf5.py:250-253: the arrays of three axes; a fourth one is an IndexError -/
def crdArrs (crds : List (String × List ℚ)) : Except Exc (List (List ℚ)) :=
  if crds.length > 3 then .error .index else .ok (crds.map Prod.snd ++ List.replicate (3 - crds.length) [0])

/-- hdf5.py:315-327: the Attribute of a field. `as_flat().T` is a number if there is only one (field.py:1827-1829), which has no `fldtype`; it is a scalar
field if there is only one component (1891-1892) -/
def attrOf (base : String) (nf : String × Fld α) : Except Exc Attr :=
  if prod nf.2.data.shape = 1 then .error .attribute
  else .ok ⟨nf.1, nf.2.vector && nf.2.comps != 1, nf.2.center, "./" ++ base ++ ":" ++ (group nf.2.center ++ "/" ++ nf.1)⟩

/-- all of them -/
def attrsOf (base : String) : List (String × Fld α) → Except Exc (List Attr)
  | [] => .ok []
  | nf :: l =>
    match attrOf base nf with
    | .error e => .error e
    | .ok a =>
      match attrsOf base l with
      | .error e => .error e
      | .ok as => .ok (a :: as)

/-- hdf5.py:225-331 `save_fields`; `base` is the file's name without its directory -/
def save (base : String) (flds : Dict String (Fld α)) : Except Exc (Files α) :=
  match flds with
  | [] => .error .assertion
  | (_, fld0) :: _ =>
    match crdArrs fld0.crds with
    | .error e => .error e
    | .ok arrs =>
      match attrsOf base flds with
      | .error e => .error e
      | .ok attrs =>
        .ok ⟨["/crds/x", "/crds/y", "/crds/z"].zip arrs, flds.map fun nf => (group nf.2.center ++ "/" ++ nf.1, T nf.2.data), fld0.time,
          [("VX", "./" ++ base ++ ":/crds/x"), ("VY", "./" ++ base ++ ":/crds/y"), ("VZ", "./" ++ base ++ ":/crds/z")], attrs⟩

/-! ### Loading -/

/-- `str.strip()`, of blanks -/
def strip (cs : List Char) : List Char := ((cs.dropWhile (· = ' ')).reverse.dropWhile (· = ' ')).reverse

/-- `s.split(':')` -/
def splitColon : List Char → List (List Char)
  | [] => [[]]
  | c :: cs =>
    if c = ':' then [] :: splitColon cs
    else match splitColon cs with
      | [] => [[c]]
      | p :: ps => (c :: p) :: ps

/-- xdmf.py:442-451: the path in the HDF5 file; `fname, loc = …` with another number of parts is a ValueError. The file is taken to be there -/
def locOf (text : String) : Except Exc String :=
  match splitColon (strip text.toList) with
  | [_, loc] => .ok (String.ofList loc)
  | _ => .error .value

/-- a data item of the geometry -/
def itemOf (f : Files α) (it : String × String) : XdmfGeo.Item :=
  ⟨some it.1, match locOf it.2 with
    | .error _ => .error .value
    | .ok loc => match f.crds.lookup loc with
      | some a => .ok a
      | none => .error .key⟩

/-- a field that was loaded: its data is read when it is asked for; `layout` of vector fields only -/
structure LFld (α : Type) where
  name : String
  center : Center
  vector : Bool
  time : ℚ
  data : Except Exc (Layout.Layout × Arr α)

/-- a grid that was loaded -/
structure Loaded (α : Type) where
  crds : List (String × List ℚ)
  flds : List (LFld α)

/-- xdmf.py:404-419 `_parse_attribute`, with the arrays of the coordinates -/
def parseAttr (f : Files α) (arrs : List (List ℚ)) (time : ℚ) (a : Attr) : Except Exc (LFld α) :=
  match locOf a.text with
  | .error e => .error e
  | .ok loc =>
    .ok ⟨a.name, a.center, a.vector, time,
      match f.data.lookup loc with
      | none => .error .key
      | some src =>
        if a.vector then vectorData (sshape a.center arrs) src
        else match scalarData (sshape a.center arrs) src with
          | .error e => .error e
          | .ok b => .ok (.scalar, b)⟩

def parseAttrs (f : Files α) (arrs : List (List ℚ)) (time : ℚ) : List Attr → Except Exc (List (LFld α))
  | [] => .ok []
  | a :: as =>
    match parseAttr f arrs time a with
    | .error e => .error e
    | .ok l =>
      match parseAttrs f arrs time as with
      | .error e => .error e
      | .ok ls => .ok (l :: ls)

/-- what XML does not allow in an attribute in double quotes -/
def badName (s : String) : Bool := s.toList.any fun c => c = '<' || c = '&' || c = '"'

/-- what XML does not allow in a text -/
def badText (s : String) : Bool := s.toList.any fun c => c = '<' || c = '&'

/-- loading the XDMF file: xdmf.py:97-205 for a Collection with one Grid, 458-464 the time (`float("None")` is a ValueError), 251-401 the geometry -/
def load (f : Files α) : Except Exc (Loaded α) :=
  if f.attrs.any (fun a => badName a.name || badText a.text) then .error .parse
  else match f.time with
  | none => .error .value
  | some time =>
    match parseGeometry (1 / 2 ^ 52) ⟨"3DRectMesh", none⟩ ⟨"VXVYVZ", f.geo.map (itemOf f)⟩ with
    | .error .key => .error .key
    | .error .index => .error .index
    | .error .attribute => .error .attribute
    | .error .runtime => .error .runtime
    | .error _ => .error .value
    | .ok (.arrays axes) =>
      match parseAttrs f (axes.map Prod.snd) time f.attrs with
      | .error e => .error e
      | .ok flds => .ok ⟨axes, flds⟩
    | .ok _ => .error .value

end Viscid.Hdf5
