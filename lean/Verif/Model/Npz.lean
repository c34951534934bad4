import Verif.Model.Dict
import Mathlib.Data.Rat.Defs
/-!
# Model of `viscid/readers/numpy_binary.py`: fields in npz files

A file is a dict of arrays; `A` is the type of arrays of numbers, `ndim` their number of dimensions. Arrays of strings are lists. Not modelled: the
layout of vector fields, names numpy cannot use as names of members of an archive, numbers in the place of the arrays of names (the reader gets a
KeyError for them, as it does for names that are not there).
-/
namespace Viscid.Npz

/-- the exceptions of numpy_binary.py:91-195 -/
inductive Exc
  | assertion
  | type
  | key
  | value
  | io
deriving DecidableEq, Repr

/-- an array in a file -/
inductive Entry (A : Type)
  | names (ns : List String)
  | arr (a : A)
deriving DecidableEq, Repr

/-- a field: `center` in lower case, its axes and their coordinates, its data -/
structure Fld (A : Type) where
  name : String
  center : String
  time : ℚ
  crds : List (String × A)
  data : A

/-- a field that was loaded; it has no time, so Field's default 0.0 (field.py:511) -/
structure LFld (A : Type) where
  name : String
  center : String
  time : ℚ
  vector : Bool
  data : Entry A
deriving DecidableEq, Repr

/-- numpy_binary.py:119-147: the coordinates and the fields of the grid that was loaded -/
structure Loaded (A : Type) where
  crds : List (String × Entry A)
  flds : List (LFld A)
deriving DecidableEq, Repr

/-- numpy_binary.py:83-86, in the order of the dict -/
def keyFlds : List (String × String) :=
  [("node", "field_names_nc"), ("cell", "field_names_cc"), ("face", "field_names_fc"), ("edge", "field_names_ec")]

/-- numpy_binary.py:159-163: a list of fields as OrderedDict -/
def toDict {A : Type} (flds : List (Fld A)) : Dict String (Fld A) := flds.foldl (fun d f => Dict.set d f.name f) []

/-- numpy_binary.py:155-195 `save_fields`, the arrays given to `np.savez(fname, **fld_dict)`, whose first parameter is called `file` -/
def save {A : Type} (flds : Dict String (Fld A)) : Except Exc (Dict String (Entry A)) :=
  match flds with
  | [] => .error .assertion
  | (_, fld0) :: _ =>
    let d := fld0.crds.foldl (fun d c => Dict.set d c.1 (Entry.arr c.2)) ([] : Dict String (Entry A))
    let d := Dict.set d "crd_names" (.names (fld0.crds.map Prod.fst))
    if flds.all (fun nf => (keyFlds.map Prod.fst).contains nf.2.center) then
      let d := flds.foldl (fun d nf => Dict.set d nf.1 (.arr nf.2.data)) d
      let d := keyFlds.foldl (fun d ck => Dict.set d ck.2 (.names ((flds.filter fun nf => nf.2.center = ck.1).map Prod.fst))) d
      if (Dict.get? d "file").isSome then .error .type else .ok d
    else .error .key

/-- `fld_names.remove(x)` of a Python list (numpy_binary.py:114, 124, 131, 139): a ValueError if it isn't there -/
def remove (l : List String) (x : String) : Except Exc (List String) :=
  if x ∈ l then .ok (l.erase x) else .error .value

/-- numpy_binary.py:122-124: the axes are taken from the names, one by one -/
def removeAll (l : List String) : List String → Except Exc (List String)
  | [] => .ok l
  | x :: xs =>
    match remove l x with
    | .error e => .error e
    | .ok l => removeAll l xs

/-- `len(lazy_arr.shape)` (numpy_binary.py:93): arrays of names have one dimension -/
def Entry.ndim {A : Type} (ndim : A → Nat) : Entry A → Nat
  | .names _ => 1
  | .arr a => ndim a

/-- numpy_binary.py:91-100 `_wrap_lazy_field` -/
def wrapField {A : Type} (ndim : A → Nat) (d : Dict String (Entry A)) (nrDims : Nat) (name center : String) : Except Exc (LFld A) :=
  match d.get? name with
  | none => .error .key
  | some e =>
    if e.ndim ndim = nrDims then .ok ⟨name, center, 0, false, e⟩
    else if e.ndim ndim = nrDims + 1 then .ok ⟨name, center, 0, true, e⟩
    else .error .io

/-- numpy_binary.py:108-119: names of the axes, and what is left of the names -/
def crdNames {A : Type} (d : Dict String (Entry A)) (left : List String) : Except Exc (List String × List String) :=
  let xyz := ["x", "y", "z"].filter fun a => (d.get? a).isSome
  match d.get? "crd_names" with
  | some (.names ns) =>
    if ns.all fun a => (d.get? a).isSome then
      match remove left "crd_names" with
      | .error e => .error e
      | .ok left => .ok (ns, left)
    else .ok (xyz, left)
  | _ => .ok (xyz, left)

/-- numpy_binary.py:135-139: one array of names -/
def loadNames {A : Type} (ndim : A → Nat) (d : Dict String (Entry A)) (nrDims : Nat) (center : String) :
    List String → List String → Except Exc (List (LFld A) × List String)
  | [], left => .ok ([], left)
  | n :: ns, left =>
    match wrapField ndim d nrDims n center with
    | .error e => .error e
    | .ok f =>
      match remove left n with
      | .error e => .error e
      | .ok left =>
        match loadNames ndim d nrDims center ns left with
        | .error e => .error e
        | .ok (fs, left) => .ok (f :: fs, left)

/-- numpy_binary.py:128-139: the arrays of names, one by one -/
def loadCenters {A : Type} (ndim : A → Nat) (d : Dict String (Entry A)) (nrDims : Nat) :
    List (String × String) → List String → Except Exc (List (LFld A) × List String)
  | [], left => .ok ([], left)
  | (center, key) :: cks, left =>
    let names : Except Exc (List String × List String) := match d.get? key with
      | some (.names ns) =>
        match remove left key with
        | .error e => .error e
        | .ok left => .ok (ns, left)
      | some (.arr _) => .error .key
      | none => .ok ([], left)
    match names with
    | .error e => .error e
    | .ok (ns, left) =>
      match loadNames ndim d nrDims center ns left with
      | .error e => .error e
      | .ok (fs, left) =>
        match loadCenters ndim d nrDims cks left with
        | .error e => .error e
        | .ok (gs, left) => .ok (fs ++ gs, left)

/-- numpy_binary.py:141-144: what is left is at nodes -/
def loadRest {A : Type} (ndim : A → Nat) (d : Dict String (Entry A)) (nrDims : Nat) : List String → Except Exc (List (LFld A))
  | [] => .ok []
  | n :: ns =>
    match wrapField ndim d nrDims n "node" with
    | .error e => .error e
    | .ok f =>
      match loadRest ndim d nrDims ns with
      | .error e => .error e
      | .ok fs => .ok (f :: fs)

/-- numpy_binary.py:102-147 `_parse` -/
def load {A : Type} (ndim : A → Nat) (d : Dict String (Entry A)) : Except Exc (Loaded A) :=
  match crdNames d d.keys with
  | .error e => .error e
  | .ok (axes, left) =>
    match removeAll left axes with
    | .error e => .error e
    | .ok left =>
      match loadCenters ndim d axes.length keyFlds left with
      | .error e => .error e
      | .ok (fs, left) =>
        match loadRest ndim d axes.length left with
        | .error e => .error e
        | .ok gs => .ok ⟨axes.filterMap fun a => (d.get? a).map fun e => (a, e), fs ++ gs⟩

end Viscid.Npz
