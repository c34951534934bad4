import Verif.Model.LogValue
import Verif.Model.Vpic
/-!
# Model of the global file of a VPIC run: `_VPICGlobalFile` of `viscid/readers/vpic.py`

The file is the list of its lines. Python's `float` is a parameter. Negative numbers of blocks are not modelled.
-/
namespace Viscid.VpicGlobal
open Viscid.LogValue (Text isSpace strip split intOf)
open Viscid.Vpic (Basic Axis)

inductive Err
  | value
  | assertion
  | key
  | notImplemented
  | stop
  | attr
  /-- the model's, never met -/
  | fuel
deriving DecidableEq, Repr

/-- `str.split()`; `cur` is the word so far -/
def wordsAux (cur : Text) : Text → List Text
  | [] => if cur = [] then [] else [cur]
  | c :: cs =>
    if isSpace c then (if cur = [] then wordsAux [] cs else cur :: wordsAux [] cs)
    else wordsAux (cur ++ [c]) cs

/-- `str.split()` -/
def words (s : Text) : List Text := wordsAux [] s

/-- vpic.py:278-279, 351-352: a line, stripped, that is passed over -/
def skipped (s : Text) : Bool := s = [] || s.head? = some '#'

/-- vpic.py:250-251 VPICFieldDescr -/
structure Descr where
  name : Text
  kind : Text
  comps : Int
  basic : Basic
  off : Int
deriving DecidableEq, Repr

/-- vpic.py:252-253 VPICFieldSet -/
structure FieldSet where
  dir : Text
  base : Text
  descr : List Descr
deriving DecidableEq, Repr

/-- values of keywords -/
inductive Val
  | int (n : Int)
  | flt (x : ℚ)
  | two (x y : ℚ)
  | text (s : Text)
deriving DecidableEq, Repr

/-- the object as it is filled -/
structure St where
  kw : Text → Option Val
  fields : Option FieldSet
  species : Option (List FieldSet)

inductive Kind
  | i | f | f2 | s
deriving DecidableEq, Repr

/-- vpic.py:255-271 `_keywords` -/
def keywords : List (Text × Kind) :=
  [("DATA_HEADER_SIZE", .i), ("GRID_DELTA_T", .f), ("GRID_CVAC", .f), ("GRID_EPS0", .f), ("GRID_EXTENTS_X", .f2),
   ("GRID_EXTENTS_Y", .f2), ("GRID_EXTENTS_Z", .f2), ("GRID_DELTA_X", .f), ("GRID_DELTA_Y", .f), ("GRID_DELTA_Z", .f),
   ("GRID_TOPOLOGY_X", .i), ("GRID_TOPOLOGY_Y", .i), ("GRID_TOPOLOGY_Z", .i), ("FIELD_DATA_DIRECTORY", .s),
   ("FIELD_DATA_BASE_FILENAME", .s)].map fun p : String × Kind => (p.1.toList, p.2)

/-- vpic.py:287-301: the words after a keyword. Conversion comes before the number of words is looked at. -/
def value (float : Text → Option ℚ) : Kind → List Text → Except Err Val
  | .i, ws =>
    match ws.mapM intOf with
    | some [n] => .ok (.int n)
    | _ => .error .value
  | .f, ws =>
    match ws.mapM float with
    | some [x] => .ok (.flt x)
    | _ => .error .value
  | .f2, ws =>
    match ws.mapM float with
    | some [x, y] => .ok (.two x y)
    | some _ => .error .assertion
    | none => .error .value
  | .s, ws =>
    match ws with
    | [w] => .ok (.text w)
    | _ => .error .value

/-- vpic.py:309-325 `_parseFieldDescr` -/
def descr (line : Text) (off : Int) : Except Err Descr :=
  match (split '"' line).drop 1 with
  | [name, rest] =>
    match words rest with
    | [kind, n, t, b] =>
      match intOf n, intOf b with
      | some n, some b =>
        if t = "FLOATING_POINT".toList ∧ b = 4 then .ok ⟨name, kind, n, .float4, off⟩
        else if t = "INTEGER".toList ∧ b = 2 then .ok ⟨name, kind, n, .int2, off⟩
        else .error .notImplemented
      | _, _ => .error .value
    | _ => .error .assertion
  | _ => .error .value

/-- vpic.py:339-342, 363-366: so many lines, each a variable; and the lines left. `next(f)` at the end raises StopIteration. -/
def descrs : Nat → Int → List Text → Except Err (List Descr × List Text)
  | 0, _, ls => .ok ([], ls)
  | _ + 1, _, [] => .error .stop
  | n + 1, off, l :: ls =>
    match descr (strip l) off with
    | .error e => .error e
    | .ok d =>
      match descrs n (off + d.comps) ls with
      | .error e => .error e
      | .ok (ds, ls) => .ok (d :: ds, ls)

/-- vpic.py:347-373: one species; `kw` is what was given for it so far -/
def oneSpecies (kw : Text → Option Text) : List Text → Except Err (FieldSet × List Text)
  | [] => .error .stop
  | l :: ls =>
    let line := strip l
    if skipped line then oneSpecies kw ls
    else
      match words line with
      | [] => .error .value
      | w :: args =>
        if w = "HYDRO_DATA_VARIABLES".toList then
          match args with
          | [n] =>
            match intOf n, kw "SPECIES_DATA_DIRECTORY".toList, kw "SPECIES_DATA_BASE_FILENAME".toList with
            | none, _, _ => .error .value
            | some n, some dir, some base =>
              match descrs n.toNat 0 ls with
              | .error e => .error e
              | .ok (ds, ls) => .ok (⟨dir, base, ds⟩, ls)
            | _, _, _ => .error .key
          | _ => .error .assertion
        else
          match args with
          | [v] => oneSpecies (fun k => if k = w then some v else kw k) ls
          | _ => .error .assertion

/-- vpic.py:346-373: so many species -/
def manySpecies : Nat → List Text → Except Err (List FieldSet × List Text)
  | 0, ls => .ok ([], ls)
  | n + 1, ls =>
    match oneSpecies (fun _ => none) ls with
    | .error e => .error e
    | .ok (s, ls) =>
      match manySpecies n ls with
      | .error e => .error e
      | .ok (ss, ls) => .ok (s :: ss, ls)

/-- vpic.py:281-303: what a line that is not passed over does, with the lines after it; and the lines left -/
def dispatch (float : Text → Option ℚ) (ws : List Text) (ls : List Text) (st : St) : Except Err (St × List Text) :=
  match ws with
  | [] => .error .value
  | w :: args =>
    if w = "VPIC_HEADER_VERSION".toList then
      if args = ["1.0.0".toList] then .ok (st, ls) else .error .notImplemented
    else if w = "FIELD_DATA_VARIABLES".toList then
      match args with
      | [n] =>
        match intOf n, st.kw "FIELD_DATA_DIRECTORY".toList, st.kw "FIELD_DATA_BASE_FILENAME".toList with
        | none, _, _ => .error .value
        | some n, some (.text dir), some (.text base) =>
          match descrs n.toNat 0 ls with
          | .error e => .error e
          | .ok (ds, ls) => .ok ({ st with fields := some ⟨dir, base, ds⟩ }, ls)
        | _, _, _ => .error .key
      | _ => .error .assertion
    else if w = "NUM_OUTPUT_SPECIES".toList then
      match args with
      | [n] =>
        match intOf n with
        | none => .error .value
        | some n =>
          match manySpecies n.toNat ls with
          | .error e => .error e
          | .ok (ss, ls) => .ok ({ st with species := some ss }, ls)
      | _ => .error .assertion
    else
      match keywords.lookup w with
      | some k =>
        match value float k args with
        | .error e => .error e
        | .ok v => .ok ({ st with kw := fun x => if x = w then some v else st.kw x }, ls)
      | none => .ok (st, ls)

/-- vpic.py:276-303: the lines one after the other; the number is at least that of the lines -/
def parse (float : Text → Option ℚ) : Nat → List Text → St → Except Err St
  | _, [], st => .ok st
  | 0, _ :: _, _ => .error .fuel
  | f + 1, l :: ls, st =>
    let line := strip l
    if skipped line then parse float f ls st
    else
      match dispatch float (words line) ls st with
      | .error e => .error e
      | .ok (st, ls) => parse float f ls st

/-- what is known after `__init__` -/
structure Global where
  fields : FieldSet
  species : List FieldSet
  x : Axis
  y : Axis
  z : Axis

/-- vpic.py:375-382 `_makeFieldDict`: the name of a variable in the dict -/
def dictName (base name : Text) : Text :=
  if base ≠ "fields".toList then name ++ " (".toList ++ base ++ ")".toList else name

/-- vpic.py:375-382 `_makeFieldDict`: entries in the order they are made; later ones replace earlier ones of the same name -/
def entries (sets : List FieldSet) : List (Text × FieldSet × Descr) :=
  sets.flatMap fun fs => fs.descr.map fun d => (dictName fs.base d.name, fs, d)

/-- `_field_dict[name]` -/
def look (sets : List FieldSet) (name : Text) : Option (FieldSet × Descr) := (entries sets).reverse.lookup name

/-- vpic.py:386-397: one axis, of the keywords that end in `c` -/
def axis (kw : Text → Option Val) (c : Char) : Except Err Axis :=
  match kw ("GRID_TOPOLOGY_".toList ++ [c]), kw ("GRID_DELTA_".toList ++ [c]), kw ("GRID_EXTENTS_".toList ++ [c]) with
  | some (.int t), some (.flt dx), some (.two xl xh) => .ok ⟨xl, xh, dx, t.toNat⟩
  | _, _, _ => .error .key

/-- vpic.py:273-401 `__init__` and `_setup` -/
def readFile (float : Text → Option ℚ) (ls : List Text) : Except Err Global :=
  match parse float ls.length ls ⟨fun _ => none, none, none⟩ with
  | .error e => .error e
  | .ok st =>
    match st.fields, st.species with
    | some fs, some ss =>
      match axis st.kw 'X', axis st.kw 'Y', axis st.kw 'Z' with
      | .ok x, .ok y, .ok z => .ok ⟨fs, ss, x, y, z⟩
      | _, _, _ => .error .key
    | _, _ => .error .attr

end Viscid.VpicGlobal
