import Verif.Model.Bucket
/-!
# Model of `viscid/readers/vfile_bucket.py` and of loading and unloading in `viscid/readers/vfile.py`

File names are those that `slice_globbed_filenames` gave (see Globbed). Detection of types is an argument (see Readers), and so are what
is a file, what reading does and which children a file loads. Files that fail to load do so before they load children. What a function did
before an exception stays done: functions give the state also if there is one. Not modelled: contents of files (but whether there are any),
glob characters in names of children, files that are their own children, `clear_cache`, `handle_name` of files outside of the bucket, arguments for constructors and warnings.
-/
namespace Viscid.Loader
open Viscid.Bucket (State)

/-- handles: names, the integers of the bucket, and, as `remove_reference` looks an item up as a handle, items -/
inductive Handle
  | name (n : String)
  | num (i : Nat)
  | obj (i : Option Nat)
deriving DecidableEq, Repr

inductive Exc
  | value
  | runtime
  | key
  | attribute
deriving DecidableEq, Repr

/-- what opening and reading does -/
inductive Outcome
  | ok
  | io
  | value
deriving DecidableEq, Repr

/-- a VFile: the names that it was constructed with, `handle_name`, `_child_ref_count`, whether it is a ContainerFile and whether it
    has contents -/
structure Obj where
  group : List String
  handle : String
  kids : List (String × Int)
  container : Bool
  full : Bool
deriving DecidableEq, Repr

/-- the bucket and all files ever constructed; None, for files that failed to load, is an item, too -/
structure World where
  bucket : State Handle (Option Nat) (Option Nat)
  objs : List Obj

def empty : World := ⟨Bucket.init, []⟩

/-- what there is outside -/
structure Env where
  isFile : String → Bool
  read : List String → Outcome
  kids : List String → List String
  container : List String → Bool

def lookup (w : World) (n : String) : Option (Option Nat) := w.bucket.items.get? (.name n)

/-- `set_item([handle_name], f, ...)` (it never raises; see C05) -/
def setFile (w : World) (n : String) (f : Option Nat) (index addRef : Bool) : World × Option Exc :=
  match Bucket.setItem id Handle.num w.bucket [some (.name n)] f index addRef with
  | .ok b => ({ w with bucket := b }, none)
  | .error _ => (w, some .key)

/-- vfile_bucket.py:200-209 `_load_child_file` of a file that loads no others: `load_file` with one name -/
def loadChild (env : Env) (w : World) (n : String) : World × Except Exc (Option Nat) :=
  if env.isFile n then
    match lookup w n with
    | some f =>
      match setFile w n f false true with
      | (w, none) => (w, .ok f)
      | (w, some e) => (w, .error e)
    | none =>
      match env.read [n] with
      | .value => (w, .error .value)
      | .io =>
        match setFile w n none false true with
        | (w, none) => (w, .ok none)
        | (w, some e) => (w, .error e)
      | .ok =>
        let i := w.objs.length
        match setFile { w with objs := w.objs ++ [⟨[n], n, [], env.container [n], true⟩] } n (some i) false true with
        | (w, none) => (w, .ok (some i))
        | (w, some e) => (w, .error e)
  else (w, .ok none)

/-- vfile_bucket.py:203-208: counts of references -/
def count (kids : List (String × Int)) (n : String) : List (String × Int) :=
  match Dict.get? kids n with
  | some c => Dict.set kids n (c + 1)
  | none => Dict.set kids n 1

/-- all children of a file, as it is parsed -/
def loadKids (env : Env) : World → List (String × Int) → List String → World × Except Exc (List (String × Int))
  | w, kids, [] => (w, .ok kids)
  | w, kids, n :: ns =>
    match loadChild env w n with
    | (w, .error e) => (w, .error e)
    | (w, .ok none) => loadKids env w kids ns
    | (w, .ok (some _)) => loadKids env w (count kids n) ns

/-- vfile_bucket.py:123-140: `ftype(group, ...)`; an IOError makes None -/
def construct (env : Env) (w : World) (handle : String) (group : List String) : World × Except Exc (Option Nat) :=
  match env.read group with
  | .io => (w, .ok none)
  | .value => (w, .error .value)
  | .ok =>
    match loadKids env w [] (env.kids group) with
    | (w, .error e) => (w, .error e)
    | (w, .ok kids) => ({ w with objs := w.objs ++ [⟨group, handle, kids, env.container group, true⟩] }, .ok (some w.objs.length))

/-- vfile_bucket.py:113-144, one group -/
def loadGroup (env : Env) (w : World) (handle : String) (group : List String) : World × Except Exc (Option Nat) :=
  let r : World × Except Exc (Option Nat) := match lookup w handle with
    | some f => (w, .ok f)
    | none => construct env w handle group
  match r with
  | (w, .error e) => (w, .error e)
  | (w, .ok f) =>
    match setFile w handle f true false with
    | (w, none) => (w, .ok f)
    | (w, some e) => (w, .error e)

/-- a reader: `group_fnames` and `collective_name_from_group` -/
structure Ftype where
  groups : List String → List (List String)
  collective : List String → String

/-- vfile.py:316-332 `collective_name` -/
def collectiveName (t : Ftype) (g : List String) : String :=
  match g with
  | [n] => n
  | g => t.collective g

/-- vfile_bucket.py:107-144 -/
def loadGroups (env : Env) : World → List (String × List String) → World × Except Exc (List (Option Nat))
  | w, [] => (w, .ok [])
  | w, (h, g) :: r =>
    match loadGroup env w h g with
    | (w, .error e) => (w, .error e)
    | (w, .ok f) =>
      match loadGroups env w r with
      | (w, .error e) => (w, .error e)
      | (w, .ok fs) => (w, .ok (f :: fs))

/-- vfile_bucket.py:99-102: `types_detected[_ftype].append(value)`, or a new list; the dict is ordered -/
def addType {T : Type} [DecidableEq T] (t : T) (n : String) : List (T × List String) → List (T × List String)
  | [] => [(t, [n])]
  | (t', ns) :: r => if t' = t then (t', ns ++ [n]) :: r else (t', ns) :: addType t n r

/-- vfile_bucket.py:85-102: names by type; a RuntimeError if a type cannot be determined -/
def byType {T : Type} [DecidableEq T] (typeOf : String → Option T) : List (T × List String) → List String → Option (List (T × List String))
  | d, [] => some d
  | d, n :: ns =>
    match typeOf n with
    | none => none
    | some t => byType typeOf (addType t n d) ns

/-- vfile_bucket.py:39-149 `load_files`, without `force_reload` -/
def loadFiles {T : Type} [DecidableEq T] (env : Env) (typeOf : String → Option T) (ft : T → Ftype) (w : World) (names : List String) :
    World × Except Exc (List (Option Nat)) :=
  match byType typeOf [] names with
  | none => (w, .error .runtime)
  | some ts => loadGroups env w (ts.flatMap fun p => ((ft p.1).groups p.2).map fun g => (collectiveName (ft p.1) g, g))

/-- vfile.py:129-134 `VFile.unload`: contents go, and so do references, if the bucket is not empty -/
def unloadOwn (w : World) (i : Nat) (n : Int) : World × Option Exc :=
  let w : World := { w with objs := w.objs.modify i fun o => { o with full := false } }
  if Bucket.len w.bucket = 0 then (w, none)
  else
    match Bucket.removeReference id w.bucket (some i) (some (.obj (some i))) n with
    | .ok b => ({ w with bucket := b }, none)
    | .error _ => (w, some .key)

/-- vfile_bucket.py:216-224, the children: a child that has children itself is a RuntimeError, as it is given `_ref_count`; a container
    without is unloaded once, however many references there are -/
def unloadKids : World → List (String × Int) → World × Option Exc
  | w, [] => (w, none)
  | w, (h, n) :: r =>
    match lookup w h with
    | none => (w, some .key)
    | some none => (w, some .attribute)
    | some (some i) =>
      match w.objs[i]? with
      | none => (w, some .key)
      | some o =>
        if o.kids ≠ [] then (w, some .runtime)
        else
          match unloadOwn w i (if o.container then 1 else n) with
          | (w, some e) => (w, some e)
          | (w, none) => unloadKids w r

/-- vfile_bucket.py:216-224 `unload`, and vfile.py:129-134 for files without children -/
def unload (w : World) (i : Nat) : World × Option Exc :=
  match w.objs[i]? with
  | none => (w, some .key)
  | some o =>
    match unloadKids w o.kids with
    | (w, some e) => (w, some e)
    | (w, none) => unloadOwn w i 1

/-- readers/__init__.py:103-105 `unload_file` -/
def unloadFile (w : World) (n : String) : World × Option Exc :=
  match lookup w n with
  | none => (w, some .key)
  | some none => (w, some .attribute)
  | some (some i) => unload w i

/-- vfile_bucket.py:151-154 `remove_item` -/
def removeFile (w : World) (i : Nat) : World × Option Exc :=
  match unload w i with
  | (w, some e) => (w, some e)
  | (w, none) =>
    match Bucket.removeItem id w.bucket (some i) with
    | .ok b => ({ w with bucket := b }, none)
    | .error _ => (w, some .key)

/-- vfile_bucket.py:159-166: the loop of `remove_all_items` -/
def unloadAll : World → List (Option Nat) → World × Option Exc
  | w, [] => ({ w with bucket := Bucket.removeAll w.bucket }, none)
  | w, none :: _ => (w, some .attribute)
  | w, some i :: r =>
    match unload w i with
    | (w, none) => unloadAll w r
    | (w, some .key) => unloadAll w r
    | (w, some e) => (w, some e)

/-- readers/__init__.py:134-136 `unload_all_files` -/
def unloadAllFiles (w : World) : World × Option Exc := unloadAll w (w.bucket.hashLookup.map Prod.snd)

end Viscid.Loader
