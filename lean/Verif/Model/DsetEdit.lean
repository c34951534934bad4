import Verif.Model.Bucket
import Verif.Model.Nested
/-!
# Model of `viscid/dataset.py` class Dataset: adding, finding and removing children

Children are objects, told apart by numbers; the Bucket with their handles is that of `Verif.Model.Bucket`. What a child is like is given: whether it is a deferred
child, and what its callback returns then (always the same object); which fields a grid computes (`_get_…` methods), and what its coordinates are called.
The fields that a grid keeps are part of the state, as they can be removed. Children that are datasets are not modelled here (see `Verif.Model.Nested`).
-/
namespace Viscid.DsetEdit
open Viscid.Nested (Key)

inductive Err
  | key
  | type
  | attribute
deriving DecidableEq, Repr

/-- what objects are like -/
structure Env where
  /-- what the callback of a deferred child returns, none for a grid -/
  target : Nat → Option Nat
  /-- `_get_<name>` methods of a grid, grid.py:282-288 -/
  derived : Nat → String → Bool
  /-- coordinates of a grid, grid.py:318-320 -/
  crd : Nat → String → Bool

/-- a Dataset, with the fields its grids keep -/
structure D where
  kids : Bucket.State Key Nat Nat
  active : Option Nat
  fields : Nat → Key → Bool

/-- the argument of `ds[…]`: a name or number, or an object -/
inductive Arg
  | key (k : Key)
  | obj (c : Nat)
deriving DecidableEq

/-- dataset.py:205-214, without children; grids have their fields -/
def new (fields : Nat → Key → Bool) : D := ⟨Bucket.init, none, fields⟩

/-- bucket.py:63-71, the numbers that are handles -/
def ofNat (n : Nat) : Key := .index n

/-- dataset.py:168-174, tree.py:267-268 -/
def resolve (e : Env) (c : Nat) : Nat := (e.target c).getD c

/-- dataset.py:215-219, 430-433: `add` of a child with this name, or `ds[name] = child` -/
def D.add (d : D) (name : String) (c : Nat) (setActive : Bool) : Except Err D :=
  match Bucket.setItem id ofNat d.kids [some (.name name)] c with
  | .error _ => .error .key
  | .ok s => .ok { d with kids := s, active := if setActive then some c else d.active }

/-- bucket.py:195-196 for any argument: objects are no handles -/
def D.raw (d : D) : Arg → Except Err Nat
  | .key k => match Bucket.getItem d.kids k with
    | .ok c => .ok c
    | .error _ => .error .key
  | .obj _ => .error .key

/-- dataset.py:403-405 `get_child` -/
def D.getChild (e : Env) (d : D) (a : Arg) : Except Err Nat := (d.raw a).map (resolve e)

/-- dataset.py:243-246 -/
def D.activate (d : D) (a : Arg) : Except Err D := (d.raw a).map fun c => { d with active := some c }

/-- bucket.py:214-226 `item in self.children` -/
def D.inKids (d : D) : Arg → Bool
  | .key k => (d.kids.items.get? k).isSome
  | .obj c => (d.kids.handles.get? c).isSome

/-- grid.py:306-307; objects that are fields are not modelled -/
def gridHas (d : D) (c : Nat) : Arg → Bool
  | .key k => d.fields c k
  | .obj _ => false

/-- dataset.py:435-442 `item in ds`: None and deferred children are not iterable -/
def D.contains (e : Env) (d : D) (a : Arg) : Except Err Bool :=
  if d.inKids a then .ok true
  else
    match d.active with
    | none => .error .type
    | some c => if (e.target c).isSome then .error .type else .ok (gridHas d c a)

/-- what `ds[item]` gives -/
inductive Got
  | child (c : Nat)
  | field (c : Nat) (s : String)
deriving DecidableEq

/-- grid.py:312-323: numbers and objects are not strings, `"_get_" + item` and `"_process_" + item` are TypeErrors -/
def gridGet (e : Env) (d : D) (c : Nat) : Arg → Except Err Got
  | .key (.name s) => if d.fields c (.name s) || e.derived c s || e.crd c s then .ok (.field c s) else .error .key
  | .key (.index _) => .error .type
  | .obj _ => .error .type

/-- dataset.py:407-415 `ds[item]` -/
def D.get (e : Env) (d : D) (a : Arg) : Except Err Got :=
  if d.inKids a then (d.getChild e a).map .child
  else
    match d.active with
    | none => .error .key
    | some c => if (e.target c).isSome then .error .type else gridGet e d c a

/-- dataset.py:387-395, grid.py:271-301 `get_field`: None without an active child -/
def D.getField (e : Env) (d : D) (k : Key) : Except Err (Option Got) :=
  match d.active with
  | none => .ok none
  | some c => if (e.target c).isSome then .error .attribute else match k with
    | .name s => if d.fields c (.name s) || e.derived c s then .ok (some (.field c s)) else .error .key
    | .index _ => .error .type

/-- dataset.py:421-425 `del ds[item]` -/
def D.del (e : Env) (d : D) (a : Arg) : Except Err D :=
  match d.getChild e a with
  | .error x => .error x
  | .ok c => match Bucket.removeItem id d.kids c with
    | .error _ => .error .key
    | .ok s => .ok { d with kids := s }

/-- dataset.py:237-241 `remove_all_items`, grid.py:115-118; deferred children keep nothing (179-180) -/
def D.removeAll (d : D) : D :=
  { d with kids := Bucket.init, fields := fun c k => if (d.kids.hashLookup.get? c).isSome then false else d.fields c k }

/-- dataset.py:427-428 -/
def D.len (d : D) : Nat := Bucket.len d.kids

/-- dataset.py:421-425 for a temporal dataset, where `self.children` is a list: it has no `remove_item` -/
def temporalDel {F : Type} (cs : List (Dataset.Time × Nested.Node F)) (i : Dataset.Item) : Except Dataset.Err Unit :=
  match Nested.childAt cs i with
  | .error x => .error x
  | .ok _ => .error .attributeError

/-- what is done with a dataset -/
inductive Op
  | add (name : String) (c : Nat) (setActive : Bool)
  | activate (a : Arg)
  | del (a : Arg)
  | removeAll

def D.op (e : Env) (d : D) : Op → Except Err D
  | .add n c s => d.add n c s
  | .activate a => d.activate a
  | .del a => d.del e a
  | .removeAll => .ok d.removeAll

/-- exceptions are caught; what raises has changed nothing -/
def D.step (e : Env) (d : D) (o : Op) : D :=
  match d.op e o with
  | .ok d' => d'
  | .error _ => d

def run (e : Env) (d : D) (ops : List Op) : D := ops.foldl (D.step e) d

end Viscid.DsetEdit
