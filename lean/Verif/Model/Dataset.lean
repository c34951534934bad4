import Verif.Model.Select
/-!
# Model of `viscid/dataset.py` class DatasetTemporal

`C` is the type of child objects (grids, datasets, deferred children) up to identity; what a child
answers to `item in child` and `child[item]` is a parameter.  Times are numbers: a rational value and
whether Python holds it as an `int` (numpy makes an integer array only when all of them are).
datetime-like times, selections by lists or arrays, and the `prepare_child` / `tear_down_child` parent
bookkeeping (C11, C12) are not modelled here.  `resolve()` is the identity for non-deferred children
and the callback's result for deferred ones, so only the identity of the child is kept.
-/
namespace Viscid.Dataset
open Viscid.FwdSlice (Slc)

inductive Err where
  | runtimeError | indexError | typeError | keyError | attributeError | notImplemented | valueError
  deriving DecidableEq, Repr

structure Time where
  v : ℚ
  isInt : Bool
  deriving DecidableEq, Repr

/-- dataset.py:470 `children` (list of `(time, child)`) and dataset.py:203 `active_child`. -/
structure State (C : Type) where
  children : List (Time × C)
  active : Option C

/-- dataset.py:465-471 an empty DatasetTemporal. -/
def empty {C : Type} : State C := ⟨[], none⟩

/-- One step of a stable sort by the first component. -/
def ins {C : Type} (x : Time × C) : List (Time × C) → List (Time × C)
  | [] => [x]
  | y :: ys => if x.1.v ≤ y.1.v then x :: y :: ys else y :: ins x ys

/-- Python's `list.sort(key=itemgetter(0))`: CPython's sort is stable; any stable sort gives the same
list, this one is insertion sort. -/
def pySort {C : Type} : List (Time × C) → List (Time × C)
  | [] => []
  | x :: xs => ins x (pySort xs)

/-- dataset.py:473-488 `add`; a missing child raises, a missing time becomes 0.0. -/
def add {C : Type} (s : State C) (time : Option Time) (child : Option C) (setActive : Bool) :
    Except Err (State C) :=
  match child with
  | none => .error .runtimeError
  | some c =>
    let t := time.getD ⟨0, false⟩
    .ok ⟨pySort (s.children ++ [(t, c)]), if setActive then some c else s.active⟩

/-- dataset.py:497-501 `remove_all_items`; `active_child` is left as it was. -/
def removeAll {C : Type} (s : State C) : State C := { s with children := [] }

/-- What is passed to `get_child`, `in` and `[]`. -/
inductive Item where
  | int (i : Int)             -- a Python int
  | float (v : ℚ)             -- a float (or imaginary number): by time
  | timeStr (v : ℚ)           -- a string such as "3.5f"
  | idxStr (i : Int)          -- a string such as "3"
  | name (s : String)         -- any other string
  | slice (s : Slc)           -- a slice of ints
  deriving DecidableEq, Repr

/-- Python list indexing `l[i]`. -/
def pyGet {α : Type} (l : List α) (i : Int) : Except Err α :=
  let j := if i < 0 then i + l.length else i
  if j < 0 then .error .indexError
  else match l[j.toNat]? with
    | some x => .ok x
    | none => .error .indexError

/-- dataset.py:514-538 `_slice_time` for a single time value (sliceutil.py:584-597, and 625-650 for the
type of the axis): `crd_arr[0]` raises IndexError without children; integer times cannot be
selected by value. -/
def sliceTime {C : Type} (s : State C) (v : ℚ) : Except Err Nat :=
  match s.children with
  | [] => .error .indexError
  | _ :: _ =>
    if s.children.all (fun c => c.1.isInt) then .error .notImplemented
    else match Select.selValue (s.children.map fun c => c.1.v) v with
      | .ok i => .ok i
      | .error _ => .error .indexError

/-- The children a slice of ints picks out (Python's `list[start:stop:step]`), dataset.py:540-554
`_time_slice_to_iterator` as well; step 0 is a ValueError, handled by the caller. -/
def pickSlice {C : Type} (s : State C) (sl : Slc) : List (Time × C) :=
  let L : Int := s.children.length
  let step := sl.step.getD 1
  let lo : Int := if step > 0 then 0 else -1
  let hi : Int := if step > 0 then L else L - 1
  let cl : Int → Int := fun v => if v < 0 then max (v + L) lo else min v hi
  let a := match sl.start with | some v => cl v | none => if step > 0 then 0 else L - 1
  let b := match sl.stop with | some v => cl v | none => if step > 0 then L else -1
  let n := if step > 0 then (if a < b then ((b - a - 1) / step + 1).toNat else 0)
    else (if b < a then ((a - b - 1) / (-step) + 1).toNat else 0)
  ((List.range n).map fun k : Nat => (a + (k : Int) * step).toNat).filterMap fun i => s.children[i]?

/-- dataset.py:721-728 `get_child`: `self.children[self._slice_time(item)][1].resolve()`.  For a
slice, `list[slice][1]` is a (time, child) tuple, which has no `resolve`. -/
def getChild {C : Type} (s : State C) : Item → Except Err C
  | .int i | .idxStr i =>
    match pyGet s.children i with
    | .ok c => .ok c.2
    | .error e => .error e
  | .float v | .timeStr v =>
    match sliceTime s v with
    | .error e => .error e
    | .ok i => match s.children[i]? with
      | some c => .ok c.2
      | none => .error .indexError
  | .name _ => .error .valueError
  | .slice sl =>
    if sl.step = some 0 then .error .valueError
    else if (pickSlice s sl).length < 2 then .error .indexError else .error .attributeError

/-- dataset.py:730-742 `__contains__`; `has c item` is `item in c` for the active child. -/
def contains {C : Type} (has : C → Item → Except Err Bool) (s : State C) (item : Item) : Except Err Bool :=
  let inActive : Except Err Bool := match s.active with
    | none => .error .typeError
    | some c => has c item
  match item with
  | .int i => if i > 0 ∧ i < s.children.length then .ok true else inActive
  | .timeStr v =>
    match s.children.head?, s.children.getLast? with
    | some a, some b => if v ≥ a.1.v ∧ v ≤ b.1.v then .ok true else .ok false
    | _, _ => .error .indexError
  | _ => inActive

/-- dataset.py:407-415 `__getitem__` (inherited from Dataset): `item in self.children` compares the
item with the `(time, child)` tuples of the list, which is False for every `Item`. -/
def getItem {C F : Type} (look : C → Item → Except Err F) (s : State C) (item : Item) : Except Err (C ⊕ F) :=
  match s.active with
  | none => .error .keyError
  | some c => match look c item with
    | .ok f => .ok (.inr f)
    | .error e => .error e

/-- dataset.py:744-745 `iter_resolved_children` (and dataset.py:447 `__iter__`). -/
def iter {C : Type} (s : State C) : List C := s.children.map Prod.snd

/-- dataset.py:562-580 `iter_times` / 582-586 `get_times` with a slice of ints; the context manager
around each child is not modelled. -/
def getTimes {C : Type} (s : State C) (sl : Slc) : Except Err (List C) :=
  if sl.step = some 0 then .error .valueError else .ok ((pickSlice s sl).map Prod.snd)

/-- The calls that change a temporal dataset. -/
inductive Op (C : Type) where
  | add (time : Option Time) (child : Option C) (setActive : Bool)
  | removeAll
  | activate (item : Item)

/-- One call; an exception leaves the dataset as it was (`add` raises before any change,
`activate`, dataset.py:508-509, when get_child raises). -/
def step {C : Type} (s : State C) : Op C → State C
  | .add t c a => match add s t c a with | .ok s' => s' | .error _ => s
  | .removeAll => removeAll s
  | .activate i => match getChild s i with | .ok c => { s with active := some c } | .error _ => s

def exec {C : Type} (ops : List (Op C)) : State C := ops.foldl step empty

end Viscid.Dataset
