import Verif.Model.Dataset
/-!
# Model of trees of datasets: `viscid/dataset.py` classes Dataset, DatasetTemporal and DeferredChild, with `viscid/grid.py` class Grid at the leaves

A static dataset keeps its children in a Bucket: for each child the handles it has there (names and numbers; which ones is the model of C01). Its active child is
one of them, given by its place; children that are deleted are not modelled here. A temporal dataset keeps pairs of times and children; its active child can be
an object that is not in the list (what a deferred child resolved to). A deferred child is what its callback returns; callbacks are without other effects.
Fields of grids that are computed (`_get_…`, equations, `_process_…`), coordinates and slices of fields are not modelled here, and neither are caches.
-/
namespace Viscid.Nested
open Viscid.Dataset (Err Time Item)
open Viscid.FwdSlice (Slc)

/-- handles of a Bucket (bucket.py:66-80) -/
inductive Key
  | name (s : String)
  | index (i : Int)
deriving DecidableEq, Repr

inductive Node (F : Type)
  /-- grid.py:40-70; `id` tells grids apart -/
  | grid (id : Nat) (fields : List (List Key × F))
  /-- dataset.py:156-166 -/
  | deferred (target : Node F)
  /-- dataset.py:186-214 -/
  | dset (children : List (List Key × Node F)) (active : Option Nat)
  /-- dataset.py:458-471 -/
  | temporal (children : List (Time × Node F)) (active : Option (Node F))

/-- dataset.py:168-174 (the callback is called once) and tree.py:267-268 -/
def resolve : Node F → Node F
  | .deferred t => t
  | n => n

/-- bucket.py:195-196 `__getitem__` -/
def bucketGet (items : List (List Key × α)) (k : Key) : Option α := (items.find? fun c => k ∈ c.1).map Prod.snd

/-- the child a temporal dataset gives for an item, before `resolve`: dataset.py:720-728 -/
def childAt (cs : List (Time × Node F)) (i : Item) : Except Err (Node F) := Dataset.getChild ⟨cs, none⟩ i

theorem pyGet_mem {l : List α} {i : Int} {x : α} (h : Dataset.pyGet l i = .ok x) : x ∈ l := by
  unfold Dataset.pyGet at h
  revert h
  generalize (if i < 0 then i + (l.length : Int) else i) = j
  intro h
  simp only at h
  split at h
  · cases h
  · revert h
    cases h2 : l[j.toNat]? with
    | none => intro h; cases h
    | some y => intro h; cases h; exact List.mem_of_getElem? h2

theorem childAt_mem {cs : List (Time × Node F)} {i : Item} {c : Node F} (h : childAt cs i = .ok c) : ∃ t, (t, c) ∈ cs := by
  unfold childAt Dataset.getChild at h
  cases i with
  | int i =>
    simp only at h
    cases h2 : Dataset.pyGet cs i with
    | error e => rw [h2] at h; cases h
    | ok y => rw [h2] at h; cases h; exact ⟨y.1, pyGet_mem h2⟩
  | idxStr i =>
    simp only at h
    cases h2 : Dataset.pyGet cs i with
    | error e => rw [h2] at h; cases h
    | ok y => rw [h2] at h; cases h; exact ⟨y.1, pyGet_mem h2⟩
  | float v =>
    simp only at h
    cases h2 : Dataset.sliceTime ⟨cs, none⟩ v with
    | error e => rw [h2] at h; cases h
    | ok j =>
      rw [h2] at h; simp only at h
      cases h3 : cs[j]? with
      | none => rw [h3] at h; cases h
      | some y => rw [h3] at h; cases h; exact ⟨y.1, List.mem_of_getElem? h3⟩
  | timeStr v =>
    simp only at h
    cases h2 : Dataset.sliceTime ⟨cs, none⟩ v with
    | error e => rw [h2] at h; cases h
    | ok j =>
      rw [h2] at h; simp only at h
      cases h3 : cs[j]? with
      | none => rw [h3] at h; cases h
      | some y => rw [h3] at h; cases h; exact ⟨y.1, List.mem_of_getElem? h3⟩
  | name s => cases h
  | slice sl =>
    simp only at h
    split at h
    · cases h
    · split at h <;> cases h

theorem resolve_size (n : Node F) : sizeOf (resolve n) ≤ sizeOf n := by
  cases n <;> simp [resolve]

theorem dset_size {cs : List (List Key × Node F)} {a : Option Nat} {i : Nat} {c : List Key × Node F} (h : cs[i]? = some c) :
    sizeOf c.2 < sizeOf (Node.dset cs a) := by
  have := List.sizeOf_lt_of_mem (List.mem_of_getElem? h)
  obtain ⟨k, c⟩ := c
  simp only [Prod.mk.sizeOf_spec, Node.dset.sizeOf_spec] at *
  omega

theorem temporal_size {cs : List (Time × Node F)} {a : Option (Node F)} {t : Time} {c : Node F} (h : (t, c) ∈ cs) :
    sizeOf c < sizeOf (Node.temporal cs a) := by
  have := List.sizeOf_lt_of_mem h
  simp only [Prod.mk.sizeOf_spec, Node.temporal.sizeOf_spec] at *
  omega

/-- `get_field` of a grid, grid.py:271-301: numbers are handles in `self._fields`, but `"_get_" + 3` and `"_process_" + 3` are TypeErrors -/
def gridField (fields : List (List Key × F)) (k : Key) : Except Err F :=
  match k with
  | .name s => match bucketGet fields (.name s) with
    | some f => .ok f
    | none => .error .keyError
  | .index _ => .error .typeError

/-- `get_field(name, time)`: dataset.py:387-395, 694-705, grid.py:271-301. Without an active child it is None; a deferred child has no `get_field`.
    The active child is asked as it is, the child at a time is resolved. -/
def getField (n : Node F) (k : Key) (time : Option Item) : Except Err (Option F) :=
  match n, time with
  | .grid _ fs, _ => (gridField fs k).map some
  | .deferred _, _ => .error .attributeError
  | .dset cs a, time =>
    match a with
    | none => .ok none
    | some i =>
      match _h : cs[i]? with
      | none => .ok none
      | some c => getField c.2 k time
  | .temporal _ none, none => .ok none
  | .temporal _ (some a), none => getField a k none
  | .temporal cs _, some i =>
    match _h : childAt cs i with
    | .error e => .error e
    | .ok c => getField (resolve c) k (some i)
termination_by sizeOf n
decreasing_by
  · exact dset_size _h
  · simp; omega
  · obtain ⟨t, ht⟩ := childAt_mem _h
    exact Nat.lt_of_le_of_lt (resolve_size c) (temporal_size ht)

/-- `get_grid(time)`: dataset.py:397-405, 707-718, grid.py:303-304. Without an active child it is an AttributeError; the active child is resolved. -/
def getGrid (n : Node F) (time : Option Item) : Except Err (Node F) :=
  match n, time with
  | .grid id fs, _ => .ok (.grid id fs)
  | .deferred _, _ => .error .attributeError
  | .dset cs a, time =>
    match a with
    | none => .error .attributeError
    | some i =>
      match _h : cs[i]? with
      | none => .error .attributeError
      | some c => getGrid (resolve c.2) time
  | .temporal _ none, none => .error .attributeError
  | .temporal _ (some a), none => getGrid (resolve a) none
  | .temporal cs _, some i =>
    match _h : childAt cs i with
    | .error e => .error e
    | .ok c => getGrid (resolve c) (some i)
termination_by sizeOf n
decreasing_by
  · exact Nat.lt_of_le_of_lt (resolve_size _) (dset_size _h)
  · exact Nat.lt_of_le_of_lt (resolve_size _) (by simp; omega)
  · obtain ⟨t, ht⟩ := childAt_mem _h
    exact Nat.lt_of_le_of_lt (resolve_size c) (temporal_size ht)

/-- the first handle of each field, with the field (bucket.py:178-180, grid.py:182-195) -/
def fieldItems (fields : List (List Key × F)) : List (Option Key × F) := fields.map fun c => (c.1.head?, c.2)

/-- `iter_field_items(time)` with all names: dataset.py:345-354, 654-666, grid.py:182-195 -/
def iterItems (n : Node F) (time : Option Item) : Except Err (Option (List (Option Key × F))) :=
  match n, time with
  | .grid _ fs, _ => .ok (some (fieldItems fs))
  | .deferred _, _ => .error .attributeError
  | .dset cs a, time =>
    match a with
    | none => .ok none
    | some i =>
      match _h : cs[i]? with
      | none => .ok none
      | some c => iterItems c.2 time
  | .temporal _ none, none => .ok none
  | .temporal _ (some a), none => iterItems a none
  | .temporal cs _, some i =>
    match _h : childAt cs i with
    | .error e => .error e
    | .ok c => iterItems (resolve c) (some i)
termination_by sizeOf n
decreasing_by
  · exact dset_size _h
  · simp; omega
  · obtain ⟨t, ht⟩ := childAt_mem _h
    exact Nat.lt_of_le_of_lt (resolve_size c) (temporal_size ht)

/-- `field_dict(time)`: dataset.py:356-364, 668-679 (which does not hand the time on), grid.py:197-199 -/
def fieldDict (n : Node F) (time : Option Item) : Except Err (Option (List (Option Key × F))) :=
  match n, time with
  | .grid _ fs, _ => .ok (some (fieldItems fs))
  | .deferred _, _ => .error .attributeError
  | .dset cs a, time =>
    match a with
    | none => .ok none
    | some i =>
      match _h : cs[i]? with
      | none => .ok none
      | some c => fieldDict c.2 time
  | .temporal _ none, none => .ok none
  | .temporal _ (some a), none => fieldDict a none
  | .temporal cs _, some i =>
    match _h : childAt cs i with
    | .error e => .error e
    | .ok c => fieldDict (resolve c) none
termination_by sizeOf n
decreasing_by
  · exact dset_size _h
  · simp; omega
  · obtain ⟨t, ht⟩ := childAt_mem _h
    exact Nat.lt_of_le_of_lt (resolve_size c) (temporal_size ht)

/-- `ds[item]`: dataset.py:407-419, grid.py:312-323 (without coordinates). A temporal dataset finds no item in its list of pairs; a deferred child can not be
    indexed. -/
def getItem (n : Node F) (k : Key) : Except Err (Node F ⊕ F) :=
  match n with
  | .grid _ fs => (gridField fs k).map .inr
  | .deferred _ => .error .typeError
  | .dset cs a =>
    match bucketGet cs k with
    | some c => .ok (.inl (resolve c))
    | none =>
      match a with
      | none => .error .keyError
      | some i =>
        match _h : cs[i]? with
        | none => .error .keyError
        | some c => getItem c.2 k
  | .temporal _ none => .error .keyError
  | .temporal _ (some a) => getItem a k
termination_by sizeOf n
decreasing_by
  · exact dset_size _h
  · simp; omega

/-- `activate(handle)` of a static dataset: dataset.py:243-246 -/
def activate (cs : List (List Key × Node F)) (a : Option Nat) (k : Key) : Node F × Option Err :=
  match cs.findIdx? fun c => k ∈ c.1 with
  | some i => (.dset cs (some i), none)
  | none => (.dset cs a, some .keyError)

mutual
/-- `activate_time(time)`: dataset.py:248-255, 508-514. All children of a static dataset are asked, one after the other; an AttributeError is ignored, any other
    exception ends it. -/
def activateTime : Node F → Item → Node F × Option Err
  | .grid id fs, _ => (.grid id fs, some .attributeError)
  | .deferred t, _ => (.deferred t, some .attributeError)
  | .dset cs a, i =>
    let r := activateAll cs i
    (.dset r.1 a, r.2)
  | .temporal cs a, i =>
    match childAt cs i with
    | .error e => (.temporal cs a, some e)
    | .ok c => (.temporal cs (some (resolve c)), none)
/-- the loop of dataset.py:251-255 -/
def activateAll : List (List Key × Node F) → Item → List (List Key × Node F) × Option Err
  | [], _ => ([], none)
  | c :: cs, i =>
    match activateTime c.2 i with
    | (n, e) =>
      if e = none ∨ e = some .attributeError then
        let r := activateAll cs i
        ((c.1, n) :: r.1, r.2)
      else ((c.1, n) :: cs, e)
end

mutual
/-- `nr_times(sel)`: dataset.py:257-265, 556-561, grid.py:125-126; the children are not resolved -/
def nrTimes : Node F → Slc → Except Err Nat
  | .grid _ _, _ => .ok 1
  | .deferred _, _ => .error .attributeError
  | .dset cs _, sl => nrFirst cs sl
  | .temporal cs _, sl => (Dataset.getTimes ⟨cs, none⟩ sl).map List.length
/-- the loop of dataset.py:259-265 -/
def nrFirst : List (List Key × Node F) → Slc → Except Err Nat
  | [], _ => .error .runtimeError
  | c :: cs, sl =>
    match nrTimes c.2 sl with
    | .error .attributeError => nrFirst cs sl
    | r => r
end

/-- an iterator: what it yields, and the exception it ends with, if it does -/
structure Iter (F : Type) where
  items : List (Node F)
  exc : Option Err

/-- one more item in front -/
def Iter.cons (n : Node F) (r : Iter F) : Iter F := ⟨n :: r.items, r.exc⟩

/-- `list(iterator)` -/
def Iter.toList (r : Iter F) : Except Err (List (Node F)) :=
  match r.exc with
  | some e => .error e
  | none => .ok r.items

/-- `with what as target: yield target` when `what` is a child that is not resolved: a deferred child has no `__enter__` (AttributeError; TypeError since
    Python 3.11), dataset.py:577-580 -/
def enter : List (Node F) → Iter F
  | [] => ⟨[], none⟩
  | .deferred _ :: _ => ⟨[], some .attributeError⟩
  | n :: ns => (enter ns).cons n

/-- `child[1].resolve().get_grid()` for each, dataset.py:574-575 -/
def grids : List (Node F) → Iter F
  | [] => ⟨[], none⟩
  | n :: ns =>
    match getGrid (resolve n) none with
    | .error e => ⟨[], some e⟩
    | .ok g => (grids ns).cons g

mutual
/-- `iter_times(sel, resolved)`: dataset.py:267-276, 563-580, grid.py:128-133. Exceptions of the iterator come when it is used, and are not caught by the loop
    of a static dataset (an exception of that loop comes at once: here it is one of the iterator as well). `none`: there is no attribute `iter_times`. -/
def iterTimes (n : Node F) (sl : Slc) (resolved : Bool) : Option (Iter F) :=
  match n with
  | .grid id fs => some ⟨[.grid id fs], none⟩
  | .deferred _ => none
  | .dset cs _ => some (iterFirst cs sl resolved)
  | .temporal cs _ =>
    some (match Dataset.getTimes ⟨cs, none⟩ sl with
      | .error e => ⟨[], some e⟩
      | .ok l => if resolved then grids l else enter l)
termination_by sizeOf n
decreasing_by simp; omega
/-- the loop of dataset.py:269-276: the iterator of the first child that has `iter_times` after `resolve` -/
def iterFirst (cs : List (List Key × Node F)) (sl : Slc) (resolved : Bool) : Iter F :=
  match cs with
  | [] => ⟨[], some .runtimeError⟩
  | c :: l =>
    match iterTimes (resolve c.2) sl resolved with
    | none => iterFirst l sl resolved
    | some r => r
termination_by sizeOf cs
decreasing_by
  · have := resolve_size c.2
    obtain ⟨k, c⟩ := c
    simp at *; omega
  · simp; omega
end

/-- `get_times(sel)`: dataset.py:294-298, 582-586, grid.py:135-136 -/
def getTimes (n : Node F) (sl : Slc) : Except Err (List (Node F)) :=
  match iterTimes n sl false with
  | none => .error .attributeError
  | some r => r.toList

/-- `get_time(sel)`: dataset.py:300-306 (the next of `iter_times`, which is resolved), 588-591 and grid.py:138-139 (the first of `get_times`) -/
def getTime (n : Node F) (sl : Slc) : Except Err (Node F) :=
  match n with
  | .deferred _ => .error .attributeError
  | .dset cs _ =>
    match iterFirst cs sl true with
    | ⟨x :: _, _⟩ => .ok x
    | ⟨[], some e⟩ => .error e
    | ⟨[], none⟩ => .error .runtimeError
  | n =>
    match getTimes n sl with
    | .error e => .error e
    | .ok [] => .error .indexError
    | .ok (x :: _) => .ok x
end Viscid.Nested
