import Verif.Model.Dict
import Verif.Model.Basic
/-!
# Model of `viscid/bucket.py` class Bucket

`H` handles, `I` item objects (identity), `K` what `_make_hashable` yields up to `==`;
`key : I → K` so that `a is b` implies equal keys but not conversely.  `ofNat` embeds the integer
counter into handles.  Unhashable handles are `none : Option H`.
NaN-like objects (`x != x`) are not modelled.  Logging is dropped.
-/
namespace Viscid.Bucket

inductive Err where
  | keyError | typeError | valueError
  deriving DecidableEq, Repr

/-- viscid/bucket.py:25-33, the five instance attributes. -/
structure State (H I K : Type) where
  refCount : Dict K Int
  hashLookup : Dict K I
  handles : Dict K (List H)
  items : Dict H I
  counter : Nat

variable {H I K : Type} [DecidableEq H] [DecidableEq I] [DecidableEq K]

/-- viscid/bucket.py:35-51 `__init__` / `_set_empty_dicts`. -/
def init : State H I K := ⟨[], [], [], [], 0⟩

/-- viscid/bucket.py:130-141 `_remove_item`. -/
def removeItem (key : I → K) (s : State H I K) (item : I) : Except Err (State H I K) :=
  match s.handles.get? (key item) with
  | none => .error .keyError
  | some hs =>
    .ok { s with
      items := hs.foldl (fun d h => d.del h) s.items
      hashLookup := s.hashLookup.del (key item)
      handles := s.handles.del (key item)
      refCount := s.refCount.del (key item) }

/-- viscid/bucket.py:89-112, one iteration of the handle loop of `set_item`.
State and `handles_added` so far. -/
def setHandle (key : I → K) (item : I) (st : State H I K × List H) (h : Option H) :
    Except Err (State H I K × List H) :=
  match h with
  | none => .ok st                                        -- 91-96 unhashable: skip
  | some h =>
    match st.1.items.get? h with
    | none => .ok ({ st.1 with items := st.1.items.set h item }, st.2 ++ [h])
    | some old =>
      if item = old then .ok st                           -- 98-99 same object
      else                                                -- 100-110 hijack
        match st.1.handles.get? (key old) with
        | none => .error .keyError
        | some hs =>
          if h ∈ hs then
            let hs' := hs.erase h
            let s1 := { st.1 with handles := st.1.handles.set (key old) hs' }
            if hs' = [] then
              match removeItem key s1 old with
              | .error e => .error e
              | .ok s2 => .ok ({ s2 with items := s2.items.set h item }, st.2 ++ [h])
            else .ok ({ s1 with items := s1.items.set h item }, st.2 ++ [h])
          else .error .valueError                         -- list.remove(x): x not in list

/-- viscid/bucket.py:89-112, the loop. -/
def setHandles (key : I → K) (item : I) : List (Option H) → State H I K × List H →
    Except Err (State H I K × List H)
  | [], st => .ok st
  | h :: hs, st =>
    match setHandle key item st h with
    | .error e => .error e
    | .ok st' => setHandles key item hs st'

/-- viscid/bucket.py:71-128 `set_item` (with `handles` already a list or None = []). -/
def setItem (key : I → K) (ofNat : Nat → H) (s : State H I K) (handles : List (Option H)) (item : I)
    (indexHandle : Bool := true) (addRef : Bool := false) : Except Err (State H I K) :=
  -- 82-86
  let isNew := (s.hashLookup.get? (key item)).isNone
  let handles := if isNew && indexHandle then handles ++ [some (ofNat s.counter)] else handles
  let s := if isNew && indexHandle then { s with counter := s.counter + 1 } else s
  match setHandles key item handles (s, []) with
  | .error e => .error e
  | .ok (s, added) =>
    -- 114-126
    match s.handles.get? (key item) with
    | some hs =>
      let s := { s with handles := s.handles.set (key item) (hs ++ added) }
      if addRef then
        match s.refCount.get? (key item) with
        | some c => .ok { s with refCount := s.refCount.set (key item) (c + 1) }
        | none =>  -- KeyError caught by the same `except`: 118-126
          if added = [] then .ok s
          else .ok { s with handles := s.handles.set (key item) added,
                            hashLookup := s.hashLookup.set (key item) item,
                            refCount := s.refCount.set (key item) 1 }
      else .ok s
    | none =>
      if added = [] then .ok s
      else .ok { s with handles := s.handles.set (key item) added,
                        hashLookup := s.hashLookup.set (key item) item,
                        refCount := s.refCount.set (key item) 1 }

/-- viscid/bucket.py:195-196 `__getitem__`. -/
def getItem (s : State H I K) (h : H) : Except Err I :=
  match s.items.get? h with
  | some i => .ok i
  | none => .error .keyError

/-- viscid/bucket.py:149-151 `remove_item_by_handle`; `none` is an unhashable handle. -/
def removeByHandle (key : I → K) (s : State H I K) (h : Option H) : Except Err (State H I K) :=
  match h with
  | none => .error .typeError
  | some h =>
    match s.items.get? h with
    | none => .error .keyError
    | some i => removeItem key s i

/-- viscid/bucket.py:205-210 `__delitem__`: the argument read as a handle, then as an item. -/
def delItem (key : I → K) (s : State H I K) (h : Option H) (i : I) : Except Err (State H I K) :=
  match removeByHandle key s h with
  | .ok s' => .ok s'
  | .error .keyError => removeItem key s i
  | .error .typeError => removeItem key s i
  | .error e => .error e

/-- viscid/bucket.py:153-169 `remove_reference`: the argument read as an item, then as a handle.
The decrement happens before a possible failure of the final `_remove_item`. -/
def removeReference (key : I → K) (s : State H I K) (i : I) (h : Option H) (n : Int) :
    Except Err (State H I K) :=
  match s.refCount.get? (key i) with
  | some c =>
    let s := { s with refCount := s.refCount.set (key i) (c - n) }
    if c - n ≤ 0 then removeItem key s i else .ok s
  | none =>
    match h with
    | none => .error .typeError
    | some h =>
      match s.items.get? h with
      | none => .error .keyError
      | some i' =>
        if n ≠ 0 then
          match s.refCount.get? (key i') with
          | none => .error .keyError
          | some c =>
            let s := { s with refCount := s.refCount.set (key i') (c - n) }
            if c - n ≤ 0 then removeItem key s i' else .ok s
        else
          let s := { s with refCount := s.refCount.set (key i') 0 }
          removeItem key s i'

/-- viscid/bucket.py:171-173 `remove_all_items` (the counter is not reset). -/
def removeAll (s : State H I K) : State H I K := { init with counter := s.counter }

/-- viscid/bucket.py:228-229 `__len__`. -/
def len (s : State H I K) : Nat := s.hashLookup.length

/-- The mutating calls of the public API. -/
inductive Op (H I : Type) where
  | set (handles : List (Option H)) (item : I) (indexHandle addRef : Bool)
  | setNonList                                  -- 77-78 TypeError, before any change
  | del (h : Option H) (i : I)
  | removeByHandle (h : Option H)
  | removeItem (i : I)
  | removeReference (i : I) (h : Option H) (n : Int)
  | removeAll

/-- One call; a raised exception leaves `s` (checked below: no modelled exception is raised after
a change, on reachable states). -/
def run (key : I → K) (ofNat : Nat → H) (s : State H I K) : Op H I → Except Err (State H I K)
  | .set hs i ih ar => setItem key ofNat s hs i ih ar
  | .setNonList => .error .typeError
  | .del h i => delItem key s h i
  | .removeByHandle h => removeByHandle key s h
  | .removeItem i => removeItem key s i
  | .removeReference i h n => removeReference key s i h n
  | .removeAll => .ok (removeAll s)

/-- State after a call, the exception (if any) being caught by the caller. -/
def step (key : I → K) (ofNat : Nat → H) (s : State H I K) (op : Op H I) : State H I K :=
  match run key ofNat s op with
  | .ok s' => s'
  | .error _ => s

/-- State after a history of calls. -/
def exec (key : I → K) (ofNat : Nat → H) (ops : List (Op H I)) : State H I K :=
  ops.foldl (step key ofNat) init

end Viscid.Bucket
