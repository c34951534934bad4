import Verif.Model.Bucket
/-!
# Model of the lists of handles that are given to buckets (`viscid/bucket.py`)

The bucket is that of Bucket. Here the list of handles that the caller has is followed as well: `handles += [...]` changes it in place.
-/
namespace Viscid.BucketLists
open Viscid.Bucket

variable {H I K : Type} [DecidableEq H] [DecidableEq I] [DecidableEq K]

/-- bucket.py:71-128 `set_item` with a list of the caller: what it gives, and the list afterwards (82-86) -/
def setItemList (key : I → K) (ofNat : Nat → H) (s : State H I K) (l : List (Option H)) (item : I) (indexHandle : Bool := true) :
    Except Err (State H I K) × List (Option H) :=
  (setItem key ofNat s l item indexHandle, if (s.hashLookup.get? (key item)).isNone && indexHandle then l ++ [some (ofNat s.counter)] else l)

/-- bucket.py:198-203 `__setitem__` with a list of the caller, which is copied: what it gives, and the list afterwards -/
def setitem (key : I → K) (ofNat : Nat → H) (s : State H I K) (l : List (Option H)) (item : I) : Except Err (State H I K) × List (Option H) :=
  ((setItemList key ofNat s l item).1, l)

end Viscid.BucketLists
