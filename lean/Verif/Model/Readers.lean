import Verif.Model.Basic
/-!
# Model of `viscid/readers/vfile.py`: serialize_subclasses and VFile.detect_type

`kls.__subclasses__()` is a tree: a class with several bases occurs once below each of them.
Whether a class accepts a file name (vfile.py:250-253: `_detector` truthy, `re.match` and
`_detector_func`), its `_priority` and whether its name contains the preferred string (vfile.py:265,
case-insensitively) are parameters; a `_detector_func` that raises is not modelled.
-/
namespace Viscid.Readers

/-- A reader class and its direct subclasses in creation order. -/
inductive Cls (N : Type) where
  | node (name : N) (subs : List (Cls N))

mutual
/-- vfile.py:21-29 `serialize_subclasses`: the subclasses, then the class itself. -/
def serialize {N : Type} : Cls N → List N
  | .node n subs => serializeRev subs ++ [n]
/-- vfile.py:25-26: the loop over `reversed(root.__subclasses__())`. -/
def serializeRev {N : Type} : List (Cls N) → List N
  | [] => []
  | c :: cs => serializeRev cs ++ serialize c
end

/-- One step of a stable descending sort. -/
def insDesc {N : Type} (prio : N → Int) (x : N) : List N → List N
  | [] => [x]
  | y :: ys => if prio y ≤ prio x then x :: y :: ys else y :: insDesc prio x ys

/-- vfile.py:257 `sort(key=attrgetter('_priority'), reverse=True)`: stable (Python keeps the order of
equal elements also with reverse=True). -/
def sortDesc {N : Type} (prio : N → Int) : List N → List N
  | [] => []
  | x :: xs => insDesc prio x (sortDesc prio xs)

/-- vfile.py:262-266: the loop over `reversed(matched_classes)`; the last assignment wins. -/
def preferLoop {N : Type} (likes : N → Bool) : List N → N → N
  | [], ret => ret
  | k :: ks, ret => preferLoop likes ks (if likes k then k else ret)

/-- vfile.py:227-268 `detect_type`; `prefer = none` when no preference (or the empty string) is given. -/
def detect {N : Type} (root : Cls N) (accepts : N → Bool) (prio : N → Int) (prefer : Option (N → Bool)) :
    Option N :=
  let matched := (serialize root).filter accepts
  match sortDesc prio matched with
  | [] => none
  | k :: ks => match prefer with
    | none => some k
    | some likes => some (preferLoop likes (k :: ks).reverse k)

end Viscid.Readers
