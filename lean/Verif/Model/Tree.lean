import Verif.Model.Dict
import Verif.Model.Basic
/-!
# Model of `viscid/tree.py` class Node

The object graph is given by `parents : N → List N` and `info : N → Dict Key Val` (`_info`).
`N` stands for object identity (`id(obj)`).  The `while` loop of `_parent_bfs` takes fuel; running
out of fuel is reported as `none`, and the theorems show it never happens on a finite graph.
Aliasing of `_info` dicts between nodes is not modelled.
-/
namespace Viscid.Tree

variable {N Key Val : Type} [DecidableEq N] [DecidableEq Key]

/-- Outcome of one pass of the `for obj in this_level` loop. -/
inductive LevelResult (N : Type) where
  | found (n : N)
  | next (visited nextLevel : List N)

/-- viscid/tree.py:88-104, the loop over one level. -/
def bfsLevel (parents : N → List N) (cond : N → Bool) : List N → List N → List N → LevelResult N
  | [], visited, next => .next visited next
  | obj :: rest, visited, next =>
    if obj ∈ visited then bfsLevel parents cond rest visited next
    else if cond obj then .found obj
    else bfsLevel parents cond rest (obj :: visited) (next ++ parents obj)

/-- viscid/tree.py:85-109, the `while` loop. -/
def bfsLoop (parents : N → List N) (cond : N → Bool) : Nat → List N → List N → Option (Option N)
  | _, [], _ => some none
  | 0, _ :: _, _ => none
  | fuel + 1, a :: l, visited =>
    match bfsLevel parents cond (a :: l) visited [] with
    | .found n => some (some n)
    | .next visited' next => bfsLoop parents cond fuel next visited'

/-- viscid/tree.py:48-109 `_parent_bfs` (without getvalue): self is tested first and is not
entered into `visited_nodes`. -/
def parentBfs (parents : N → List N) (cond : N → Bool) (fuel : Nat) (self : N) : Option (Option N) :=
  if cond self then some (some self) else bfsLoop parents cond fuel (parents self) []

/-- viscid/tree.py:88-104 with a condition that always answers False, recording the calls. -/
def visitLevel (parents : N → List N) : List N → List N → List N → List N → List N × List N × List N
  | [], visited, next, calls => (visited, next, calls)
  | obj :: rest, visited, next, calls =>
    if obj ∈ visited then visitLevel parents rest visited next calls
    else visitLevel parents rest (obj :: visited) (next ++ parents obj) (calls ++ [obj])

/-- viscid/tree.py:85-109 with a condition that always answers False. -/
def visitLoop (parents : N → List N) : Nat → List N → List N → List N → Option (List N)
  | _, [], _, calls => some calls
  | 0, _ :: _, _, _ => none
  | fuel + 1, a :: l, visited, calls =>
    let r := visitLevel parents (a :: l) visited [] calls
    visitLoop parents fuel r.2.1 r.1 r.2.2

/-- The nodes on which `get_all_info`'s condition is called, in order (viscid/tree.py:123-131). -/
def visits (parents : N → List N) (fuel : Nat) (self : N) : Option (List N) :=
  visitLoop parents fuel (parents self) [] [self]

inductive Err where
  | keyError | attributeError | nameError | diverges
  deriving DecidableEq, Repr

/-- viscid/tree.py:111-112 has_info. -/
def hasInfo (info : N → Dict Key Val) (key : Key) (n : N) : Bool := ((info n).get? key).isSome

/-- viscid/tree.py:147-159 find_info_owner. -/
def findInfoOwner (parents : N → List N) (info : N → Dict Key Val) (fuel : Nat) (self : N) (key : Key) :
    Except Err N :=
  match parentBfs parents (hasInfo info key) fuel self with
  | none => .error .diverges
  | some none => .error .keyError
  | some (some n) => .ok n

/-- viscid/tree.py:161-170 find_info (and 114-121 get_info on the owner). -/
def findInfo (parents : N → List N) (info : N → Dict Key Val) (fuel : Nat) (self : N) (key : Key)
    (default : Option Val) : Except Err Val :=
  let r : Except Err Val :=
    match findInfoOwner parents info fuel self key with
    | .error e => .error e
    | .ok n => match (info n).get? key with
      | some v => .ok v
      | none => .error .keyError
  match r with
  | .error .keyError => match default with
    | some d => .ok d
    | none => .error .keyError
  | r => r

/-- viscid/tree.py:126-128, one call of the closure `condition`. -/
def mergeInfo (all : Dict Key Val) (i : Dict Key Val) : Dict Key Val :=
  i.foldl (fun d kv => if (d.get? kv.1).isSome then d else d.set kv.1 kv.2) all

/-- viscid/tree.py:123-131 get_all_info. -/
def getAllInfo (parents : N → List N) (info : N → Dict Key Val) (fuel : Nat) (self : N) :
    Option (Dict Key Val) :=
  (visits parents fuel self).map fun vs => vs.foldl (fun d n => mergeInfo d (info n)) []

/-- viscid/tree.py:144-145 set_info. -/
def setInfo (info : N → Dict Key Val) (n : N) (key : Key) (v : Val) : N → Dict Key Val :=
  fun m => if m = n then (info n).set key v else info m

/-- viscid/tree.py:172-181 update_info. -/
def updateInfo (parents : N → List N) (info : N → Dict Key Val) (fuel : Nat) (self : N) (key : Key)
    (v : Val) (fallback : Bool) : Except Err (N → Dict Key Val) :=
  match findInfoOwner parents info fuel self key with
  | .ok n => .ok (setInfo info n key v)
  | .error .keyError => if fallback then .ok (setInfo info self key v) else .error .keyError
  | .error e => .error e

/-- viscid/tree.py:183-209 find_attr.  The condition reads the enclosing variable `parent`, which
is still unassigned while the search runs; the read happens exactly when `hasattr` is true
(short-circuit `and`), and raises NameError ("free variable referenced before assignment"). -/
def findAttr (parents : N → List N) (hasattr : N → Bool) (fuel : Nat) (self : N)
    (default : Option Val) : Except Err Val :=
  match parentBfs parents hasattr fuel self with
  | none => .error .diverges
  | some (some _) => .error .nameError
  | some none => match default with
    | some d => .ok d
    | none => .error .attributeError

/-- What can be assigned to `node.time`. Times are in seconds (`Int` here; the arithmetic is not
the point). -/
inductive TimeVal where
  | none
  | number (t : Int)
  | datetime (t : Int)
  | timedelta (t : Int)
  deriving DecidableEq, Repr

/-- viscid/tree.py:232-240, the `time` setter on a node's own info (`stored` is what `_info`
holds under 'time').  `basetime` none raises NoBasetimeError, modelled as keyError. -/
def setTime (basetime : Option Int) (stored : Option Int) (v : TimeVal) : Except Err (Option Int) :=
  match v with
  | .datetime t =>
    match basetime with
    | Option.none => .error .keyError
    | some b => let _val := b - t; .ok stored
  | .timedelta t => let _val := t; .ok stored
  | .number t => .ok (some t)
  | .none => .ok stored

end Viscid.Tree
