import Verif.Model.Tree
import Verif.Model.A2b
/-!
# Model of `as_crd_system` and `as_cotr` (cotr.py:295-333 and 766-811)

Objects are nodes of a tree (fields, grids, datasets, files: `tree.Node`), which hold other values as info. The
values held as info are no nodes. Text is ASCII. A `Cotr` is known by what it was made with.
-/
namespace Viscid.AsCotr
open Viscid.Tree

/-- What a `Cotr` was made with: a time, or the angles `dip_tilt` and `dip_gsm` (in degrees; whole numbers here). -/
inductive Made where
  | atTime (t : Int)
  | angles (tilt gsm : Int)
  deriving DecidableEq, Repr

/-- Values: `mapping` is a dict (of names and numbers), `notImplemented` is Python's `NotImplemented`, `time` is a datetime64 or a
datetime, `other` is anything without `strip`, `find_attr` and `find_info` (True or False is its truth value). -/
inductive Val where
  | none
  | notImplemented
  | text (s : List Char)
  | time (t : Int)
  | mapping (d : Dict (List Char) Int)
  | cotr (c : Made)
  | other (truth : Bool)
  deriving DecidableEq, Repr

inductive Err where
  | typeError | nameError | keyError | badTime | diverges
  deriving DecidableEq, Repr

/-- The kinds of nodes: fields (field.py:2236-2242) and grids of OpenGGCM (openggcm.py:586-603) have attributes
of their own, others (datasets, files, other grids) have not. -/
inductive Kind where
  | field | ggcmGrid | plain
  deriving DecidableEq, Repr

/-- The nodes: who the parents are, what they hold, and of which kind they are. `moment` reads a text as a time (`is_valid_datetime64`,
`as_datetime64`); `timeTruth` is the truth value of a time. -/
structure World where
  parents : Nat → List Nat
  info : Nat → Dict (List Char) Val
  kind : Nat → Kind
  fuel : Nat
  moment : List Char → Option Int
  timeTruth : Int → Bool

/-- Python's `bool(v)` -/
def World.truth (w : World) : Val → Bool
  | .none => false
  | .notImplemented => true
  | .text s => !s.isEmpty
  | .time t => w.timeTruth t
  | .mapping d => !d.isEmpty
  | .cotr _ => true
  | .other b => b

/-- tree.py:161-170 `find_info(key, None)` -/
def World.find (w : World) (n : Nat) (key : List Char) : Except Err Val :=
  match findInfo w.parents w.info w.fuel n key (some Val.none) with
  | .ok v => .ok v
  | .error .diverges => .error .diverges
  | .error _ => .error .keyError

/-- tree.py:183-209 `find_attr(name)` without a default, as in `Tree.findAttr`; `ok none` stands for AttributeError. -/
def World.attr (w : World) (has : Nat → Bool) (n : Nat) : Except Err (Option Val) :=
  match findAttr (Val := Val) w.parents has w.fuel n none with
  | .ok v => .ok (some v)
  | .error .attributeError => .ok none
  | .error .nameError => .error .nameError
  | .error .keyError => .error .keyError
  | .error .diverges => .error .diverges

/-- What is asked about: a node or a value. -/
inductive Thing where
  | node (n : Nat)
  | val (v : Val)
  deriving DecidableEq, Repr

def crdSystem : List Char := "crd_system".toList
def cotrKey : List Char := "cotr".toList
def dipoletime : List Char := "dipoletime".toList
def basetime : List Char := "basetime".toList

/-- `hasattr(node, "__crd_system__")` -/
def World.hasCrd (w : World) (n : Nat) : Bool := match w.kind n with
  | .field => true
  | .ggcmGrid => true
  | .plain => false

/-- `hasattr(node, "__cotr__")` -/
def World.hasCotr (w : World) (n : Nat) : Bool := match w.kind n with
  | .field => false
  | .ggcmGrid => true
  | .plain => false

/-- field.py:2236-2242 and openggcm.py:597-603 `__crd_system__` -/
def World.crdAttr (w : World) (n : Nat) : Except Err Val := do
  let v ← w.find n crdSystem
  if w.truth v then w.find n crdSystem else pure .notImplemented

/-- cotr.py:310-319: what the name is made of -/
def World.crdOf (w : World) : Thing → Except Err Thing
  | .val v => pure (.val v)
  | .node n =>
    if w.hasCrd n then do return .val (← w.crdAttr n)
    else do
      match ← w.attr w.hasCrd n with
      | some v => pure (.val v)
      | none =>
        let v ← w.find n crdSystem
        if w.truth v then return .val (← w.find n crdSystem) else pure (.node n)

/-- `s.strip().lower()` -/
def clean (s : List Char) : List Char := (A2b.strip s).map Char.toLower

/-- cotr.py:295-333 `as_crd_system` without a default -/
def World.asCrd1 (w : World) (x : Thing) : Except Err (List Char) := do
  match ← w.crdOf x with
  | .val (.text s) => pure (clean s)
  | .val .none => pure "Unknown".toList
  | _ => throw .typeError

/-- cotr.py:295-333 `as_crd_system` -/
def World.asCrd (w : World) (x : Thing) (default : Option Thing) : Except Err (List Char) := do
  match ← w.crdOf x with
  | .val (.text s) => pure (clean s)
  | .val .none => pure "Unknown".toList
  | _ => match default with
    | none => throw .typeError
    | some d => w.asCrd1 d

/-- What `as_cotr` gives back: a `Cotr`, or whatever `thing.__cotr__` is. -/
inductive Out where
  | cotr (c : Made)
  | notImplemented
  deriving DecidableEq, Repr

/-- cotr.py:785-811 for a value, without what happens if nothing is found (`none`) -/
def World.cotrVal (w : World) : Val → Option Out
  | .none => some (.cotr (.angles 0 0))
  | .cotr c => some (.cotr c)
  | .time t => some (.cotr (.atTime t))
  | .text s => (w.moment s).map fun t => .cotr (.atTime t)
  | .notImplemented => none
  | .mapping _ => none
  | .other _ => none

/-- cotr.py:800 and 802: `as_cotr(v)` of an info -/
def World.cotrInfo (w : World) (v : Val) : Except Err Out := match w.cotrVal v with
  | some o => pure o
  | none => throw .typeError

/-- `Cotr(time=v)` (cotr.py:393-418); what is no time raises some exception -/
def World.made (w : World) (v : Val) : Except Err Out := match v with
  | .time t => pure (.cotr (.atTime t))
  | .text s => match w.moment s with
    | some t => pure (.cotr (.atTime t))
    | none => throw .badTime
  | _ => throw .badTime

/-- openggcm.py:586-595 `__cotr__`: `has_info` looks at the grid only -/
def World.cotrAttr (w : World) (n : Nat) : Except Err Out := do
  if hasInfo w.info dipoletime n then w.made (← w.find n dipoletime)
  else if hasInfo w.info basetime n then w.made (← w.find n basetime)
  else pure .notImplemented

/-- cotr.py:787-802: the first try -/
def World.cotrOf (w : World) : Thing → Except Err (Option Out)
  | .val v => pure (w.cotrVal v)
  | .node n =>
    if w.hasCotr n then do return some (← w.cotrAttr n)
    else do
      match ← w.attr w.hasCotr n with
      | some _ => throw .keyError
      | none =>
        let v ← w.find n cotrKey
        if w.truth v then return some (← w.cotrInfo v)
        else
          let v ← w.find n dipoletime
          if w.truth v then return some (← w.cotrInfo v) else pure none

/-- cotr.py:766-811 `as_cotr` without a default -/
def World.asCotr1 (w : World) (x : Thing) : Except Err Out := do
  match ← w.cotrOf x with
  | some o => pure o
  | none => throw .typeError

/-- cotr.py:766-811 `as_cotr` -/
def World.asCotr (w : World) (x : Thing) (default : Option Thing) : Except Err Out := do
  match ← w.cotrOf x with
  | some o => pure o
  | none => match default with
    | none => throw .typeError
    | some d => w.asCotr1 d

end Viscid.AsCotr
