import Verif.Model.Basic
/-!
# Model of `viscid/_rc.py`: settings read from a file

Objects (modules, classes, instances) are numbers. What `yaml` or `vjson` make of a text is not modelled: the file is what they give.
-/
namespace Viscid.Rc

abbrev Name := List Char

/-- Values of attributes: `data` is anything without attributes (numbers, texts, lists). -/
inductive Val where
  | data (n : Int)
  | obj (i : Nat)
  deriving DecidableEq, Repr

/-- The attributes of all objects. -/
abbrev Heap := Nat → Name → Option Val

/-- What does not change: which objects have a `__name__` (modules and classes have), which modules can be imported (`import_module`
of "package.name" makes the module an attribute of the package), and on which objects attributes can be set. -/
structure Env where
  named : Nat → Bool
  imports : Nat → Name → Option Nat
  settable : Nat → Bool

inductive Err where
  /-- RCPathError: the message says that this object has no attribute of that name -/
  | path (i : Nat) (p : Name)
  /-- AttributeError (or TypeError, where an attribute cannot be set) -/
  | attr
  deriving DecidableEq, Repr

def Env.hasName (e : Env) : Val → Bool
  | .data _ => false
  | .obj i => e.named i

/-- `getattr(v, p)`; `none` if there is no such attribute -/
def look (h : Heap) (v : Val) (p : Name) : Option Val := match v with
  | .data _ => none
  | .obj i => h i p

def put (h : Heap) (i : Nat) (p : Name) (v : Val) : Heap := fun j q => if j = i ∧ q = p then some v else h j q

/-- _rc.py:39-44: an AttributeError is turned into an RCPathError about `v`, unless `v` has no `__name__` -/
def Env.blame (e : Env) (v : Val) (p : Name) (r : Heap × Except Err Val) : Heap × Except Err Val := match r with
  | (h, .error .attr) => match v with
    | .data _ => (h, .error .attr)
    | .obj i => if e.named i then (h, .error (.path i p)) else (h, .error .attr)
  | r => r

/-- _rc.py:24-44 `_get_obj(rt, path)` -/
def Env.getObj (e : Env) (h : Heap) (v : Val) : List Name → Heap × Except Err Val
  | [] => (h, .ok v)
  | p :: ps => e.blame v p <| match look h v p with
    | some w => e.getObj h w ps
    | none => match v with
      | .data _ => (h, .error .attr)
      | .obj i =>
        if e.named i then match e.imports i p with
          | some m => e.getObj (put h i p (.obj m)) (.obj m) ps
          | none => (h, .error .attr)
        else (h, .error .attr)

/-- `path.split('.')` -/
def splitDots : List Char → List Name
  | [] => [[]]
  | c :: cs => match splitDots cs with
    | [] => [[c]]
    | w :: ws => if c = '.' then [] :: w :: ws else (c :: w) :: ws

/-- What is logged: that an attribute is new, or that a path is bad -/
inductive Warning where
  | new (path : List Char)
  | bad (i : Nat) (p : Name)
  deriving DecidableEq, Repr

/-- The module `viscid` -/
def root : Nat := 0

/-- _rc.py:47-62 `set_attribute(path, value)` -/
def Env.setAttribute (e : Env) (h : Heap) (path : List Char) (value : Val) : Heap × List Warning × Except Err Nat :=
  let p := splitDots path
  match e.getObj h (.obj root) p.dropLast with
  | (h, .error err) => (h, [], .error err)
  | (h, .ok v) =>
    let name := p.getLastD []
    let w := if (look h v name).isSome then [] else [Warning.new path]
    match v with
    | .data _ => (h, w, .error .attr)
    | .obj i => if e.settable i then (put h i name value, w, .ok i) else (h, w, .error .attr)

/-- Keys: text, or something without `split` -/
inductive Key where
  | text (s : List Char)
  | other
  deriving DecidableEq, Repr

/-- What is read: no file, a mapping, or something without `items` (None, if the file is empty) -/
inductive File where
  | missing
  | mapping (items : List (Key × Val))
  | other
  deriving DecidableEq, Repr

structure Result where
  heap : Heap
  log : List Warning
  touched : List Nat
  /-- an exception that comes out of `load_rc_file` -/
  raised : Option Err

/-- _rc.py:84-92: the loop; what was done before an exception stays done -/
def Env.loop (e : Env) (h : Heap) : List (Key × Val) → Result
  | [] => ⟨h, [], [], none⟩
  | (.other, _) :: _ => ⟨h, [], [], some .attr⟩
  | (.text s, v) :: rest => match e.setAttribute h s v with
    | (h, w, .ok i) =>
      let r := e.loop h rest
      ⟨r.heap, w ++ r.log, i :: r.touched, r.raised⟩
    | (h, w, .error (.path i p)) =>
      let r := e.loop h rest
      ⟨r.heap, w ++ .bad i p :: r.log, r.touched, r.raised⟩
    | (h, w, .error .attr) => ⟨h, w, [], some .attr⟩

/-- `set(touched_objects)` -/
def once : List Nat → List Nat
  | [] => []
  | i :: l => if i ∈ l then once l else i :: once l

/-- _rc.py:65-99 `load_rc_file`: the objects whose `post_rc_actions` are called, in some order, are those touched, without repetitions;
an exception comes out before that -/
def Env.loadRc (e : Env) (h : Heap) : File → Result
  | .missing => ⟨h, [], [], none⟩
  | .other => ⟨h, [], [], some .attr⟩
  | .mapping items =>
    let r := e.loop h items
    match r.raised with
    | some _ => { r with touched := [] }
    | none => { r with touched := once r.touched }

end Viscid.Rc
