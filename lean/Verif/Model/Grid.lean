import Verif.Model.Dict
/-!
# Looking up fields on a grid: `viscid/grid.py`, and the getters of `viscid/readers/openggcm.py`

Fields are values of an arbitrary type `F`. Names are lists of characters and only strings are modelled: the counter handles
of the bucket (`grid[0]`) are not. Python's recursion limit is the fuel; every nested lookup uses one unit, where CPython
uses a few stack frames. What the stored dictionary holds is what `Bucket.__getitem__` finds (Model/Bucket.lean).
-/
namespace Viscid.Grid

abbrev Name := List Char

inductive Err
  | keyError
  | runtimeError
  | recursionError
  | other
deriving DecidableEq, Repr

/-- `str.split('=')` -/
def splitEq : Name → List Name
  | [] => [[]]
  | c :: s =>
    if c = '=' then [] :: splitEq s
    else
      match splitEq s with
      | [] => [[c]]
      | w :: ws => (c :: w) :: ws

/-- The ASCII characters `str.strip` removes. -/
def isSpace (c : Char) : Bool := c = ' ' || c = '\t' || c = '\n' || c = '\r' || c = '\x0b' || c = '\x0c'

/-- `str.strip()` -/
def strip (s : Name) : Name := ((s.dropWhile isSpace).reverse.dropWhile isSpace).reverse

/-- What a grid of some class has to do with lookups. `Sl` are selections, and `none` is `Ellipsis`. -/
structure Cls (F Sl : Type) where
  /-- `hasattr(self, "_get_" + name)` and the method, given `self[...]` (all getters of the readers use that) -/
  getter : Name → Option ((Name → Except Err F) → Except Err F)
  /-- `_process_<name>` -/
  process : Name → Option (F → Except Err F)
  /-- `_processALL` -/
  processALL : Option (F → Except Err F)
  /-- evaluator.py:79-184 `_evaluate_numexpr` or `_evaluate_numpy`, given `grid.get_field(symbol, slc=slc)` -/
  eval : (Name → Except Err F) → Name → Name → Except Err F
  /-- `evaluator.enabled` -/
  enabled : Bool
  /-- field.py:1529-1566 `shell_copy(force=False)` -/
  shell : F → F
  /-- field.py:1309-1318 `slice_and_keep` -/
  cut : Sl → F → Except Err F

/-- grid.py:57-59 and 46-55: the stored fields, `_src_crds` as the function from names to coordinates, and the flag. -/
structure Grid (F : Type) where
  fields : Dict Name F
  crds : Option (Name → Option F)
  longterm : Bool

variable {F Sl : Type}

/-- calling a method if it is there -/
def runIf (p : Option (F → Except Err F)) (f : F) : Except Err F :=
  match p with
  | some p => p f
  | none => .ok f

/-- grid.py:312-322 `__getitem__`, for a given `self.get_field`. -/
def itemWith (g : Grid F) (get : Name → Except Err F) (name : Name) : Except Err F :=
  match get name with
  | .error .keyError =>
    match g.crds with
    | some c =>
      match c name with
      | some v => .ok v
      | none => .error .keyError
    | none => .error .keyError
  | r => r

/-- evaluator.py:57-77 `evaluate`: the flag is checked first. -/
def evaluate (c : Cls F Sl) (get : Name → Except Err F) (res eqn : Name) : Except Err F :=
  if c.enabled then c.eval get res eqn else .error .runtimeError

/-- grid.py:277-289: where the field comes from, and whether it is to be sliced at the end. `sub` are nested calls of
    `get_field`. -/
def source (c : Cls F Sl) (g : Grid F) (force : Bool) (sub : Name → Option Sl → Except Err F) (name : Name) (slc : Option Sl) :
    Except Err (F × Bool) :=
  match g.fields.get? name with
  | some f => .ok (if force || g.longterm then f else c.shell f, true)
  | none =>
    match c.getter name with
    | some m => (m (itemWith g fun s => sub s none)).map (·, true)
    | none =>
      match splitEq name with
      | [res, eqn] => (evaluate c (fun s => sub s slc) (strip res) (strip eqn)).map (·, false)
      | _ => .error .keyError

/-- grid.py:291-301: post-processing and slicing. -/
def finish (c : Cls F Sl) (name : Name) (slc : Option Sl) (fb : F × Bool) : Except Err F :=
  match runIf (c.process name) fb.1 with
  | .error e => .error e
  | .ok f =>
    match runIf c.processALL f with
    | .error e => .error e
    | .ok f =>
      match slc, fb.2 with
      | some s, true => c.cut s f
      | _, _ => .ok f

/-- grid.py:271-301 `get_field`; `force` is `force_longterm_caches`. -/
def getField (c : Cls F Sl) (g : Grid F) : Nat → Bool → Name → Option Sl → Except Err F
  | 0, _, _, _ => .error .recursionError
  | n + 1, force, name, slc =>
    match source c g force (getField c g n false) name slc with
    | .error e => .error e
    | .ok fb => finish c name slc fb

/-- grid.py:312-322 `grid[name]`. -/
def getItem (c : Cls F Sl) (g : Grid F) (n : Nat) (name : Name) : Except Err F :=
  itemWith g (fun s => getField c g n false s none) name

/-- grid.py:306-307 `name in grid` -/
def contains (g : Grid F) (name : Name) : Bool := (g.fields.get? name).isSome

/-- grid.py:324-328 `grid[name] = fld`; tree bookkeeping and layouts (Model/Layout.lean) are left out. -/
def setItem (g : Grid F) (name : Name) (f : F) : Grid F := { g with fields := g.fields.set name f }

/-! ## The getters of GGCM grids -/

/-- What the getters do with fields. -/
structure Ops (F : Type) where
  /-- `fld['x']` -/
  comp : F → Char → Except Err F
  /-- field.py `scalar_fields_to_vector` -/
  vector : F → F → F → Except Err F
  /-- `viscid.scale(self._bbnorm, fld)` -/
  scale : F → Except Err F
  /-- openggcm.py:423-438 `_ecfc_vector_setmeta` for 'Face' and 'Edge' -/
  face : F → Except Err F
  edge : F → Except Err F
  fc2cc : F → Except Err F
  ec2cc : F → Except Err F
  /-- `/` and the rest of `_get_T` -/
  div : F → F → Except Err F
  /-- openggcm.py:531-538 `_calc_mag` -/
  mag : F → F → F → Except Err F
  beta : F → F → Except Err F
  psi : F → Except Err F

/-- openggcm.py:401-406 `_assemble_vector` -/
def assemble (o : Ops F) (self : Name → Except Err F) (base suffix : String) : Except Err F := do
  let x ← self (base.toList ++ 'x' :: suffix.toList)
  let y ← self (base.toList ++ 'y' :: suffix.toList)
  let z ← self (base.toList ++ 'z' :: suffix.toList)
  o.vector x y z

/-- `try: a except KeyError: b` -/
def tryKey (a b : Except Err F) : Except Err F :=
  match a with
  | .error .keyError => b
  | r => r

/-- openggcm.py:469-480 `_get_b1` and 482-493 `_get_b2`: `k` is "1" or "2". -/
def getBk (o : Ops F) (self : Name → Except Err F) (k : String) : Except Err F := do
  let b ← tryKey (do let v ← assemble o self ("b" ++ k) ""; o.scale v) (assemble o self "b" k)
  o.face b

/-- openggcm.py:463-467 `_get_b_fc` -/
def getBfc (o : Ops F) (self : Name → Except Err F) : Except Err F := tryKey (getBk o self "1") (getBk o self "2")

/-- openggcm.py:451-461 `_get_b`, `_get_b_cc` -/
def getB (o : Ops F) (self : Name → Except Err F) : Except Err F :=
  tryKey (assemble o self "b" "") (do let v ← getBfc o self; o.fc2cc v)

/-- openggcm.py:524-529 `_get_efl` -/
def getEfl (o : Ops F) (self : Name → Except Err F) : Except Err F := do
  let v ← assemble o self "efl" ""
  o.edge v

/-- openggcm.py:513-522 `_get_e_ec` -/
def getEec (o : Ops F) (self : Name → Except Err F) : Except Err F :=
  tryKey (do let v ← assemble o self "e" "_ec"; o.edge v) (getEfl o self)

/-- openggcm.py:495-511 `_get_e`, `_get_e_cc` -/
def getE (o : Ops F) (self : Name → Except Err F) : Except Err F :=
  tryKey (assemble o self "e" "_cc") (tryKey (assemble o self "e" "") (do let v ← getEec o self; o.ec2cc v))

/-- `self[v][c]` -/
def compOf (o : Ops F) (self : Name → Except Err F) (v : String) (c : Char) : Except Err F := do
  let f ← self v.toList
  o.comp f c

/-- openggcm.py:540-560 -/
def magOf (o : Ops F) (self : Name → Except Err F) (v : String) : Except Err F := do
  let x ← self (v.toList ++ ['x'])
  let y ← self (v.toList ++ ['y'])
  let z ← self (v.toList ++ ['z'])
  o.mag x y z

/-- openggcm.py:368-571: the methods `_get_<name>` of GGCMGrid. -/
def ggcmTable (o : Ops F) : List (String × ((Name → Except Err F) → Except Err F)) :=
  [("T", fun self => do let p ← self "pp".toList; let r ← self "rr".toList; o.div p r),
   ("bx", fun self => compOf o self "b" 'x'),
   ("by", fun self => compOf o self "b" 'y'),
   ("bz", fun self => compOf o self "b" 'z'),
   ("vx", fun self => compOf o self "v" 'x'),
   ("vy", fun self => compOf o self "v" 'y'),
   ("vz", fun self => compOf o self "v" 'z'),
   ("jx", fun self => self "xjx".toList),
   ("jy", fun self => self "xjy".toList),
   ("jz", fun self => self "xjz".toList),
   ("v", fun self => assemble o self "v" ""),
   ("j", fun self => assemble o self "j" ""),
   ("xj", fun self => assemble o self "j" ""),
   ("b", getB o),
   ("b_cc", getB o),
   ("b_fc", getBfc o),
   ("b1", fun self => getBk o self "1"),
   ("b2", fun self => getBk o self "2"),
   ("e", getE o),
   ("e_cc", getE o),
   ("e_ec", getEec o),
   ("efl", getEfl o),
   ("bmag", fun self => magOf o self "b"),
   ("jmag", fun self => magOf o self "j"),
   ("speed", fun self => magOf o self "v"),
   ("beta", fun self => do let p ← self "pp".toList; let b ← self "b".toList; o.beta p b),
   ("psi", fun self => do let b ← self "b".toList; o.psi b)]

/-- `getattr(self, "_get_" + name)` of a GGCM grid -/
def ggcmGetter (o : Ops F) (name : Name) : Option ((Name → Except Err F) → Except Err F) :=
  ((ggcmTable o).find? fun p => p.1.toList == name).map (·.2)

/-- The lookups of a GGCM grid; `all` is `_processALL`, openggcm.py:576-584, which returns cell-centred fields as they are, and
    `_process_divB` is at 573-574. -/
def ggcm (o : Ops F) (all : F → Except Err F) (eval : (Name → Except Err F) → Name → Name → Except Err F) (enabled : Bool)
    (shell : F → F) (cut : Sl → F → Except Err F) : Cls F Sl where
  getter := ggcmGetter o
  process := fun name => if name = "divB".toList then some o.scale else none
  processALL := some all
  eval := eval
  enabled := enabled
  shell := shell
  cut := cut

end Viscid.Grid
