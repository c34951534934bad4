import Verif.Model.Basic
import Mathlib.Algebra.Order.Ring.Rat
/-!
# Model of `viscid/calculator/ecfc.py`: edge and face centred fields

An array of shape `n0 × n1 × n2` is a function of three indices together with its shape.  Data and
coordinates are rationals (rounding not modelled); a division by zero gives `none` (nan or inf).
The numexpr and numpy paths compute the same expression.  `atleast_3d` (which gives a missing axis one
cell between two nodes, coordinate.py:1136-1160, 1371-1376, 1419-1423) is applied before this model
starts.  Field meta data other than the three keys below are not modelled.
-/
namespace Viscid.Ecfc

inductive Err where
  | runtimeError | valueError
  deriving DecidableEq, Repr

/-- ecfc.py:25-26 STAGGER_LEADING / STAGGER_TRAILING. -/
inductive Stag where
  | leading | trailing
  deriving DecidableEq, Repr

inductive Center where
  | face | edge | other
  deriving DecidableEq, Repr

/-- The three slices that occur: `[:-1]`, `[1:]`, `[:]`. -/
inductive Sl where
  | upto | from1 | all
  deriving DecidableEq, Repr

/-- Number of entries a slice selects from `n`. -/
def Sl.len : Sl → Nat → Nat
  | .upto, n => n - 1
  | .from1, n => n - 1
  | .all, n => n

/-- First index a slice selects. -/
def Sl.off : Sl → Nat
  | .upto => 0
  | .from1 => 1
  | .all => 0

/-- An array of numbers with three axes. -/
structure Arr where
  n : Fin 3 → Nat
  at' : Nat → Nat → Nat → ℚ

/-- `a[s0, s1, s2]`. -/
def Arr.slice (a : Arr) (s : Fin 3 → Sl) : Arr :=
  ⟨fun d => (s d).len (a.n d), fun i j k => a.at' (i + (s 0).off) (j + (s 1).off) (k + (s 2).off)⟩

/-- A vector field with its node coordinates (used by div_fc) and the meta data of ecfc.py:28-30. -/
structure Fld where
  n : Fin 3 → Nat
  comp : Fin 3 → Nat → Nat → Nat → ℚ
  nodes : Fin 3 → List ℚ
  center : Center
  preprocessed : Option Bool
  stag : Fin 3 → Stag
  flip : Fin 3 → Bool

/-- `fc['x', s0, s1, s2]` -/
def Fld.arr (f : Fld) (c : Fin 3) : Arr := ⟨f.n, f.comp c⟩

/-- Assigning `src` into an array of shape `n` (numpy broadcasting of lengths 1). -/
def assign (n : Fin 3 → Nat) (src : Arr) : Except Err (Nat → Nat → Nat → ℚ) :=
  if (src.n 0 = n 0 ∨ src.n 0 = 1) ∧ (src.n 1 = n 1 ∨ src.n 1 = 1) ∧ (src.n 2 = n 2 ∨ src.n 2 = 1) then
    .ok fun i j k => src.at' (if src.n 0 = 1 then 0 else i) (if src.n 1 = 1 then 0 else j) (if src.n 2 = 1 then 0 else k)
  else .error .valueError

/-- ecfc.py:73-76: SA and SB. -/
def pick (flipped : Bool) (k : Nat) : Sl :=
  match flipped, k with
  | false, 0 => .upto
  | false, 1 => .from1
  | true, 0 => .from1
  | true, 1 => .upto
  | _, _ => .all

/-- ecfc.py:78-92 and 103-107 (trim_leading=True): (_sd0, _sd). -/
def offsets : Stag → Nat × Nat
  | .trailing => (1, 0)
  | .leading => (1, 1)

/-- ecfc.py:102-122: `sd[i][j]`, filled by the loop over `i` (an axis, by its size `n i`). -/
def sd (f : Fld) (i j : Fin 3) : Sl :=
  if f.n i = 1 then .all
  else
    let cnd : Bool := if f.center = .face then i == j else i != j
    let flipped := f.flip j && cnd
    if cnd then pick flipped (offsets (f.stag i)).2 else pick flipped (offsets (f.stag i)).1

/-- ecfc.py:102-116: `sc[i]`. -/
def sc (f : Fld) (i : Fin 3) : Sl := if f.n i = 1 then .all else .from1

/-- ecfc.py:55-136 `make_ecfc_field_leading` (trim_leading=True).  A slice of a field keeps the nodes
around the selected cells: `[1:]` drops the first node. -/
def makeLeading (f : Fld) : Except Err Fld :=
  match f.preprocessed with
  | some true => .ok f
  | none => .ok { f with preprocessed := some true, stag := fun _ => .leading }
  | some false =>
    if f.center = .other then .error .valueError
    else if f.n 0 = 0 ∨ f.n 1 = 0 ∨ f.n 2 = 0 then .error .runtimeError
    else
      let n' : Fin 3 → Nat := fun d => (sc f d).len (f.n d)
      -- 129-131: component c is taken with sd[c][0], sd[c][1], sd[c][2]
      match assign n' ((f.arr 0).slice (sd f 0)), assign n' ((f.arr 1).slice (sd f 1)),
          assign n' ((f.arr 2).slice (sd f 2)) with
      | .ok x, .ok y, .ok z =>
        .ok { f with
          n := n'
          comp := fun c => match c with | 0 => x | 1 => y | 2 => z
          nodes := fun d => if f.n d = 1 then f.nodes d else (f.nodes d).drop 1
          preprocessed := some true
          stag := fun _ => .leading }
      | _, _, _ => .error .valueError

/-- ecfc.py:32-53 `_prep_slices`: (s0, sm, sp) for one axis.  The check for leading staggering cannot
fail after make_ecfc_field_leading. -/
def prepSlices (n : Nat) : Sl × Sl × Sl := if n = 1 then (.all, .all, .all) else (.upto, .upto, .from1)

/-- ecfc.py:42-52: a RuntimeError for an axis without cells. -/
def prepOk (f : Fld) : Bool := decide (f.n 0 ≠ 0 ∧ f.n 1 ≠ 0 ∧ f.n 2 ≠ 0)

def s0 (f : Fld) (d : Fin 3) : Sl := (prepSlices (f.n d)).1
def sm (f : Fld) (d : Fin 3) : Sl := (prepSlices (f.n d)).2.1
def sp (f : Fld) (d : Fin 3) : Sl := (prepSlices (f.n d)).2.2

/-- Slices with `m` (0: sm, 1: sp) along the axes in `ax` and s0 along the others. -/
def faceSl (f : Fld) (ax : Fin 3) (plus : Bool) (d : Fin 3) : Sl :=
  if d = ax then (if plus then sp f d else sm f d) else s0 f d

/-- A cell centred vector field: shape and components. -/
structure Vec where
  n : Fin 3 → Nat
  comp : Fin 3 → Nat → Nat → Nat → ℚ

/-- ecfc.py:166-168: `0.5 * (fc0 + fc1)`. -/
def avg2 (a b : Arr) : Nat → Nat → Nat → ℚ := fun i j k => 1 / 2 * (a.at' i j k + b.at' i j k)

/-- ecfc.py:138-168 `fc2cc(bnd=False)`. -/
def fc2cc (f : Fld) : Except Err Vec :=
  match makeLeading f with
  | .error e => .error e
  | .ok f =>
    if prepOk f then
      .ok ⟨fun d => (s0 f d).len (f.n d),
        fun c => avg2 ((f.arr c).slice (faceSl f c false)) ((f.arr c).slice (faceSl f c true))⟩
    else .error .runtimeError

/-- ecfc.py:187-198: slices of an edge component along `c`, the other two axes with sm / sp. -/
def edgeSl (f : Fld) (c : Fin 3) (pa pb : Bool) (d : Fin 3) : Sl :=
  if d = c then s0 f d
  else
    -- the first of the two other axes uses `pa`, the second `pb`
    let first : Fin 3 := if c = 0 then 1 else 0
    if d = first then (if pa then sp f d else sm f d) else (if pb then sp f d else sm f d)

/-- ecfc.py:211-213: `0.25 * (a + b + c + d)`. -/
def avg4 (a b c d : Arr) : Nat → Nat → Nat → ℚ :=
  fun i j k => 1 / 4 * (a.at' i j k + b.at' i j k + c.at' i j k + d.at' i j k)

/-- ecfc.py:178-213 `ec2cc(bnd=False)`. -/
def ec2cc (f : Fld) : Except Err Vec :=
  match makeLeading f with
  | .error e => .error e
  | .ok f =>
    if prepOk f then
      .ok ⟨fun d => (s0 f d).len (f.n d),
        fun c => avg4 ((f.arr c).slice (edgeSl f c false false)) ((f.arr c).slice (edgeSl f c false true))
          ((f.arr c).slice (edgeSl f c true false)) ((f.arr c).slice (edgeSl f c true true))⟩
    else .error .runtimeError

/-- Division of floats: `none` is nan or infinity. -/
def fdiv (a b : ℚ) : Option ℚ := if b = 0 then none else some (a / b)

/-- One term `(fc1 - fc0) / (xp - xm)` of ecfc.py:257-263, at cell (i, j, k); `m` is the index along the
axis. `x = x[:-1]` (ecfc.py:240), then `x[sm]` and `x[sp]` (ecfc.py:244-246): the node list without its
last entry, at `m` plus the offset of the slice. -/
def divTerm (f : Fld) (c : Fin 3) (i j k m : Nat) : Option ℚ :=
  let x := (f.nodes c).dropLast
  fdiv (((f.arr c).slice (faceSl f c true)).at' i j k - ((f.arr c).slice (faceSl f c false)).at' i j k)
    (x.getD (m + (sp f c).off) 0 - x.getD (m + (sm f c).off) 0)

def add3 : Option ℚ → Option ℚ → Option ℚ → Option ℚ
  | some a, some b, some c => some (a + b + c)
  | _, _, _ => none

/-- A cell centred scalar field; `none` is nan or infinity. -/
structure Scal where
  n : Fin 3 → Nat
  at' : Nat → Nat → Nat → Option ℚ

/-- The lengths of `x[sm]` for the three axes fit the cells (otherwise numpy cannot broadcast). -/
def nodesFit (f : Fld) : Bool :=
  decide (∀ d, (sm f d).len ((f.nodes d).length - 1) = (s0 f d).len (f.n d) ∧
    (sp f d).len ((f.nodes d).length - 1) = (s0 f d).len (f.n d))

/-- ecfc.py:225-264 `div_fc(bnd=False)`. -/
def divFc (f : Fld) : Except Err Scal :=
  match makeLeading f with
  | .error e => .error e
  | .ok f =>
    if ¬ prepOk f then .error .runtimeError
    else if ¬ nodesFit f then .error .valueError
    else .ok ⟨fun d => (s0 f d).len (f.n d), fun i j k =>
      add3 (divTerm f 0 i j k i) (divTerm f 1 i j k j) (divTerm f 2 i j k k)⟩

/-- calc.py:641-705 `extend_boundaries_ndarr` with nl = nh = 1, order=0 along one axis of length `n`:
the first and last values are repeated. -/
def ext1 {α : Type} (n : Nat) (g : Nat → α) (i : Nat) : α :=
  if i = 0 then g 0 else if i ≤ n then g (i - 1) else g (n - 1)

/-- ecfc.py:170-173 (and 215-218, 265-269): `bnd=True`, all three axes are extended. -/
def extend {α : Type} (n : Fin 3 → Nat) (g : Nat → Nat → Nat → α) : Nat → Nat → Nat → α :=
  fun i j k => ext1 (n 2) (fun k => ext1 (n 1) (fun j => ext1 (n 0) (fun i => g i j k) i) j) k

/-- `fc2cc` / `ec2cc` with bnd=True. -/
def Vec.bnd (v : Vec) : Vec := ⟨fun d => v.n d + 2, fun c => extend v.n (v.comp c)⟩

def Scal.bnd (s : Scal) : Scal := ⟨fun d => s.n d + 2, extend s.n s.at'⟩

end Viscid.Ecfc
