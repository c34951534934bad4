import Mathlib.Algebra.Order.Ring.Rat
/-!
# Model of `viscid/cython/cyamr.pyx` (patch neighbours and point location) and of reductions in
`viscid/amr_field.py`

Coordinates are rationals (floating point rounding, infinities and NaN are not modelled).
-/
namespace Viscid.Amr

/-- A vector of three components, indexed 0, 1, 2. -/
abbrev Vec := Fin 3 → ℚ

/-- misc_inlines.pxd:17-21 isclose(a, b): atol = 1e-6, rtol = 1e-5. -/
def isclose (a b : ℚ) : Bool := decide (|a - b| ≤ 1 / 1000000 + 1 / 100000 * |b|)

/-- misc_inlines.pxd:23-25 -/
def lessClose (a b : ℚ) : Bool := decide (a ≤ b) || isclose a b

/-- misc_inlines.pxd:31-33 -/
def lessNotClose (a b : ℚ) : Bool := decide (a < b) && !isclose a b

/-- misc_inlines.pxd:35-37 -/
def greaterNotClose (a b : ℚ) : Bool := decide (a > b) && !isclose a b

/-- Rows of AMRSkeleton.xm and AMRSkeleton.L (amr_grid.py:83-91). -/
structure Patch where
  xm : Vec
  L : Vec

/-! ## Neighbour discovery (cyamr.pyx:65-110) -/

inductive Err where
  | indexError | valueError | typeError
  deriving DecidableEq, Repr

/-- cyamr.pyx:57: the second dimension of the neighbour arrays. -/
def maxNeighbors : Nat := 48

/-- cyamr.pyx:80-87: no axis separates the patches. -/
def possible (a b : Patch) : Bool :=
  (List.finRange 3).all fun k => lessClose |a.xm k - b.xm k| (1 / 2 * (a.L k + b.L k))

/-- cyamr.pyx:92: the patches touch in direction k. -/
def touchDim (a b : Patch) (k : Fin 3) : Bool :=
  isclose (|a.xm k - b.xm k| - 1 / 2 * (a.L k + b.L k)) 0

/-- cyamr.pyx:90-98: the two masks, fmask and imask. -/
def masks (a b : Patch) : Nat × Nat :=
  if possible a b then
    (List.finRange 3).foldl (fun m k =>
      if touchDim a b k then
        let (f, i) := if a.xm k - b.xm k ≥ 0 then (1, 2) else (2, 1)
        (m.1 ||| 1 <<< (6 + k.val) ||| f <<< (2 * k.val), m.2 ||| 1 <<< (6 + k.val) ||| i <<< (2 * k.val))
      else m) (0, 0)
  else (0, 0)

/-- Rows of neighbors / neighbor_mask, filled up to nr_neighbors[i]: (index, mask) pairs. -/
abbrev Table := Nat → List (Nat × Nat)

/-- Append one entry to row i; the file is compiled with boundscheck=True, so a write past the last
column raises IndexError. -/
def push (t : Table) (i : Nat) (e : Nat × Nat) : Except Err Table :=
  if (t i).length < maxNeighbors then .ok (fun q => if q = i then t q ++ [e] else t q) else .error .indexError

/-- cyamr.pyx:73-109, one pass of the inner loop.  (The code stores both indices before it stores the
masks and counts; on success the effect is the same.) -/
def pairStep (ps : Nat → Patch) (i j : Nat) (t : Table) : Except Err Table :=
  let (f, m) := masks (ps i) (ps j)
  if f ≠ 0 then
    match push t i (j, f) with
    | .error e => .error e
    | .ok t' => push t' j (i, m)
  else .ok t

/-- Inner loop, j = 0 .. k-1. -/
def inner (ps : Nat → Patch) (i : Nat) : Nat → Table → Except Err Table
  | 0, t => .ok t
  | k + 1, t =>
    match inner ps i k t with
    | .error e => .error e
    | .ok t' => pairStep ps i k t'

/-- cyamr.pyx:65-110: the outer loop, i = 0 .. n-1. -/
def outer (ps : Nat → Patch) : Nat → Table → Except Err Table
  | 0, t => .ok t
  | n + 1, t =>
    match outer ps n t with
    | .error e => .error e
    | .ok t' => inner ps n n t'

/-- cyamr.pyx:24-63 discover_neighbors, for patches 0 .. n-1. -/
def discover (ps : Nat → Patch) (n : Nat) : Except Err Table := outer ps n (fun _ => [])

/-! ## Point location (cyamr.pyx:169-216) -/

/-- The skeleton of an AMR field: boxes, centres and neighbour lists. -/
structure Skel where
  n : Nat
  xl : Nat → Vec
  xh : Nat → Vec
  xm : Nat → Vec
  nbrs : Nat → List Nat

/-- cyamr.pyx:169-175 _contains_patch -/
def containsP (s : Skel) (p : Nat) (x : Vec) : Bool :=
  (List.finRange 3).all fun i => !(lessNotClose (x i) (s.xl p i) || greaterNotClose (x i) (s.xh p i))

/-- squared distance to the centre of a patch (cyamr.pyx:207-209) -/
def rsq (s : Skel) (p : Nat) (x : Vec) : ℚ := (x 0 - s.xm p 0) ^ 2 + (x 1 - s.xm p 1) ^ 2 + (x 2 - s.xm p 2) ^ 2

/-- cyfield.pyx:10 MAX_FLOAT -/
def maxFloat : ℚ := 10 ^ 37

/-- cyamr.pyx:203-212: (closest, closest_rsq) after patches 0 .. k-1. -/
def closestLoop (s : Skel) (x : Vec) : Nat → Nat × ℚ
  | 0 => (0, maxFloat)
  | k + 1 =>
    let (c, r) := closestLoop s x k
    if rsq s k x < r then (k, rsq s k x) else (c, r)

/-- cyamr.pyx:178-216 activate_patch: the new active patch. -/
def activate (s : Skel) (active : Nat) (x : Vec) : Nat :=
  if s.n = 1 then active
  else if containsP s active x then active
  else
    match (s.nbrs active).find? (fun j => containsP s j x) with
    | some j => j
    | none =>
      match (List.range s.n).find? (fun j => containsP s j x) with
      | some j => j
      | none => (closestLoop s x s.n).1

/-- The patches chosen along a sequence of queries; the field starts at patch 0 (cyamr.pyx:164). -/
def activateSeq (s : Skel) : Nat → List Vec → List Nat
  | _, [] => []
  | a, x :: xs => let b := activate s a x; b :: activateSeq s b xs

/-! ## Whole-field operations (amr_field.py:273-305) -/

/-- A numpy method name. -/
inductive Op where
  | sum | prod | min | max | any | all | mean | ptp
  deriving DecidableEq, Repr

def minOf : List ℚ → Except Err ℚ
  | [] => .error .valueError
  | x :: xs => .ok (xs.foldl Min.min x)

def maxOf : List ℚ → Except Err ℚ
  | [] => .error .valueError
  | x :: xs => .ok (xs.foldl Max.max x)

/-- The numpy reductions (no axis), on a flattened array.  Truth values are 0 and 1.  mean of an empty
array (nan with a warning) is modelled as an error. -/
def reduce : Op → List ℚ → Except Err ℚ
  | .sum, l => .ok l.sum
  | .prod, l => .ok l.prod
  | .min, l => minOf l
  | .max, l => maxOf l
  | .any, l => .ok (if l.any (fun x => decide (x ≠ 0)) then 1 else 0)
  | .all, l => .ok (if l.all (fun x => decide (x ≠ 0)) then 1 else 0)
  | .mean, l => if l = [] then .error .valueError else .ok (l.sum / l.length)
  | .ptp, l =>
    match maxOf l, minOf l with
    | .ok a, .ok b => .ok (a - b)
    | _, _ => .error .valueError

/-- amr_field.py:298-303: reduce each patch, then reduce the array of the results with the same method.
(A reduction of a patch has size 1.) -/
def amrReduce (op : Op) (patches : List (List ℚ)) : Except Err ℚ :=
  match patches.mapM (reduce op) with
  | .error e => .error e
  | .ok lst => reduce op lst

/-- Elementwise methods: binary (`__add__`, ... with one argument) and unary (`__neg__`, ...). -/
inductive Res where
  | field (patches : List (List ℚ))
  | array (a : List ℚ)
  deriving DecidableEq, Repr

/-- amr_field.py:273-305 for a binary elementwise method `f`; `other` is an AMR field. Patches of the
two fields have equal shapes (numpy broadcasting is not modelled). -/
def amrBinary (f : ℚ → ℚ → ℚ) (a b : List (List ℚ)) : Except Err Res :=
  -- 276-284
  if b.length ≠ a.length ∧ b.length ≠ 1 then .error .valueError
  else
    -- 288-298: patch i of the other field, or its patch 0
    let lst := a.zipIdx.map fun p => List.zipWith f p.1 ((b[p.2]?).getD (b.headD []))
    -- 300-305
    match lst with
    | [] => .error .indexError
    | r :: _ => if r.length = 1 then .error .typeError else .ok (.field lst)

/-- amr_field.py:273-305 for a unary elementwise method `f`: if the first result has one element, the
method is applied once more, to the array of the results. -/
def amrUnary (f : ℚ → ℚ) (a : List (List ℚ)) : Except Err Res :=
  let lst := a.map fun p => p.map f
  match lst with
  | [] => .error .indexError
  | r :: _ => if r.length = 1 then .ok (.array (lst.flatten.map f)) else .ok (.field lst)

end Viscid.Amr
