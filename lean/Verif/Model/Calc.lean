import Verif.Model.Basic
import Mathlib.Algebra.Field.Basic
import Mathlib.Data.Fin.VecNotation
import Mathlib.Data.Fin.Tuple.Basic
/-!
# Model of `viscid/calculator/calc.py`: boundary extension and finite differences

An array is a shape and a function from indices; values outside the shape are irrelevant.  Data and
coordinates are elements of an arbitrary field K (floating point is not modelled; a division by zero
is 0 here and inf or nan in numpy).
-/
namespace Viscid.Calc

variable {K : Type} [Field K] [DecidableEq K]

/-- The exceptions of this part of the code. -/
inductive Err
  | value | type | notImplemented
  deriving Repr, DecidableEq

/-- An assignment `v[d:d+1] = x` along the axis being extended. -/
def put (v : Nat → K) (d : Nat) (x : K) : Nat → K := fun t => if t = d then x else v t

/-- calc.py:686-694 and 704-712 (the two branches are the same): a single value, continued with
constant steps.  n is the length before extension, ni = n + nl. -/
def stepLine (dx : K) (n nl nh : Nat) (v : Nat → K) : Nat → K :=
  (List.range nh).foldl (fun v j => put v (n + nl + j) (v (n + nl - 1 + j) + dx))
    ((List.range nl).foldl (fun v j => put v (nl - 1 - j) (v (nl - j) - dx)) v)

/-- calc.py:695-703: repeat the edge values (`if nl:`, `if nh:`). -/
def holdLine (n nl nh : Nat) (v : Nat → K) : Nat → K :=
  let v1 := if nl = 0 then v else fun t => if t < nl then v nl else v t
  if nh = 0 then v1 else fun t => if n + nl ≤ t then v1 (n + nl - 1) else v1 t

/-- calc.py:713-723: linear extrapolation, one cell at a time. -/
def extrapLine (n nl nh : Nat) (v : Nat → K) : Nat → K :=
  (List.range nh).foldl (fun v j => put v (n + nl + j) (2 * v (n + nl + j - 1) - v (n + nl + j - 2)))
    ((List.range nl).foldl (fun v j => put v (nl - j - 1) (2 * v (nl - j) - v (nl - j + 1))) v)

/-- calc.py:685-728: the choice of branch for one axis of length n. -/
def extLine (order : Int) (dx : K) (n nl nh : Nat) : Except Err ((Nat → K) → (Nat → K)) :=
  if n < 2 ∧ dx ≠ 0 then .ok (stepLine dx n nl nh)
  else if order = 0 then .ok (holdLine n nl nh)
  else if n < 2 then .ok (stepLine dx n nl nh)
  else if order = 1 then .ok (extrapLine n nl nh)
  else .error .value

/-- The assignments of calc.py:685-728 use full slices on every other axis, so they act on each line of
the array along the axis separately. -/
def lineWise {d : Nat} (ax : Fin d) (g : (Nat → K) → (Nat → K)) (v : (Fin d → Nat) → K) : (Fin d → Nat) → K :=
  fun idx => g (fun t => v (Function.update idx ax t)) (idx ax)

/-- calc.py:667-677: zeros of the target shape with the input in the interior. -/
def pad {d : Nat} (shape : Fin d → Nat) (nl : Nat) (axes : List (Fin d)) (arr : (Fin d → Nat) → K) :
    (Fin d → Nat) → K :=
  fun idx =>
    if ∀ i ∈ axes, nl ≤ idx i ∧ idx i < nl + shape i then arr (fun i => if i ∈ axes then idx i - nl else idx i)
    else 0

/-- The `axes` argument: the default string 'all', or a list of axis numbers in range. -/
inductive Axes (d : Nat)
  | all
  | some (l : List (Fin d))

/-- calc.py:641-731 extend_boundaries_ndarr without component axis: new shape and values.  With the
default axes='all' the test `i in axes` looks for an integer in a string (TypeError). -/
def extendArr {d : Nat} (shape : Fin d → Nat) (arr : (Fin d → Nat) → K) (nl nh : Nat) (axes : Axes d) (order : Int)
    (dx : K) : Except Err ((Fin d → Nat) × ((Fin d → Nat) → K)) :=
  match axes with
  | .all => .error .type
  | .some l =>
    match l.foldlM (fun v ax => (extLine order dx (shape ax) nl nh).map fun g => lineWise ax g v)
        (pad shape nl l arr) with
    | .error e => .error e
    | .ok v => .ok (fun i => if i ∈ l then shape i + nl + nh else shape i, v)

/-- calc.py:663-664: axis numbers of a vector field, whose components are along axis c of the array. -/
def shiftAxes {d : Nat} (c : Fin (d + 1)) (axes : List (Fin d)) : List (Fin (d + 1)) :=
  axes.map fun ax => if ax.castSucc < c then ax.castSucc else ax.succ

/-- Where the values of a field live. -/
inductive Center
  | cell | node | face | edge
  deriving Repr, DecidableEq

/-- A three-dimensional rectilinear field: the number of values per axis, the coordinates of these values
along each axis (get_crds_cc or get_crds_nc according to the centering), and nc components. -/
structure Fld (K : Type) (nc : Nat) where
  center : Center
  n : Fin 3 → Nat
  crd : Fin 3 → Nat → K
  dat : Fin nc → (Fin 3 → Nat) → K

/-- calc.py:733-807 extend_boundaries(fld, order=0, crd_order=0) with the defaults nl = nh = 1,
invarient_dx = 0, crd_invarient_dx = 1 and all three axes, seen at the values of the field. -/
def extend0 {nc : Nat} (f : Fld K nc) : Fld K nc where
  center := f.center
  n := fun a => f.n a + 2
  crd := fun a t =>
    match extendArr (d := 1) (fun _ => f.n a) (fun i => f.crd a (i 0)) 1 1 (.some [0]) 0 1 with
    | .ok (_, v) => v ![t]
    | .error _ => 0
  dat := fun m idx =>
    match extendArr f.n (f.dat m) 1 1 (.some [0, 1, 2]) 0 0 with
    | .ok (_, v) => v idx
    | .error _ => 0

/-- Slices like `v[2:, 1:-1, 1:-1]`. -/
def at3 (v : (Fin 3 → Nat) → K) (p q r : Nat) (idx : Fin 3 → Nat) : K := v ![idx 0 + p, idx 1 + q, idx 2 + r]

/-- `(vxp - vxm) / (xp - xm)`: calc.py:231-240 -/
def dX (c : Fin 3 → Nat → K) (v : (Fin 3 → Nat) → K) (idx : Fin 3 → Nat) : K :=
  (at3 v 2 1 1 idx - at3 v 0 1 1 idx) / (c 0 (idx 0 + 2) - c 0 (idx 0))
def dY (c : Fin 3 → Nat → K) (v : (Fin 3 → Nat) → K) (idx : Fin 3 → Nat) : K :=
  (at3 v 1 2 1 idx - at3 v 1 0 1 idx) / (c 1 (idx 1 + 2) - c 1 (idx 1))
def dZ (c : Fin 3 → Nat → K) (v : (Fin 3 → Nat) → K) (idx : Fin 3 → Nat) : K :=
  (at3 v 1 1 2 idx - at3 v 1 1 0 idx) / (c 2 (idx 2 + 2) - c 2 (idx 2))

/-- The field that is differenced. -/
def prep {nc : Nat} (f : Fld K nc) (bnd : Bool) : Fld K nc := if bnd then extend0 f else f

/-- calc.py:210-243 _grad_np, necalc.py:137-170.  The result array is allocated by `viscid.zeros`, which is
cell centred: for a node-centred field it is one shorter than the differences along every axis with at
least two values, and the assignment raises ValueError.
The coordinates of the result are those of `fld[1:-1, ...]`; for cell-centred fields the code keeps the
nodes and takes the centres to be their midpoints. -/
def grad (f : Fld K 1) (bnd : Bool) : Except Err (Fld K 3) :=
  let e := prep f bnd
  match e.center with
  | .cell => .ok ⟨.cell, fun a => e.n a - 2, fun a t => e.crd a (t + 1),
      ![dX e.crd (e.dat 0), dY e.crd (e.dat 0), dZ e.crd (e.dat 0)]⟩
  | .node =>
    if ∃ a, 2 ≤ e.n a - 2 then .error .value
    else .ok ⟨.cell, fun a => e.n a - 2, fun a t => e.crd a (t + 1),
      ![dX e.crd (e.dat 0), dY e.crd (e.dat 0), dZ e.crd (e.dat 0)]⟩
  | _ => .error .notImplemented

/-- calc.py:245-281 _div_np, necalc.py:172-207, for cell- and node-centred fields (face-centred fields go
to div_fc, see Model/Ecfc.lean; here they count as not implemented). -/
def div (f : Fld K 3) (bnd : Bool) : Except Err (Fld K 1) :=
  let e := prep f bnd
  match e.center with
  | .cell | .node => .ok ⟨e.center, fun a => e.n a - 2, fun a t => e.crd a (t + 1),
      fun _ idx => dX e.crd (e.dat 0) idx + dY e.crd (e.dat 1) idx + dZ e.crd (e.dat 2) idx⟩
  | _ => .error .notImplemented

/-- calc.py:283-324 _curl_np, necalc.py:209-252. -/
def curl (f : Fld K 3) (bnd : Bool) : Except Err (Fld K 3) :=
  let e := prep f bnd
  match e.center with
  | .cell | .node => .ok ⟨e.center, fun a => e.n a - 2, fun a t => e.crd a (t + 1),
      ![fun idx => dY e.crd (e.dat 2) idx - dZ e.crd (e.dat 1) idx,
        fun idx => -dX e.crd (e.dat 2) idx + dZ e.crd (e.dat 0) idx,
        fun idx => dX e.crd (e.dat 1) idx - dY e.crd (e.dat 0) idx]⟩
  | _ => .error .notImplemented

/-- `b[jcmp]` -/
def comp (f : Fld K 3) (j : Fin 3) : Fld K 1 := ⟨f.center, f.n, f.crd, fun _ => f.dat j⟩

/-- calc.py:326-352 convective_deriv for a vector field b (b is a when it is None).  The result is allocated
cell centred on the grid of a; a field a that is not cell centred fails in the assignment. -/
def convDeriv (a b : Fld K 3) (bnd : Bool) : Except Err (Fld K 3) :=
  let e := prep b bnd
  match grad (comp e 0) false, grad (comp e 1) false, grad (comp e 2) false with
  | .ok g0, .ok g1, .ok g2 =>
    if a.center ≠ .cell then .error .value
    else
      let ai : Fin 3 → (Fin 3 → Nat) → K := fun i idx => if bnd then a.dat i idx else at3 (a.dat i) 1 1 1 idx
      .ok ⟨.cell, if bnd then a.n else fun x => a.n x - 2, if bnd then a.crd else fun x t => a.crd x (t + 1),
        fun j idx => 0 + ai 0 idx * (![g0, g1, g2] j).dat 0 idx + ai 1 idx * (![g0, g1, g2] j).dat 1 idx +
          ai 2 idx * (![g0, g1, g2] j).dat 2 idx⟩
  | .error e, _, _ => .error e
  | _, .error e, _ => .error e
  | _, _, .error e => .error e

end Viscid.Calc
