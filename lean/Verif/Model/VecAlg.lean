import Verif.Model.Arith
import Mathlib.Analysis.SpecialFunctions.Pow.Real
/-!
# Model of the algebra of vector fields

`viscid/calculator/calc.py` and `viscid/calculator/necalc.py`: `magnitude`, `dot`, `cross`, `project`, `normalize` and `project_vector` with the two
backends, on top of the model of fields, arrays, `wrap` and reductions in `Verif.Model.Arith`. Numbers are real numbers: rounding, types of numbers and nan
are not modelled, so division by zero is only used in theorems that exclude it. Names are only modelled in so far as setting one fails. numexpr broadcasts
like numpy.
-/
namespace Viscid.VecAlg
open Viscid.Arith
open Viscid.Layout (Arr prod)

/-- the two backends with all of these operations (calc.py:142-162, 164-208) -/
inductive Backend
  | numexpr
  | numpy
deriving DecidableEq, Repr

/-- exceptions of the choice of a backend (calc.py:66-88) -/
inductive ImpExc
  | backendNotFound
deriving DecidableEq, Repr

/-- `Operation.default_backends`, calc.py:41 -/
def defaultBackends : List String := ["numexpr", "cython", "numpy"]

/-- `preferred`: nothing, a name or a list of names (calc.py:66-71) -/
inductive Preferred
  | none
  | name (s : String)
  | names (l : List String)

/-- calc.py:66-88 `_get_imp`; `imps` are the implementations in the order they were added (adding one of the same name again replaces it in its place) -/
def getImp (imps : List (String × ι)) (preferred : Preferred) (only : Bool) : Except ImpExc ι :=
  let pref := match preferred with
    | .none => imps.map Prod.fst
    | .name s => [s]
    | .names l => l
  match pref.findSome? (fun n => imps.lookup n) with
  | some i => .ok i
  | none =>
    if only then .error .backendNotFound
    else
      match defaultBackends.findSome? (fun n => imps.lookup n) with
      | some i => .ok i
      | none =>
        match imps.head? with
        | none => .error .backendNotFound
        | some i => .ok i.2

/-- `_DEFAULT_COMPONENT_NAMES = "xyzuvw"`, field.py:33 -/
def nrNames : Nat := 6

/-- `component_views()`, field.py:2320-2339: more components than names are an IndexError -/
def components (f : Fld ℝ) : Except Exc (List (Arr ℝ)) := do
  let n ← f.nrComps
  let k ← f.nrComp
  let a ← f.data
  if n > nrNames then .error .index
  else .ok ((List.range n).map fun i => ⟨a.shape.eraseIdx (k.getD 0), fun idx => a.get (idx.insertIdx (k.getD 0) i)⟩)

/-- `vx, vy, vz = fld.component_views()`: ValueError unless there are three -/
def xyz (f : Fld ℝ) : Except Exc (Arr ℝ × Arr ℝ × Arr ℝ) := do
  match ← components f with
  | [x, y, z] => .ok (x, y, z)
  | _ => .error .value

/-- `wrap(arr, fldtype="Scalar")`, field.py:1814-1893 -/
def wrapScalar (f : Fld ℝ) (arr : Arr ℝ) : Ret ℝ :=
  if prod arr.shape = 1 then .number (arr.get (arr.shape.map fun _ => 0)) else .field ⟨f.axes, f.center, false, .default, arr⟩

/-- `wrap(arr, fldtype="Vector")`, field.py:1814-1893 -/
def wrapVector (f : Fld ℝ) (arr : Arr ℝ) : Except Exc (Ret ℝ) :=
  if prod arr.shape = 1 then .ok (.number (arr.get (arr.shape.map fun _ => 0)))
  else
    let g : Fld ℝ := ⟨f.axes, f.center, true, .default, arr⟩
    do
      if (← g.nrComps) = 1 then .ok (.field (← g.comp0)) else .ok (.field g)

/-- `fld.as_flat().data`, field.py:2341-2375 -/
def flatData (f : Fld ℝ) : Except Exc (Arr ℝ) :=
  if f.layout = .flat then f.data
  else do
    let a ← f.data
    (Fld.mk f.axes f.center true .flat a : Fld ℝ).data

/-- `wrap` of a list of three arrays, which are the components (field.py:1866-1893; there is no `size` of a list) -/
def wrapList (f : Fld ℝ) (x y z : Arr ℝ) : Except Exc (Ret ℝ) :=
  if x.shape = y.shape ∧ x.shape = z.shape then
    .ok (.field ⟨f.axes, f.center, true, .default, ⟨3 :: x.shape, fun idx => ([x, y, z].getD (idx.headD 0) x).get idx.tail⟩⟩)
  else .error .value

/-- the field, if the result of an operation is used as one -/
def asField : Ret ℝ → Except Exc (Fld ℝ)
  | .number _ => .error .attribute
  | .field f => .ok f

/-- `np.sum(a * b, axis=k)` with the axis of the components of `c` (calc.py:178, 183-184, 197) -/
def sumProd (a b c : Fld ℝ) : Except Exc (Ret ℝ) := do
  let p ← asField (← a.op (· * ·) b)
  let k ← c.nrComp
  match k with
  | none => .error .attribute
  | some k => p.reduce List.sum (k : Int) none

/-- a ufunc of what an operation returned -/
def ufunc (g : ℝ → ℝ) : Ret ℝ → Except Exc (Ret ℝ)
  | .number x => .ok (.number (g x))
  | .field f => f.op1 g

/-- division of what operations returned -/
noncomputable def divide : Ret ℝ → Ret ℝ → Except Exc (Ret ℝ)
  | .number x, .number y => .ok (.number (x / y))
  | .number x, .field g => g.opArr (fun u v => v / u) ⟨[], fun _ => x⟩
  | .field f, .number y => f.opArr (· / ·) ⟨[], fun _ => y⟩
  | .field f, .field g => f.op (· / ·) g

/-- calc.py:176-178 `_magnitude_np` -/
noncomputable def magnitudeNp (f : Fld ℝ) : Except Exc (Ret ℝ) := do
  ufunc Real.sqrt (← sumProd f f f)

/-- calc.py:181-184 `_project_np` -/
noncomputable def projectNp (a b : Fld ℝ) : Except Exc (Ret ℝ) := do
  divide (← sumProd a b b) (← ufunc Real.sqrt (← sumProd b b b))

/-- calc.py:187-191 `_normalize_np`: the norm is an array, and has one component after `reshape` -/
noncomputable def normalizeNp (a : Fld ℝ) : Except Exc (Ret ℝ) := do
  let d ← a.data
  let k ← a.nrComp
  match k with
  | none => .error .attribute
  | some k => a.opArr (· / ·) (reduceArr (fun l => Real.sqrt (l.map fun x => x * x).sum) k true d)

/-- calc.py:194-198 `_dot_np` -/
def dotNp (a b : Fld ℝ) : Except Exc (Ret ℝ) := do
  if (← a.nrComp) ≠ (← b.nrComp) then .error .value
  else sumProd a b a

/-- the sum of the products of components, necalc.py:103, 126 -/
def dotArr (a b : Arr ℝ × Arr ℝ × Arr ℝ) : Except Exc (Arr ℝ) := do
  apply (· + ·) (← apply (· + ·) (← apply (· * ·) a.1 b.1) (← apply (· * ·) a.2.1 b.2.1)) (← apply (· * ·) a.2.2 b.2.2)

/-- a function of the numbers of an array -/
def mapArr (g : ℝ → ℝ) (a : Arr ℝ) : Arr ℝ := ⟨a.shape, fun idx => g (a.get idx)⟩

/-- calc.py:201-208 `_cross_np` and necalc.py:106-113 `cross`: the components of the result come first -/
def cross (a b : Fld ℝ) : Except Exc (Ret ℝ) := do
  let (ax, ay, az) ← xyz a
  let (bx, by', bz) ← xyz b
  let x ← apply (· - ·) (← apply (· * ·) ay bz) (← apply (· * ·) az by')
  let y ← apply (· + ·) (← apply (· * ·) (mapArr (- ·) ax) bz) (← apply (· * ·) az bx)
  let z ← apply (· - ·) (← apply (· * ·) ax by') (← apply (· * ·) ay bx)
  wrapList a x y z

/-- necalc.py:94-97 `magnitude` -/
noncomputable def magnitudeNe (f : Fld ℝ) : Except Exc (Ret ℝ) := do
  let v ← xyz f
  .ok (wrapScalar f (mapArr Real.sqrt (← dotArr v v)))

/-- necalc.py:99-104 `dot` -/
def dotNe (a b : Fld ℝ) : Except Exc (Ret ℝ) := do
  let v ← xyz a
  let w ← xyz b
  .ok (wrapScalar a (← dotArr v w))

/-- necalc.py:115-128 `project` -/
noncomputable def projectNe (a b : Fld ℝ) : Except Exc (Ret ℝ) := do
  let v ← xyz a
  let w ← xyz b
  .ok (wrapScalar a (← apply (· / ·) (← dotArr v w) (mapArr Real.sqrt (← dotArr w w))))

/-- necalc.py:130-135 `normalize` -/
noncomputable def normalizeNe (a : Fld ℝ) : Except Exc (Ret ℝ) := do
  let d ← flatData a
  let v ← xyz a
  wrapVector a (← apply (· / ·) d (mapArr Real.sqrt (← dotArr v v)))

/-- the end of `UnaryOperation.__call__` and `BinaryOperation.__call__` (calc.py:98-116): numbers have no attribute `name` that can be set -/
def named (r : Except Exc (Ret ℝ)) : Except Exc (Ret ℝ) :=
  match r with
  | .error e => .error e
  | .ok (.number _) => .error .attribute
  | .ok (.field f) => .ok (.field f)

/-- `viscid.magnitude` -/
noncomputable def magnitude : Backend → Fld ℝ → Except Exc (Ret ℝ)
  | .numexpr, f => named (magnitudeNe f)
  | .numpy, f => named (magnitudeNp f)

/-- `viscid.dot` -/
def dot : Backend → Fld ℝ → Fld ℝ → Except Exc (Ret ℝ)
  | .numexpr, a, b => named (dotNe a b)
  | .numpy, a, b => named (dotNp a b)

/-- `viscid.project` -/
noncomputable def project : Backend → Fld ℝ → Fld ℝ → Except Exc (Ret ℝ)
  | .numexpr, a, b => named (projectNe a b)
  | .numpy, a, b => named (projectNp a b)

/-- `viscid.normalize` -/
noncomputable def normalize : Backend → Fld ℝ → Except Exc (Ret ℝ)
  | .numexpr, a => named (normalizeNe a)
  | .numpy, a => named (normalizeNp a)

/-- calc.py:367-373 `project_vector` -/
noncomputable def projectVector (k : Backend) (a b : Fld ℝ) : Except Exc (Ret ℝ) := do
  let n ← asField (← normalize k b)
  match ← project k a n with
  | .number x => n.opArr (fun u v => v * u) ⟨[], fun _ => x⟩
  | .field p => p.op (· * ·) n

end Viscid.VecAlg
