import Verif.Model.A2b
/-!
# `viscid/rotation.py`: arrays that functions of rotations change in place

An array is memory with a type of numbers; a list is made into a new array, as is an array of other numbers than doubles. References
are positions in a list of arrays.
-/
namespace Viscid.A2bHeap
open Viscid.Rotation Viscid.RotStack Viscid.A2b
open Viscid.Euler (Unit')

noncomputable section

/-- an array of vectors: whether its numbers are doubles, whether it is one vector with shape (3,), its rows (`none` is nan) -/
structure Buf where
  dbl : Bool
  single : Bool
  rows : List (Option V3)

abbrev Heap := List Buf

/-- `np.asarray(x, dtype=np.double)`: the array itself if it has doubles, else a new one -/
def asDouble (h : Heap) (p : Nat) : Heap × Nat :=
  match h[p]? with
  | some b => if b.dbl then (h, p) else (h ++ [{ b with dbl := true }], h.length)
  | none => (h, p)

def unitR (v : Option V3) : Option V3 := v.bind unitO

/-- rotation.py:1305, 1306 `a /= np.linalg.norm(a, axis=1).reshape(-1, 1)`, in the memory of `a` (`np.atleast_2d` does not copy) -/
def normalise (h : Heap) (p : Nat) : Heap :=
  match h[p]? with
  | some b => h.set p { b with rows := b.rows.map unitR }
  | none => h

structure Call where
  a : Nat
  b : Nat
  roll : Stk ℝ
  unit : Unit'
  newx : Option (List V3)

/-- rotation.py:1296-1350 `a2b_rot` of arrays in memory -/
def run (h : Heap) (c : Call) : Heap × Option (Except A2b.Err (Stk (Option M3))) :=
  let r := asDouble h c.a
  let s := asDouble r.1 c.b
  let h := normalise s.1 r.2
  let h := normalise h s.2
  (h, match h[r.2]?, h[s.2]? with
    | some a, some b => some (a2bOn (a.single && b.single && c.roll.single) a.rows b.rows c.roll.list c.unit c.newx)
    | _, _ => none)

/-- calls one after the other -/
def runAll (h : Heap) : List Call → Heap × List (Option (Except A2b.Err (Stk (Option M3))))
  | [] => (h, [])
  | c :: cs => let r := run h c; let s := runAll r.1 cs; (s.1, r.2 :: s.2)

/-! ### quaternions -/

/-- an array of quaternions: of doubles, or of integers from 0 to 2^52 - 1 (64 bits) -/
inductive QArr
  | dbl (single : Bool) (rows : List Quat)
  | ints (single : Bool) (rows : List (Fin 4 → Fin (2 ^ 52)))

/-- `q.view(dtype=np.double)`: the bits of the integer as bits of a double: such an integer is the fraction of a denormal number -/
def viewed (k : Fin (2 ^ 52)) : ℝ := (k : ℝ) / 2 ^ 1074

def viewedQ (q : Fin 4 → Fin (2 ^ 52)) : Quat := ⟨viewed (q 0), viewed (q 1), viewed (q 2), viewed (q 3)⟩

/-- rotation.py:761-802 `quat2rot`: the array afterwards, and the matrices. Integers are not written back: seen as doubles they are too
small to be divided by their norm -/
def quat2rot : QArr → QArr × Except RotStack.Err (Stk M3)
  | .dbl single rows => (.dbl single (rows.map renorm), close single ((rows.map renorm).map rotOf))
  | .ints single rows => (.ints single rows, close single ((rows.map fun q => renorm (viewedQ q)).map rotOf))

end

end Viscid.A2bHeap
