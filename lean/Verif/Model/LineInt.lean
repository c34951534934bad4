import Verif.Model.Basic
import Mathlib.Algebra.Field.Basic
/-!
# Model of `viscid/calculator/calc.py`: integrate_along_lines

Numbers are elements of a field K.  `nrm` is the Euclidean norm (a square root, so it is a parameter here and
the real one in the statements that need it).  The interpolated field is a function of the vertex: `viscid.interp` works
vertex by vertex (Model/Interp.lean, C17 and C18: its cache does not change values).
-/
namespace Viscid.LineInt

variable {K : Type} [Field K] [DecidableEq K]

/-- A vertex or vector. -/
abbrev V (K : Type) := K × K × K

def sub (a b : V K) : V K := (a.1 - b.1, a.2.1 - b.2.1, a.2.2 - b.2.2)

inductive Err
  | value | type
  deriving Repr, DecidableEq

/-- numpy `a[start:stop]` with start ≥ 0; stop may be negative (then it counts from the end). -/
def slice {α : Type} (a : List α) (start : Nat) (stop : Int) : List α :=
  (a.take (if 0 ≤ stop then stop.toNat else (a.length + stop).toNat)).drop start

/-- numpy binary operation on one-dimensional arrays, with broadcasting of length one. -/
def bcast {α β γ : Type} (f : α → β → γ) (a : List α) (b : List β) : Except Err (List γ) :=
  if a.length = b.length then .ok (List.zipWith f a b)
  else match a, b with
    | [x], b => .ok (b.map (f x))
    | a, [y] => .ok (a.map fun x => f x y)
    | _, _ => .error .value

/-- Segments: `line[:, 1:] - line[:, :-1]` (calc.py:479, 484). -/
def segs (line : List (V K)) : List (V K) := List.zipWith sub line.tail line.dropLast

/-- The field: scalar or vector (the test `len(fld_on_verts.shape) > 1`, calc.py:481). -/
inductive Fld (K : Type)
  | scalar (f : V K → K)
  | vector (f : V K → V K)

/-- The reduction after strip and lower (calc.py:482). -/
inductive Red
  | dot | mag | other
  deriving Repr, DecidableEq

/-- Addition of numbers that may be nan (`none`). -/
def addNan : Option K → Option K → Option K
  | some s, some v => some (s + v)
  | _, _ => none

/-- calc.py:499: `np.sum(values * ds)`.  A value is `none` when it is nan; a sum with a nan is nan. -/
def total (values : List (Option K)) (ds : List K) : Except Err (Option K) :=
  match bcast (fun (v : Option K) (d : K) => v.map (· * d)) values ds with
  | .error e => .error e
  | .ok l => .ok (l.foldl addNan (some 0))

/-- calc.py:478-499, one line: its vertices, and its range in the concatenated vertices.  No mask function. -/
def oneLine (nrm : V K → K) (fld : Fld K) (red : Red) (all : List (V K)) (line : List (V K)) (start stop : Nat) :
    Except Err (Option K) :=
  let ds := (segs line).map nrm
  match fld with
  | .scalar f =>
    let fv := all.map f
    match bcast (fun a b => (1 / 2) * (a + b)) (slice fv start ((stop : Int) - 1)) (slice fv (start + 1) stop) with
    | .error e => .error e
    | .ok vs => total (vs.map some) ds
  | .vector f =>
    let fv := all.map f
    match red with
    | .dot =>
      -- `dsvec / norm(dsvec)` is nan for a segment of length zero
      let unit := (segs line).map fun d => if nrm d = 0 then none else some (d.1 / nrm d, d.2.1 / nrm d, d.2.2 / nrm d)
      match bcast (fun (a b : V K) => ((1 / 2) * (a.1 + b.1), (1 / 2) * (a.2.1 + b.2.1), (1 / 2) * (a.2.2 + b.2.2)))
          (slice fv start ((stop : Int) - 1)) (slice fv (start + 1) stop) with
      | .error e => .error e
      | .ok vs =>
        match bcast (fun (v : V K) (u : Option (V K)) => u.map fun u => v.1 * u.1 + v.2.1 * u.2.1 + v.2.2 * u.2.2) vs unit with
        | .error e => .error e
        | .ok ws => total ws ds
    | .mag =>
      -- calc.py:492-493: the slice is already taken, and is sliced again with the same offsets
      let mag := (slice fv start stop).map nrm
      match bcast (fun a b => (1 / 2) * (a + b)) (slice mag start ((stop : Int) - 1)) (slice mag (start + 1) stop) with
      | .error e => .error e
      | .ok vs => total (vs.map some) ds
    | .other => .error .value

/-- calc.py:472-476: the loop over the lines with their ranges (cum_n). -/
def loop (nrm : V K → K) (fld : Fld K) (red : Red) (all : List (V K)) : Nat → List (List (V K)) → Except Err (List (Option K))
  | _, [] => .ok []
  | start, line :: rest =>
    match oneLine nrm fld red all line start (start + line.length) with
    | .error e => .error e
    | .ok v =>
      match loop nrm fld red all (start + line.length) rest with
      | .error e => .error e
      | .ok vs => .ok (v :: vs)

/-- calc.py:454-501 integrate_along_lines; concatenating no lines raises ValueError. -/
def integrate (nrm : V K → K) (fld : Fld K) (red : Red) (lines : List (List (V K))) : Except Err (List (Option K)) :=
  match lines with
  | [] => .error .value
  | _ => loop nrm fld red lines.flatten 0 lines

end Viscid.LineInt
