import Verif.Model.FwdSlice
import Mathlib.Algebra.Order.Ring.Rat
/-!
# Model of `viscid/sliceutil.py` std_sel2index: selection by value on one axis

Coordinates and values are rationals (floating point rounding not modelled); only floating point
axes are modelled, not datetime64 / timedelta64 ones.
-/
namespace Viscid.Select
open Viscid.FwdSlice (Slc)

inductive Err where
  | indexError | valueError
  deriving DecidableEq, Repr

/-- One bound of a standardised slice: absent, an index, or a value (imaginary number). -/
inductive Bound where
  | none | idx (i : Int) | val (v : ℚ)
  deriving DecidableEq, Repr

/-- numpy argmin of |d| over the entries not masked: first index (with its value) of the minimum;
`none` if everything is masked. -/
def argminKeep (keep : ℚ → Bool) : List ℚ → Option (Nat × ℚ)
  | [] => none
  | x :: xs =>
    match argminKeep keep xs with
    | none => if keep x then some (0, |x|) else none
    | some (j, m) => if keep x ∧ |x| ≤ m then some (0, |x|) else some (j + 1, m)

/-- MaskedArray.argmin: 0 if everything is masked. -/
def maskedArgmin (keep : ℚ → Bool) (d : List ℚ) : Nat := ((argminKeep keep d).map Prod.fst).getD 0

/-- `np.min(np.diff(arr))` -/
def minDiff : List ℚ → ℚ
  | [] => 0
  | [_] => 0
  | [x, y] => y - x
  | x :: y :: z :: r => min (y - x) (minDiff (y :: z :: r))

/-- sliceutil.py:656-660: tolerance for floating point axes. -/
def tolOf (a : List ℚ) : ℚ := if a.length > 1 then minDiff a / 10000 else 1

/-- sliceutil.py:513-538: index of the start; `none` in the first component = `return slice(0,0,ustep)`. -/
def startIdx (a : List ℚ) (u : Int) : Bound → Option (Option Int)
  | .none => some none
  | .idx i => some (some i)
  | .val v =>
    let diff := a.map fun x => x - v + tolOf a * (u.sign : Int)
    let keep : ℚ → Bool := if u > 0 then fun d => decide (¬ d < 0) else fun d => decide (¬ d > 0)
    if (argminKeep keep diff).isNone then
      if u > 0 then some (some a.length) else none
    else some (some (maskedArgmin keep diff))

/-- sliceutil.py:540-575: index of the stop. -/
def stopIdx (a : List ℚ) (valEndpoint : Bool) (u : Int) : Bound → Option Int
  | .none => none
  | .idx i => some i
  | .val v =>
    let diff := a.map fun x => x - v - tolOf a * (u.sign : Int)
    let keep : ℚ → Bool := if u > 0 then fun d => decide (¬ d > 0) else fun d => decide (¬ d < 0)
    if u > 0 then
      if v < a.headD 0 then some 0
      else if valEndpoint then some (maskedArgmin keep diff + 1) else some (maskedArgmin keep diff)
    else
      if v > a.getLastD 0 then some a.length
      else
        let ustop := maskedArgmin keep diff
        if valEndpoint then (if ustop > 0 then some (ustop - 1) else none) else some ustop

/-- sliceutil.py:501-582 (interior=False), the slice branch of std_sel2index. `crd_arr[0]`
(sliceutil.py:625) raises IndexError on an empty axis when a value is given. -/
def selSlice (a : List ℚ) (valEndpoint : Bool) (start stop : Bound) (step : Option Int) : Except Err Slc :=
  let isVal : Bound → Bool := fun b => match b with | .val _ => true | _ => false
  if a = [] ∧ (isVal start ∨ isVal stop) then .error .indexError
  else
    let u := step.getD 1
    match startIdx a u start with
    | none => .ok ⟨some 0, some 0, some u⟩
    | some st => .ok ⟨st, stopIdx a valEndpoint u stop, step⟩

/-- sliceutil.py:584-597: a single value: argmin |arr - v|; empty axis raises. -/
def selValue (a : List ℚ) (v : ℚ) : Except Err Nat :=
  if a = [] then .error .indexError
  else .ok (maskedArgmin (fun _ => true) (a.map fun x => x - v))

end Viscid.Select
