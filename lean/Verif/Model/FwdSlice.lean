import Verif.Model.Basic
/-!
# Model of `viscid/sliceutil.py` make_fwd_slice, one dimension

The loop body of make_fwd_slice (lines 909-975) for one dimension of length `L`.  The newaxis
bookkeeping around it (lines 897-900, 970-979) only inserts and removes list entries and is not
modelled.
-/
namespace Viscid.FwdSlice

inductive Err where
  | indexError | assertionError | zeroDivision
  deriving DecidableEq, Repr

/-- A Python slice object. -/
structure Slc where
  start : Option Int
  stop : Option Int
  step : Option Int
  deriving DecidableEq, Repr

/-- sliceutil.py:914-917: one pass of adding `L` to a negative bound. -/
def norm (L v : Int) : Int := if v < 0 then v + L else v

/-- sliceutil.py:931-957, the flipping arithmetic on the normalised `start`, `stop`.  Result:
start, stop, step of the first slice and whether the second slice is `[::-1]`. Python's `%` with a
positive right operand is `Int.emod`. -/
def flipMath (L : Int) (slc : Slc) (rev : Bool) (start stop step : Int) :
    Except Err (Int × Option Int × Int × Bool) :=
  if rev then
    if step < 0 then
      let step := -step
      let start := if slc.start.isNone then L - 1 else start
      if slc.stop.isNone then .ok (L - 1 - start, none, step, false)
      else .ok (L - 1 - start, some (L - 1 - stop), step, false)
    else if step = 0 then .error .zeroDivision
    else
      let start' := L - stop
      let stop' := L - start
      .ok (start' + ((stop' - 1 - start') % step), some stop', step, true)
  else if step < 0 then
    let step := -step
    let start := if slc.start.isNone then L - 1 else start
    if slc.stop.isNone then
      let start' := 0
      let stop' := start + 1
      .ok ((stop' - 1 - start') % step, some stop', step, true)
    else
      let start' := stop + 1
      let stop' := start + 1
      .ok (start' + ((stop' - 1 - start') % step), some stop', step, true)
  else .ok (start, some stop, step, false)

/-- sliceutil.py:960-966, the closing assertions and the new slice. -/
def finish (L : Int) (start : Int) (stop : Option Int) (step : Int) (flip : Bool) : Except Err (Slc × Bool) :=
  if ¬ (start ≥ 0 ∧ start ≤ L) then .error .assertionError
  else if ¬ (stop.isNone ∨ (start = 0 ∧ stop = some 0) ∨ start < stop.getD 0) then .error .assertionError
  else if ¬ step > 0 then .error .assertionError
  else .ok (⟨some start, stop, some step⟩, flip)

/-- sliceutil.py:909-966, the `isinstance(slc, slice)` branch. -/
def makeFwd (L : Int) (slc : Slc) (rev : Bool) : Except Err (Slc × Bool) :=
  -- 911-917
  let step := slc.step.getD 1
  let start := norm L (slc.start.getD 0)
  let stop := norm L (slc.stop.getD L)
  -- 921-926
  if start < 0 ∨ stop < 0 then .error .indexError
  else if start > L ∨ stop > L then .error .indexError
  else
    match flipMath L slc rev start stop step with
    | .error e => .error e
    | .ok (start, stop, step, flip) => finish L start stop step flip

/-- sliceutil.py:968-971, the integer branch: the index used on the array. -/
def fwdInt (L : Int) (i : Int) (rev : Bool) : Int := if rev then (L - 1) - i else i

end Viscid.FwdSlice
