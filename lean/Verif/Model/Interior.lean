import Verif.Model.Select
import Verif.Spec.Slice
/-!
# Model of `viscid/sliceutil.py`: interior slices, and the ends of selections

As in `Model/Select.lean`, coordinates are rationals and axes of times are not modelled.
-/
namespace Viscid.Interior
open Viscid.FwdSlice (Slc)
open Viscid.Select (Bound startIdx stopIdx)

inductive Err
  | index
  | value
  | type
  | runtime
deriving DecidableEq, Repr

/-- `arr[i]`: negative indices count from the end, others raise IndexError -/
def pyGet (a : List ℚ) (i : Int) : Except Err ℚ :=
  match a[(if i < 0 then i + a.length else i).toNat]? with
  | some x => if i < -(a.length : Int) then .error .index else .ok x
  | none => .error .index

/-- sliceutil.py:694-708: the start is moved out by one if its value is not within -/
def adjStart (a : List ℚ) (u : Int) (v : Option ℚ) (start : Option Int) : Except Err (Option Int) :=
  match v, start with
  | some v, some s =>
    match pyGet a s with
    | .error e => .error e
    | .ok x =>
      if u > 0 ∧ x > v then .ok (if s = 0 then none else some (s - 1))
      else if u < 0 ∧ x < v then .ok (if s = -1 then none else some (s + 1))
      else .ok (some s)
  | _, s => .ok s

/-- sliceutil.py:710-726: so is the stop -/
def adjStop (a : List ℚ) (u : Int) (v : Option ℚ) (stop : Option Int) : Except Err (Option Int) :=
  match v, stop with
  | some v, some s =>
    if u > 0 then
      match pyGet a (if s = 0 then 0 else s - 1) with
      | .error e => .error e
      | .ok x => .ok (if x < v then (if s = -1 then none else some (s + 1)) else some s)
    else if u < 0 then
      match pyGet a (if s = -1 ∨ s = a.length then -1 else s + 1) with
      | .error e => .error e
      | .ok x => .ok (if x > v then (if s = 0 then none else some (s - 1)) else some s)
    else .ok (some s)
  | _, s => .ok s

/-- `arr[start:stop:step]` -/
def sub (a : List ℚ) (start stop : Option Int) (u : Int) : List ℚ :=
  (Spec.Slice.pyIndices a.length start stop u).map fun i => a.getD i.toNat 0

/-- `v` is neither below the one nor above the other end -/
def within (x y : ℚ) (v : Option ℚ) : Bool :=
  match v with
  | none => true
  | some v => !(decide (v < min x y) || decide (v > max x y))

/-- sliceutil.py:729-736: the check that the values are in the result. `subarr[0]` of nothing raises IndexError; a step of zero
    ValueError. -/
def verify (a : List ℚ) (v w : Option ℚ) (start stop : Option Int) (u : Int) : Except Err Unit :=
  if u = 0 then .error .value
  else
    match (sub a start stop u).head?, (sub a start stop u).getLast? with
    | some x, some y => if within x y v ∧ within x y w then .ok () else .error .runtime
    | _, _ => .error .index

/-- sliceutil.py:673-738 `_interiorize_slice` -/
def interiorize (a : List ℚ) (v w : Option ℚ) (start stop step : Option Int) : Except Err Slc :=
  let u := step.getD 1
  match adjStart a u v start with
  | .error e => .error e
  | .ok s =>
    match adjStop a u w stop with
    | .error e => .error e
    | .ok t =>
      match verify a v w s t u with
      | .error e => .error e
      | .ok () => .ok ⟨s, t, some u⟩

/-- the value of a bound, if it is one -/
def valOf : Bound → Option ℚ
  | .val v => some v
  | _ => none

/-- sliceutil.py:491-582 `std_sel2index` of a slice with `interior=True`, which sets `val_endpoint`. The slice without data that is
    returned early is not changed; `crd_arr[0]` of an empty axis raises IndexError. -/
def selInterior (a : List ℚ) (start stop : Bound) (step : Option Int) : Except Err Slc :=
  if a = [] ∧ ((valOf start).isSome ∨ (valOf stop).isSome) then .error .index
  else
    let u := step.getD 1
    match startIdx a u start with
    | none => .ok ⟨some 0, some 0, some u⟩
    | some s => interiorize a (valOf start) (valOf stop) s (stopIdx a true u stop) step

/-! ### `sel2values` -/

/-- what the ends can be -/
inductive End
  | val (q : ℚ)
  | ninf
  | pinf
  | nan
deriving DecidableEq, Repr

/-- sliceutil.py:778-794 and 796-812, one end of a slice. `first` is whether it is the start. A step of `None` cannot be compared to
    zero: TypeError; but it is not looked at if there is an index or a value. -/
def endOf (arr : Option (List ℚ)) (step : Option Int) (first : Bool) : Bound → Except Err End
  | .val v => .ok (.val v)
  | .idx i =>
    match arr with
    | none => .ok .nan
    | some a => (pyGet a i).map .val
  | .none =>
    match step with
    | none => .error .type
    | some u =>
      match arr with
      | none => if u > 0 then .ok (if first then .ninf else .pinf) else if u < 0 then .ok (if first then .pinf else .ninf) else .ok .nan
      | some a => (pyGet a (if decide (u > 0) = first then 0 else -1)).map .val

/-- sliceutil.py:753-825 `sel2values` of a standard slice -/
def sel2values (arr : Option (List ℚ)) (start stop : Bound) (step : Option Int) : Except Err (End × End) :=
  match endOf arr step true start with
  | .error e => .error e
  | .ok x =>
    match endOf arr step false stop with
    | .error e => .error e
    | .ok y => .ok (x, y)

/-- sliceutil.py:753-825 `sel2values` of a single standard selection -/
def sel2valuesOne (arr : Option (List ℚ)) : Bound → Except Err (End × End)
  | .none => .ok (.ninf, .pinf)
  | .val v => .ok (.val v, .val v)
  | .idx i =>
    match arr with
    | none => .ok (.nan, .nan)
    | some a => (pyGet a i).map fun x => (.val x, .val x)

end Viscid.Interior
