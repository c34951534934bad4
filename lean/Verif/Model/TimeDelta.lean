import Verif.Model.NpTime
import Mathlib.Data.Rat.Floor
/-!
# Model of `as_timedelta64` in `viscid/npdatetime.py`, of numbers and strings

Floating point numbers are rationals (rounding and nan are not modelled).
-/
namespace Viscid.TimeDelta
open Viscid.NpTime (U Time Err units)

/-- `np.round`: to the nearest integer, half to even -/
def nint (x : ℚ) : Int :=
  let f := ⌊x⌋
  if x - f < 1 / 2 then f else if x - f > 1 / 2 then f + 1 else if f % 2 = 0 then f else f + 1

/-- `np.isclose(a, b, rtol=1e-4, atol=1e-18)` -/
def isclose (a b : ℚ) : Bool := decide (|a - b| ≤ 1 / 10 ^ 18 + 1 / 10 ^ 4 * |b|)

/-- npdatetime.py:67 `TIME_UNITS` -/
def timeUnits : List U := [.as, .fs, .ps, .ns, .us, .ms, .s, .m, .h]

/-- npdatetime.py:68 `TIME_SCALE` -/
def timeScale : List ℚ := [1000, 1000, 1000, 1000, 1000, 1000, 60, 60]

/-- npdatetime.py:169-177, the loop: `idx` is `unit_idx`. The number, and the index of its unit. -/
def settle : Nat → ℚ → Except Err (Int × Nat)
  | 0, t => if isclose t (nint t) then .ok (nint t, 0) else .error .value
  | i + 1, t => if isclose t (nint t) then .ok (nint t, i + 1) else settle i (t * timeScale.getD i 0)

/-- npdatetime.py:167-180: a number of `unit`s. `TIME_UNITS.index` raises ValueError for days and weeks, numpy OverflowError
    for numbers of more than 64 bits. -/
def ofNumber (t : ℚ) (unit : U) : Except Err Time :=
  if unit ∉ timeUnits then .error .value
  else
    match settle (timeUnits.idxOf unit) t with
    | .error e => .error e
    | .ok (n, i) =>
      if -2 ^ 63 < n ∧ n < 2 ^ 63 then .ok ⟨true, timeUnits.getD i .as, some n⟩ else .error .overflow

/-- `str.split(':')` -/
def splitColon : List Char → List (List Char)
  | [] => [[]]
  | c :: cs => if c = ':' then [] :: splitColon cs else
    match splitColon cs with
    | [] => [[c]]
    | f :: fs => (c :: f) :: fs

/-- npdatetime.py:155: `float` of every field, which may raise ValueError -/
def floats (float : List Char → Option ℚ) : List (List Char) → Option (List ℚ)
  | [] => some []
  | f :: fs => match float f, floats float fs with
    | some x, some xs => some (x :: xs)
    | _, _ => none

/-- npdatetime.py:154-164: a string becomes a number of seconds, whatever the `unit`. `float` is Python's. -/
def ofString (float : List Char → Option ℚ) (s : List Char) (unit : Option U) : Except Err Time :=
  match floats float (splitColon (s.dropWhile (· = 'T'))) with
  | none => .error .value
  | some time =>
    if 1 < time.length ∧ unit ≠ none then .error .value
    else if 3 < time.length then .error .value
    else ofNumber ((List.zipWith (· * ·) [1, 60, 60 * 60] time.reverse).sum) .s

/-- npdatetime.py:265-280 `as_timedelta64`, of a number or a string -/
def asTimedelta64 (float : List Char → Option ℚ) (time : ℚ ⊕ List Char) (unit : Option U) : Except Err Time :=
  match time with
  | .inl t => ofNumber t (unit.getD .s)
  | .inr s => ofString float s unit

/-- `np.round(x, decimals)` -/
def roundTo (x : ℚ) (decimals : Nat) : ℚ := nint (x * 10 ^ decimals) / 10 ^ decimals

/-- npdatetime.py:630-638 `timedelta_as_seconds`, of a `timedelta64` (not `NaT`) -/
def timedeltaAsSeconds (n : Int) (unit : U) (decimals : Nat) : Except Err Time :=
  ofNumber (roundTo ((n * unit.size : Int) / (U.s.size : ℚ)) decimals) .s

end Viscid.TimeDelta
