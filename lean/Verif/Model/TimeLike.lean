import Verif.Model.TimeText
/-!
# Model of what `viscid/npdatetime.py` takes for a time, and of how it reads text

`float` is Python's `float` of a text (`none`: ValueError; infinities and nan are not modelled), `parse` is the constructor
`np.datetime64(text)` or `np.datetime64(text, unit)` of a numpy that knows no time zones (`_NP_TZ` is false). Errors other
than ValueError and OverflowError are not modelled.
-/
namespace Viscid.TimeLike
open Viscid.NpTime (U Time Err)
open Viscid.TimeDelta (ofString)
open Viscid.TimeText (isotime)

/-- what is one value: a `np.datetime64`, a `datetime`, a `np.timedelta64`, a `timedelta`, a float or an integer (`np`: one of
    numpy's, whose types are not Python's), a `bool`, a text, or anything else -/
inductive Atom
  | dt64 | dt | td64 | td
  | flt (np : Bool) | int (np : Bool) | bool
  | text (s : List Char)
  | other
deriving DecidableEq, Repr

/-- a value, a list or a tuple of values, or an array: of numpy's type `np.datetime64`, `np.timedelta64`, some floating point,
    some integer, or another type, or of Python objects -/
inductive Val
  | atom (a : Atom)
  | list (l : List Atom)
  | arrDt | arrTd | arrFlt | arrInt | arrOther
  | arrObj (l : List Atom)
deriving DecidableEq, Repr

/-- npdatetime.py:614-620 `is_valid_timedelta64`, of a text: OverflowError is not caught -/
def validTd (float : List Char → Option ℚ) (s : List Char) : Except Err Bool :=
  match ofString float s none with
  | .ok _ => .ok true
  | .error .value => .ok false
  | .error e => .error e

/-- npdatetime.py:130-151 `_as_datetime64_scalar`, of a text; `isotime` is lines 203-224 and line 226 checks it.
    `is_timedelta_like` (line 133) of a text is line 741, `validTd`. -/
def ofText (float : List Char → Option ℚ) (parse : List Char → Option U → Except Err Time) (s : List Char) (unit : Option U) :
    Except Err Time :=
  match validTd float s with
  | .error e => .error e
  | .ok true =>
    match ofString float s unit with
    | .ok t => .ok { t with delta := false }
    | .error e => .error e
  | .ok false =>
    let time := match parse (isotime s) none with
      | .ok _ => isotime s
      | .error _ => s
    match parse time none with
    | .ok _ => parse time unit
    | .error e => .error e

/-- npdatetime.py:606-612 `is_valid_datetime64`, of a text -/
def validDt (float : List Char → Option ℚ) (parse : List Char → Option U → Except Err Time) (s : List Char) : Except Err Bool :=
  match ofText float parse s none with
  | .ok _ => .ok true
  | .error .value => .ok false
  | .error e => .error e

/-- npdatetime.py:743-749, the loop over a list or a tuple -/
def checkList (isAny : Atom → Bool) (check : List Char → Except Err Bool) : List Atom → Except Err Bool
  | [] => .ok true
  | .text s :: l =>
    match check s with
    | .error e => .error e
    | .ok true => checkList isAny check l
    | .ok false => .ok false
  | a :: l => if isAny a then checkList isAny check l else .ok false

/-- npdatetime.py:729-756 `_check_like`: `isNp` and `isNative` are `isinstance(_, _np_types)` and `isinstance(_, _native_types)`,
    `dtype` whether the array's `dtype.type` is among `_np_types`. A text is an instance of none of the types. `np.object` is
    taken to exist. -/
def checkLike (isNp isNative : Atom → Bool) (dtype : Val → Bool) (check : List Char → Except Err Bool) : Val → Except Err Bool
  | .atom (.text s) => check s
  | .atom a => .ok (isNp a || isNative a)
  | .list l => checkList (fun a => isNp a || isNative a) check l
  | .arrObj l => .ok (l.all isNative)
  | v => .ok (dtype v)

/-- npdatetime.py:767-778 `is_datetime_like`; `floats` is whether `float(val)` succeeds -/
def isDt (float : List Char → Option ℚ) (parse : List Char → Option U → Except Err Time) (floats : Val → Bool)
    (conservative : Bool) (v : Val) : Except Err Bool :=
  if conservative && floats v then .ok false
  else checkLike (· == .dt64) (· == .dt) (· == .arrDt) (validDt float parse) v

/-- `isinstance(_, (np.timedelta64, np.floating, np.integer))` -/
def isNpTd : Atom → Bool
  | .td64 => true
  | .flt np => np
  | .int np => np
  | _ => false

/-- `isinstance(_, (timedelta, float, int))`: a `bool` is an `int` -/
def isNativeTd : Atom → Bool
  | .td => true
  | .flt np => !np
  | .int np => !np
  | .bool => true
  | _ => false

/-- npdatetime.py:780-796 `is_timedelta_like`. Line 755 asks whether the type of an array's elements is one of
    `np.timedelta64`, `np.floating` and `np.integer`; the latter two are the type of no array. -/
def isTd (float : List Char → Option ℚ) (conservative : Bool) (v : Val) : Except Err Bool :=
  if conservative then
    match v with
    | .atom (.text s) =>
      if (float s).isSome then .ok false else checkLike (· == .td64) (· == .td) (· == .arrTd) (validTd float) v
    | _ => checkLike (· == .td64) (· == .td) (· == .arrTd) (validTd float) v
  else checkLike isNpTd isNativeTd (· == .arrTd) (validTd float) v

/-- npdatetime.py:798-801 `is_time_like` -/
def isTime (float : List Char → Option ℚ) (parse : List Char → Option U → Except Err Time) (floats : Val → Bool)
    (conservative : Bool) (v : Val) : Except Err Bool :=
  match isDt float parse floats conservative v with
  | .error e => .error e
  | .ok true => .ok true
  | .ok false => isTd float conservative v

/-- what `time_as_seconds` does with a value -/
inductive Way
  | date | delta | number
deriving DecidableEq, Repr

/-- npdatetime.py:640-647 `time_as_seconds`: what the value is rounded as -/
def secondsAs (float : List Char → Option ℚ) (parse : List Char → Option U → Except Err Time) (floats : Val → Bool) (v : Val) :
    Except Err Way :=
  match isDt float parse floats false v with
  | .error e => .error e
  | .ok true => .ok .date
  | .ok false =>
    match isTd float true v with
    | .error e => .error e
    | .ok true => .ok .delta
    | .ok false => .ok .number

/-- npdatetime.py:293-297 `as_datetime`, of a text, before it is rounded -/
def asDatetime (float : List Char → Option ℚ) (parse : List Char → Option U → Except Err Time) (s : List Char) (unit : Option U) :
    Except Err Time :=
  match ofText float parse s unit with
  | .error .value =>
    match ofString float s unit with
    | .ok t => .ok { t with delta := false }
    | .error e => .error e
  | r => r

end Viscid.TimeLike
