import Verif.Model.TimeDelta
/-!
# Model of the text formats in `viscid/npdatetime.py`: `as_isotime` and `format_time`; and of `linspace_datetime64`
-/
namespace Viscid.TimeText
open Viscid.TimeDelta (splitColon nint)

/-- `str.strip` of blanks -/
def strip (s : List Char) : List Char :=
  ((s.dropWhile (·.isWhitespace)).reverse.dropWhile (·.isWhitespace)).reverse

/-- `str.zfill(n)`, of digits -/
def zfill (n : Nat) (s : List Char) : List Char := List.replicate (n - s.length) '0' ++ s

/-- `[0-9]{n}` -/
def digits (n : Nat) (s : List Char) : Bool := s.length = n ∧ s.all (·.isDigit)

/-- `[0-9]{1,2}(\.[0-9]*)?` -/
def lastField (s : List Char) : Bool :=
  let d := s.takeWhile (·.isDigit)
  let r := s.dropWhile (·.isDigit)
  (d.length = 1 ∨ d.length = 2) ∧ (r = [] ∨ (r.head? = some '.' ∧ r.tail.all (·.isDigit)))

/-- `":".join` -/
def joinColon : List (List Char) → List Char
  | [] => []
  | [f] => f
  | f :: fs => f ++ ':' :: joinColon fs

/-- npdatetime.py:204: `^[0-9]{2}([0-9]{2}:){3,5}[0-9]{1,2}(\.[0-9]*)?$`, field by field -/
def isLong (t : List Char) : Bool :=
  match splitColon t with
  | y :: fs => digits 4 y ∧ (3 ≤ fs.length ∧ fs.length ≤ 5) ∧ fs.dropLast.all (digits 2) ∧ lastField (fs.getLast?.getD [])
  | [] => false

/-- npdatetime.py:220: `^[0-9]{2}([0-9]{2}:){2}[0-9]{2}$` -/
def isDate (t : List Char) : Bool :=
  match splitColon t with
  | [y, m, d] => digits 4 y ∧ digits 2 m ∧ digits 2 d
  | _ => false

/-- npdatetime.py:203 -/
def normal (s : List Char) : List Char := ((strip s).map Char.toUpper).dropWhile (fun c => c = 'U' ∨ c = 'T')

/-- npdatetime.py:204-224 -/
def reformat (t : List Char) : List Char :=
  if isLong t then
    let tsp := splitColon (t.map fun c => if c = '.' then ':' else c)
    let tsp := zfill 4 (tsp.headD []) :: (((tsp.drop 1).take 5).map (zfill 2) ++ tsp.drop 6)
    let t := joinColon (tsp.take 6)
    let t := if 6 < tsp.length then t ++ '.' :: (tsp.drop 6).headD [] else t
    (t.take 10).map (fun c => if c = ':' then '-' else c) ++ 'T' :: t.drop 11
  else if isDate t then t.map fun c => if c = ':' then '-' else c
  else t

/-- npdatetime.py:203-224: one string, before numpy looks at it -/
def isotime (s : List Char) : List Char := reformat (normal s)

inductive Err
  | value
deriving DecidableEq, Repr

/-- npdatetime.py:182-240 `as_isotime`, of a list of strings (`array = false`) or an array of them. `valid` is whether
    `np.datetime64` takes the string. An array is returned as it was given (line 238). -/
def asIsotime (valid : List Char → Bool) (array : Bool) (ts : List (List Char)) : Except Err (List (List Char)) :=
  if (ts.map isotime).all valid then .ok (if array then ts else ts.map isotime) else .error .value

/-! ### `format_time` -/

/-- two digits -/
def two (n : Nat) : List Char := [Char.ofNat (48 + n / 10 % 10), Char.ofNat (48 + n % 10)]

/-- `datetime.strftime(dttime, '%H:%M:%S')`, of a time in microseconds since 1970 -/
def clock (us : Int) : List Char :=
  let s := (us / 1000000 % 86400).toNat
  two (s / 3600) ++ ':' :: two (s / 60 % 60) ++ ':' :: two (s % 60)

/-- `{0:06d}` -/
def six (n : Int) : List Char :=
  if n < 0 then '-' :: zfill 5 (toString n.natAbs).toList else zfill 6 (toString n.natAbs).toList

/-- npdatetime.py:691-698: `days` is truncated, towards 0 -/
def dayText (us : Int) : List Char :=
  let days := us.tdiv 86400000000
  if days = 1 then (toString days).toList ++ " day".toList else (toString days).toList ++ " days ".toList

/-- npdatetime.py:689-702, the formats `hms`, `hmss`, `dhms` and `dhmss`. `us` is `as_datetime(time)`, in microseconds since
    1970, `base` the base time. The years from 1 to 9999, which are all that Python has, are not checked. -/
def formatHms (d ss : Bool) (base us : Int) : List Char :=
  (if d then dayText us else []) ++ clock us ++
    (if ss then " (".toList ++ six ((us - base).tdiv 1000000) ++ [')'] else [])

/-- a number in `k` digits -/
def decimal (n : Nat) : Nat → List Char
  | 0 => []
  | k + 1 => decimal (n / 10) k ++ [Char.ofNat (48 + n % 10)]

/-- npdatetime.py:724 `"{0:0.{1}f}".format(val, ifmt)[2:]`, where `rnd` has done the rounding: `rnd n us` is the number of
    10^-n seconds -/
def fraction (rnd : Nat → Nat → Nat) (n us : Nat) : List Char :=
  decimal (rnd n us % 10 ^ n) n

/-- the value of a string of digits -/
def number (s : List Char) : Nat := s.foldl (fun v c => 10 * v + (c.toNat - 48)) 0

/-- npdatetime.py:719-726: every run of six digits `re.finditer` finds in the formatted time is rewritten with the next
    precision, as long as there is one. The code rewrites the last first, here it is one pass. -/
def rewrite (rnd : Nat → Nat → Nat) : List (Option Nat) → List Char → List Char
  | _, [] => []
  | [], s => s
  | p :: ps, c :: s =>
    if digits 6 ((c :: s).take 6) then
      fraction rnd (p.getD 6) (number ((c :: s).take 6)) ++ rewrite rnd ps ((c :: s).drop 6)
    else c :: rewrite rnd (p :: ps) s
termination_by _ s => s.length
decreasing_by all_goals simp; try omega

/-- what a strftime format is made of: text that does not depend on `%f` (dates, hours...), already formatted, and `%.nf` -/
inductive Piece
  | text (s : List Char)
  | frac (n : Option Nat)
deriving DecidableEq, Repr

/-- npdatetime.py:714-716: `%f` is six digits of microseconds -/
def strftime (us : Nat) : List Piece → List Char
  | [] => []
  | .text s :: ps => s ++ strftime us ps
  | .frac _ :: ps => decimal us 6 ++ strftime us ps

/-- npdatetime.py:713 `re.findall` -/
def precisions : List Piece → List (Option Nat)
  | [] => []
  | .text _ :: ps => precisions ps
  | .frac n :: ps => n :: precisions ps

/-- npdatetime.py:708-726: a strftime format, of a time with `us` microseconds -/
def formatFrac (rnd : Nat → Nat → Nat) (fmt : List Piece) (us : Nat) : List Char :=
  rewrite rnd (precisions fmt) (strftime us fmt)

/-! ### `linspace_datetime64` -/

/-- an integer as a double: 53 bits, half to even -/
def f8 (z : Int) : Int :=
  let k := z.natAbs.log2 + 1 - 53
  nint ((z : ℚ) / 2 ^ k) * 2 ^ k

/-- npdatetime.py:350-352: `np.linspace` of the two times as doubles, rounded. `start` and `stop` are in the same unit (line
    348). Only the conversion to doubles is rounded here; the arithmetic of `np.linspace` is exact. -/
def linspaceInt (start stop : Int) (n : Nat) (endpoint : Bool) : List Int :=
  let a : ℚ := f8 start
  let b : ℚ := f8 stop
  let step := (b - a) / (if endpoint then n - 1 else n : Nat)
  (List.range n).map fun (i : Nat) => if endpoint ∧ 0 < i ∧ i + 1 = n then f8 stop else nint (a + i * step)

end Viscid.TimeText
