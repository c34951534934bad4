import Verif.Model.Basic
/-!
# Model of the unit handling in `viscid/npdatetime.py`

A numpy `datetime64` or `timedelta64` scalar is a 64-bit integer counting a unit since 1970 (`NaT` is the smallest integer).
The units are `as` to `W`; the last two of `ORDERED_UNITS`, months and years, have no fixed size and are not modelled: times
in them do not occur, and the loop over the units ends with weeks.

Numpy's conversion between units is `cast`: it multiplies in 64 bits, wrapping silently, or divides rounding down, and
raises OverflowError if it considers the factor too big. Which factors are too big differs between versions of numpy, so
that is a parameter `big`; the theorems only assume that factors that do not fit into 64 bits are (`Sane`).
-/
namespace Viscid.NpTime

/-- npdatetime.py:67-70 `ORDERED_UNITS`, without `M` and `Y` -/
inductive U
  | as | fs | ps | ns | us | ms | s | m | h | D | W
deriving DecidableEq, Repr

/-- npdatetime.py:70 `ORDERED_UNITS`, without `M` and `Y` -/
def units : List U := [.as, .fs, .ps, .ns, .us, .ms, .s, .m, .h, .D, .W]

/-- `ORDERED_UNITS.index` -/
def U.idx : U → Nat
  | .as => 0 | .fs => 1 | .ps => 2 | .ns => 3 | .us => 4 | .ms => 5 | .s => 6 | .m => 7 | .h => 8 | .D => 9 | .W => 10

/-- The length of a unit in attoseconds, as numpy has it -/
def U.size : U → Int
  | .as => 1
  | .fs => 1000
  | .ps => 1000000
  | .ns => 1000000000
  | .us => 1000000000000
  | .ms => 1000000000000000
  | .s => 1000000000000000000
  | .m => 60000000000000000000
  | .h => 3600000000000000000000
  | .D => 86400000000000000000000
  | .W => 604800000000000000000000

/-- A `datetime64` (`delta = false`) or `timedelta64` scalar; `val = none` is `NaT` -/
structure Time where
  delta : Bool
  unit : U
  val : Option Int
deriving DecidableEq, Repr

inductive Err
  | overflow
  | precision
  | value
  | index
deriving DecidableEq, Repr

/-- What a 64-bit register keeps of an integer -/
def wrap (z : Int) : Int := (z + 2 ^ 63) % 2 ^ 64 - 2 ^ 63

/-- ... read as a time: the smallest integer is `NaT` -/
def toI64 (z : Int) : Option Int := if wrap z = -2 ^ 63 then none else some (wrap z)

/-- numpy's `astype` from one unit to another (npdatetime.py:142, 166), see the head of the file -/
def cast (big : U → U → Bool) (t : Time) (u : U) : Except Err Time :=
  if big t.unit u then .error .overflow
  else if u.idx ≤ t.unit.idx then .ok { t with unit := u, val := t.val.bind fun v => toI64 (v * (t.unit.size / u.size)) }
  else .ok { t with unit := u, val := t.val.map fun v => v / (u.size / t.unit.size) }

/-- numpy's `==`: nothing equals `NaT` -/
def eqTime (a b : Time) : Bool := match a.val, b.val with
  | some x, some y => x == y
  | _, _ => false

/-- npdatetime.py:367-418 `_adjust_t_unit` -/
def adjust (big : U → U → Bool) (allow0 : Bool) (t : Time) (u : U) : Except Err Time :=
  if t.unit = u then .ok t
  else if u.idx < t.unit.idx then
    match cast big t u with
    | .error e => .error e
    | .ok t1 =>
      match cast big t1 t.unit with
      | .error e => .error e
      | .ok t2 => if eqTime t t2 then .ok t1 else .error .overflow
  else
    match cast big t u with
    | .error e => .error e
    | .ok t1 => if !allow0 ∧ t1.val = some 0 ∧ t.val ≠ some 0 then .error .precision else .ok t1

/-- npdatetime.py:420-465 `round_time`, of a list -/
def roundTime (big : U → U → Bool) (allow0 : Bool) (unit : U) : List Time → Except Err (List Time)
  | [] => .ok []
  | t :: ts =>
    match (if t.unit.idx ≥ unit.idx then .ok t else adjust big allow0 t unit) with
    | .error e => .error e
    | .ok r =>
      match roundTime big allow0 unit ts with
      | .error e => .error e
      | .ok rs => .ok (r :: rs)

/-- npdatetime.py:354-365 `_most_precise_t_unit`: `np.argmin` of an empty list raises ValueError -/
def mostPrecise : List Time → Except Err U
  | [] => .error .value
  | [t] => .ok t.unit
  | t :: ts =>
    match mostPrecise ts with
    | .error e => .error e
    | .ok u => .ok (if t.unit.idx ≤ u.idx then t.unit else u)

/-- npdatetime.py:514-517 and 529-532, the inner loops: the times converted so far, and the exception if there was one -/
def adjustAll (big : U → U → Bool) (allow0 : Bool) (u : U) : List Time → List Time × Option Err
  | [] => ([], none)
  | t :: ts =>
    match adjust big allow0 t u with
    | .error e => ([], some e)
    | .ok r => (r :: (adjustAll big allow0 u ts).1, (adjustAll big allow0 u ts).2)

/-- npdatetime.py:513-523, the loop over ever coarser units. `ret` is what the last turn has left behind. -/
def coarsen (big : U → U → Bool) (allowRounding allow0 : Bool) (ts : List Time) (unit : U) :
    List U → List Time → Except Err (List Time × U)
  | [], ret => .ok (ret, unit)
  | u :: us, _ =>
    match adjustAll big allow0 u ts with
    | (ret, none) => .ok (ret, u)
    | (ret, some .overflow) => if allowRounding then coarsen big allowRounding allow0 ts unit us ret else .error .overflow
    | (_, some e) => .error e

/-- npdatetime.py:527-536, the loop over ever finer units -/
def refine (big : U → U → Bool) (allow0 : Bool) : List U → List Time → Except Err (List Time)
  | [], ret => .ok ret
  | u :: us, ret =>
    match adjustAll big allow0 u ret with
    | (nxt, none) => refine big allow0 us nxt
    | (_, some .overflow) => .ok ret
    | (_, some e) => .error e

/-- npdatetime.py:504-505 -/
def startUnit (ts : List Time) : Option U → Except Err U
  | some u => .ok u
  | none => mostPrecise ts

/-- npdatetime.py:467-544 `regularize_time`, of a list -/
def regularize (big : U → U → Bool) (ts : List Time) (unit : Option U) (finest allowRounding allow0 : Bool) :
    Except Err (List Time) :=
  match startUnit ts unit with
  | .error e => .error e
  | .ok u =>
    match coarsen big allowRounding allow0 ts u (units.drop u.idx) [] with
    | .error e => .error e
    | .ok (ret, u') => if finest then refine big allow0 (units.take u'.idx).reverse ret else .ok ret

/-- npdatetime.py:497-502, 538-539 `regularize_time`, of a single time -/
def regularize1 (big : U → U → Bool) (t : Time) (unit : Option U) (finest allowRounding allow0 : Bool) :
    Except Err Time :=
  match regularize big [t] unit finest allowRounding allow0 with
  | .error e => .error e
  | .ok (r :: _) => .ok r
  | .ok [] => .error .index

/-- `t0 + tdelta` of numpy, both in the same unit -/
def npAdd (a b : Time) : Time :=
  { a with val := match a.val, b.val with | some x, some y => toI64 (x + y) | _, _ => none }

/-- `t1 - t2` of numpy, both in the same unit -/
def npSub (a b : Time) : Time :=
  { delta := true, unit := a.unit, val := match a.val, b.val with | some x, some y => toI64 (x - y) | _, _ => none }

/-- npdatetime.py:546-580 `time_sum`; unpacking a list that is too short raises ValueError -/
def timeSum (big : U → U → Bool) (t0 dt : Time) (unit : Option U) (finest allowRounding allow0 : Bool) :
    Except Err Time :=
  match regularize big [t0, dt] unit finest allowRounding allow0 with
  | .error e => .error e
  | .ok [a, b] => .ok (npAdd a b)
  | .ok _ => .error .value

/-- npdatetime.py:582-605 `time_diff` -/
def timeDiff (big : U → U → Bool) (t1 t2 : Time) (unit : Option U) (finest : Bool) : Except Err Time :=
  match regularize big [t1, t2] unit finest true true with
  | .error e => .error e
  | .ok [a, b] => .ok (npSub a b)
  | .ok _ => .error .value

end Viscid.NpTime
