import Verif.Model.AsCotr
import Mathlib.Data.Rat.Defs
import Mathlib.Algebra.Order.Field.Rat
import Mathlib.Algebra.Order.Group.Unbundled.Abs
/-!
# Model of `_autolimit_to_vertices` and `_xyzind_from_symdir` of `viscid/plot/vpyplot.py`

Arrays of points are lists of rows (x, y, z), all of the same length. Rounding is not modelled. Axes of matplotlib are their limits.
-/
namespace Viscid.PlotAxes

inductive Err
  | value
  | index
deriving DecidableEq

/-- vpyplot.py:1982-2020, one axis: its limits after those of the points, `lo` and `hi`, were looked at -/
def extend (lim : ℚ × ℚ) (lo hi : ℚ) : ℚ × ℚ :=
  if lim.1 < lim.2 then (if lo < lim.1 then lo else lim.1, if hi > lim.2 then hi else lim.2)
  else (if hi > lim.1 then hi else lim.1, if lo < lim.2 then lo else lim.2)

/-- vpyplot.py:1982-1983 `np.min`; `none` is ValueError -/
def rowMin : List ℚ → Option ℚ
  | [] => none
  | x :: l => some (l.foldl min x)
/-- vpyplot.py:1982-1983 `np.max` -/
def rowMax : List ℚ → Option ℚ
  | [] => none
  | x :: l => some (l.foldl max x)

/-- vpyplot.py:1982-2020, one axis with the points along it -/
def one (lim : ℚ × ℚ) (row : List ℚ) : Except Err (ℚ × ℚ) :=
  match rowMin row, rowMax row with
  | some lo, some hi => .ok (extend lim lo hi)
  | _, _ => .error .value

/-- vpyplot.py:1980-2020 `_autolimit_to_vertices`: the limits of the axes -/
def autolimit (x y z : ℚ × ℚ) (verts : List (List ℚ)) : Except Err ((ℚ × ℚ) × (ℚ × ℚ) × (ℚ × ℚ)) :=
  match verts with
  | [a, b] => do return (← one x a, ← one y b, z)
  | a :: b :: c :: _ => do return (← one x a, ← one y b, ← one z c)
  | _ => .error .index

/-- vpyplot.py:2040 `np.allclose(arr[i, :], arr[i, 0])`; IndexError if there are no points -/
def isConst (row : List ℚ) : Except Err Bool :=
  match row with
  | [] => .error .index
  | x :: _ => .ok (row.all fun y => |y - x| ≤ 1 / 10 ^ 8 + 1 / 10 ^ 5 * |x|)

/-- vpyplot.py:2037-2042: rows in which nothing changes are left out, from the last on, until two are left; `i` rows are to be looked at -/
def cull (rows : List (List ℚ)) : Nat → List Nat → Except Err (List Nat)
  | 0, l => .ok l
  | i + 1, l =>
    if l.length > 2 then do
      let c ← isConst (rows[i]?.getD [])
      cull rows i (if c then l.eraseIdx i else l)
    else .ok l

/-- vpyplot.py:2022-2054 `_xyzind_from_symdir` -/
def xyzind (rows : List (List ℚ)) (symdir : List Char) : Except Err (Nat × Nat × Option Nat) :=
  let s := AsCotr.clean symdir
  if s ≠ [] then
    if rows.length < 3 then .error .value
    else if s = ['x'] then .ok (1, 2, some 0)
    else if s = ['y'] then .ok (0, 2, some 1)
    else if s = ['z'] then .ok (0, 1, some 2)
    else .error .value
  else do
    let l ← cull rows rows.length (List.range rows.length)
    let (a, b) := match l with
      | [a, b] => (a, b)
      | _ :: _ :: _ :: _ => (0, 1)
      | _ => (0, 0)
    return (a, b, if rows.length > 2 then ((List.range rows.length).filter fun k => k ≠ a ∧ k ≠ b).head? else none)

end Viscid.PlotAxes
