import Mathlib.Data.Rat.Floor

/-!
Model of `resample_lines` (viscid/calculator/calc.py:375-416).

A line is the list of its rows (one row of numbers for each axis) and whether
its array holds whole numbers. Rounding of floats is not modelled. Only
`kind="linear"` is modelled; for it scipy's `interp1d` and `np.interp` give
the same values at points of [0, 1].
-/
namespace Viscid.Resample

/-- exceptions of `resample_lines` (viscid/calculator/calc.py:391-415) -/
inductive Exc
  | value
  | type
  deriving DecidableEq, Repr

/-- an array of shape (axes, points) (viscid/calculator/calc.py:397);
`whole`: its dtype is an integer type; `points` is `line.shape[1]` -/
structure Line where
  whole : Bool
  points : Nat
  rows : List (List ℚ)
  deriving DecidableEq, Repr

/-- `np.linspace(0, 1, n)` (viscid/calculator/calc.py:400-401) -/
def linspace (n : Nat) : List ℚ :=
  if n = 1 then [0] else (List.range n).map fun i : Nat => (i : ℚ) / ((n : ℚ) - 1)

/-- one value of `np.interp(x, xs, ys)` (viscid/calculator/calc.py:414):
the last of `xs` that is not above `x` is looked up; before the first and from
the last on, the value of the end is used -/
def interp (xs ys : List ℚ) (x : ℚ) : ℚ :=
  let k := (xs.filter (· ≤ x)).length
  if k = 0 then ys.headD 0
  else if k = xs.length then ys.getLastD 0
  else
    let x0 := xs.getD (k - 1) 0
    let x1 := xs.getD k 0
    let y0 := ys.getD (k - 1) 0
    let y1 := ys.getD k 0
    (y1 - y0) / (x1 - x0) * (x - x0) + y0

/-- `nnew = np.ceil(factor * (nold - 1)) + 1` (viscid/calculator/calc.py:398) -/
def nrNew (factor : ℚ) (nold : Nat) : Nat :=
  (⌈factor * ((nold : ℚ) - 1)⌉ + 1).toNat

/-- a float put into an integer array loses its fraction
(viscid/calculator/calc.py:399, 407, 414) -/
def store (whole : Bool) (x : ℚ) : ℚ :=
  if whole then (if 0 ≤ x then (⌊x⌋ : ℚ) else (⌈x⌉ : ℚ)) else x

/-- one iteration of the loop over lines (viscid/calculator/calc.py:396-415).
`floatSizes`: numpy makes arrays of sizes given as floats (only numpy before
1.12 does; `nnew` is a float) -/
def line (floatSizes : Bool) (factor : ℚ) (l : Line) : Except Exc Line :=
  if floatSizes then
    let n := nrNew factor l.points
    .ok ⟨l.whole, n, l.rows.map fun row => (linspace n).map fun s => store l.whole (interp (linspace l.points) row s)⟩
  else .error .type

/-- the loop: lines replaced so far, and the exception if there is one
(viscid/calculator/calc.py:396-415) -/
def loop (floatSizes : Bool) (factor : ℚ) : List Line → List Line × Option Exc
  | [] => ([], none)
  | l :: ls =>
    match line floatSizes factor l with
    | .error e => (l :: ls, some e)
    | .ok l' =>
      let (rest, e) := loop floatSizes factor ls
      (l' :: rest, e)

/-- `resample_lines(lines, factor)` (viscid/calculator/calc.py:375-416): what
is returned, and what is in the list `lines` of the caller afterwards -/
def resample (floatSizes : Bool) (factor : ℚ) (lines : List Line) : Except Exc (List Line) × List Line :=
  if factor ≤ 0 then (.error .value, lines)
  else if factor = 1 then (.ok lines, lines)
  else
    match loop floatSizes factor lines with
    | (ls, some e) => (.error e, ls)
    | (ls, none) => (.ok ls, ls)

end Viscid.Resample
