import Verif.Model.PlotAxes
/-!
# Model of `viscid/plot/vpyplot.py`: lines and points in a plane

A segment of a line is its two points. `plot2d_lines` gives the segments to `_xyzind_from_symdir`, whose first axis then is that of segments and not
that of directions.
-/
namespace Viscid.Lines2d
open Viscid.PlotAxes (Err xyzind)

abbrev Seg := List ℚ × List ℚ

/-- vpyplot.py:2040 `np.allclose(arr[i, :], arr[i, 0])` with a segment `arr[i]`: its second point is as good as the first -/
def still (s : Seg) : Bool := (List.zipWith (fun p q : ℚ => decide (|q - p| ≤ 1 / 10 ^ 8 + 1 / 10 ^ 5 * |p|)) s.1 s.2).all id

/-- vpyplot.py:2037-2042, with `arr` the segments -/
def cull (segs : List Seg) : Nat → List Nat → List Nat
  | 0, l => l
  | i + 1, l => if l.length > 2 then cull segs i (if still (segs.getD i ([], [])) then l.eraseIdx i else l) else l

/-- vpyplot.py:2022-2054 `_xyzind_from_symdir(segments, symdir)` -/
def segInd (segs : List Seg) (symdir : List Char) : Except Err (Nat × Nat × Option Nat) :=
  let s := AsCotr.clean symdir
  if s ≠ [] then
    if segs.length < 3 then .error .value
    else if s = ['x'] then .ok (1, 2, some 0)
    else if s = ['y'] then .ok (0, 2, some 1)
    else if s = ['z'] then .ok (0, 1, some 2)
    else .error .value
  else
    let (a, b) := match cull segs segs.length (List.range segs.length) with
      | [a, b] => (a, b)
      | _ :: _ :: _ :: _ => (0, 1)
      | _ => (0, 0)
    .ok (a, b, if segs.length > 2 then ((List.range segs.length).filter fun k => k ≠ a ∧ k ≠ b).head? else none)

/-- `p[[i, j]]` of a point -/
def pick (i j : Nat) (p : List ℚ) : Except Err (ℚ × ℚ) :=
  match p[i]?, p[j]? with
  | some a, some b => .ok (a, b)
  | _, _ => .error .index

/-- vpyplot.py:1440-1459 `plot2d_lines`: the segments in the plane -/
def lines2d (segs : List Seg) (symdir : List Char) (flip : Bool) : Except Err (List ((ℚ × ℚ) × (ℚ × ℚ))) :=
  match segInd segs symdir with
  | .error e => .error e
  | .ok (i, j, _) =>
    let (i, j) := if flip then (j, i) else (i, j)
    segs.mapM fun s => match pick i j s.1, pick i j s.2 with
      | .ok a, .ok b => .ok (a, b)
      | _, _ => .error .index

/-- vpyplot.py:1739-1760 `scatter_2d`: the points in the plane and the labels of the axes -/
def scatter2d (rows : List (List ℚ)) (symdir : List Char) (flip : Bool) : Except Err ((List ℚ × List ℚ) × (Char × Char)) :=
  match xyzind rows symdir with
  | .error e => .error e
  | .ok (i, j, _) =>
    let (i, j) := if flip then (j, i) else (i, j)
    match rows[i]?, rows[j]?, ['x', 'y', 'z'][i]?, ['x', 'y', 'z'][j]? with
    | some x, some y, some a, some b => .ok ((x, y), (a, b))
    | _, _, _, _ => .error .index

end Viscid.Lines2d
