import Verif.Model.LineInt
/-!
# Model of `viscid/calculator/calc.py`: project_along_line

As in Model/LineInt.lean numbers are elements of a field K, `nrm` is the Euclidean norm, and the interpolated field is a function of the vertex.
-/
namespace Viscid.AlongLine
open Viscid.LineInt (V Err sub bcast)

variable {K : Type} [Field K] [DecidableEq K]

/-- `line[:, 2:] - line[:, :-2]` (calc.py:431) -/
def central (line : List (V K)) : List (V K) := List.zipWith sub (line.drop 2) (line.take (line.length - 2))

/-- `dsvec[:, -2:-1]` (calc.py:432): the last but one, if there are two -/
def lastButOne (l : List (V K)) : List (V K) := (l.take (l.length - 1)).drop (l.length - 2)

/-- the vectors along the line (calc.py:431-432) -/
def tangents (line : List (V K)) : List (V K) :=
  let ds := central line
  ds.take 1 ++ ds ++ lastButOne ds

/-- `np.sum(v * ds / norm(ds))` of one vertex; `none` is nan (calc.py:433-434) -/
def along (nrm : V K → K) (v t : V K) : Option K :=
  if nrm t = 0 then none else some (v.1 * (t.1 / nrm t) + v.2.1 * (t.2.1 / nrm t) + v.2.2 * (t.2.2 / nrm t))

/-- calc.py:418-434 `project_along_line` -/
def project (nrm : V K → K) (fld : V K → V K) (line : List (V K)) : Except Err (List (Option K)) :=
  bcast (along nrm) (line.map fld) (tangents line)

end Viscid.AlongLine
