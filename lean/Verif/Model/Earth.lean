import Mathlib.Analysis.Real.Sqrt
/-!
# Model of `viscid/plot/vpyplot.py`: the earth in plots

Angles are in degrees. Colours are day or night; where a wedge or circle is on the page is not modelled beyond its angles and radius.
-/
namespace Viscid.Earth

inductive Sys
  | gse
  | mhd
  | other
deriving DecidableEq, Repr

inductive Plane
  | x
  | y
  | z
  | other
deriving DecidableEq, Repr

/-- `Wedge((0, 0), r, a, b)` and `Circle((0, 0), r)`, with their colour -/
inductive Patch
  | wedge (r a b : ℝ) (day : Bool)
  | circle (r : ℝ) (day : Bool)

/-- vpyplot.py:1887-1916 `plot_earth`: the patches that are added -/
noncomputable def plotEarth (sys : Sys) (plane : Plane) (value scale rot : ℝ) : List Patch :=
  open Classical in
  if value ^ 2 ≥ scale ^ 2 then []
  else
    let radius := Real.sqrt (scale ^ 2 - value ^ 2)
    let rot := if sys = .gse then 180 else rot
    match plane with
    | .y | .z => [.wedge radius (90 + rot) (270 + rot) true, .wedge radius (270 + rot) (450 + rot) false]
    | .x => if value < 0 then [.circle radius true] else [.circle radius false]
    | .other => []

/-- vpyplot.py:1869-1883: the value for a field, or an AMR field with a value for each of its patches; `none`: nothing is reduced -/
noncomputable def fieldValue : List ℝ → Option ℝ
  | [] => none
  | v :: vs => some (vs.foldl (fun a w => min a |w|) |v|)

/-- `plot_earth` of a field -/
noncomputable def plotEarthField (sys : Sys) (plane : Plane) (values : List ℝ) (scale rot : ℝ) : List Patch :=
  match fieldValue values with
  | none => []
  | some v => plotEarth sys plane v scale rot

end Viscid.Earth
