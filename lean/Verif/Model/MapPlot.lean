import Verif.Model.FillSel
import Mathlib.Data.Rat.Floor
import Mathlib.Algebra.Order.Field.Rat
/-!
# Model of `viscid/plot/vpyplot.py` plot2d_mapfield (lines 981 to 1112) and plot_iono (lines 1206 to 1242)

Latitudes are in degrees. Names of hemispheres are already without spaces and in lower case.
-/
namespace Viscid.MapPlot

inductive Err
  | value
deriving DecidableEq, Repr

inductive Hem
  | north
  | south
deriving DecidableEq, Repr

/-- vpyplot.py:1004-1015 and 1024-1032: the hemisphere that is shown -/
def hemisphere (given : String) (lat : List ℚ) : Except Err Hem :=
  let h := if given = "none" then
      if ∀ l ∈ lat, 0 ≤ l then "north"
      else if ∀ l ∈ lat, l ≤ 0 then "south"
      else "north"
    else given
  if h = "north" ∨ h = "n" then .ok .north
  else if h = "south" ∨ h = "s" then .ok .south
  else .error .value

/-- vpyplot.py:1019-1023 and 1030: the angle that bounds the picture; `lat` is not empty -/
def bounding (given : Option ℚ) (lat : List ℚ) (h : Hem) : ℚ :=
  let b := match given with
    | some b => b
    | none => if 9001 / 100 ≤ |lat.getLastD 0 - lat.headD 0| then 40 else 90
  match h with
  | .north => b
  | .south => -1 * |b|

/-- numpy `arange(a, b, d)` for a positive `d` -/
def arange (a b d : ℚ) : List ℚ := (List.range (⌈(b - a) / d⌉).toNat).map fun k : Nat => a + (k : ℚ) * d

/-- vpyplot.py:1086-1094: the circles, as angles from the pole -/
def circles (lim : ℚ) : List ℚ := arange 10 lim (if 50 < lim then 20 else 10)

inductive LabelLat
  | fromPole
  | yes
  | no
deriving DecidableEq, Repr

/-- vpyplot.py:1095-1104: the numbers at the circles -/
def latLabels (l : LabelLat) (h : Hem) (lim : ℚ) : List ℚ :=
  match l with
  | .fromPole => circles lim
  | .yes => match h with
    | .north => (circles lim).map fun r => 90 - r
    | .south => (circles lim).map fun r => -90 + r
  | .no => []

/-- vpyplot.py:1079-1083: places and labels of local time -/
def mltGrid : List (ℚ × Nat) := [(0, 24), (45, 3), (90, 6), (135, 9), (180, 12), (225, 15), (270, 18), (315, 21)]

/-- a slice that takes all, or by latitude from 10, or by theta up to -10, as texts -/
inductive Slc
  | all
  | from10
  | upToMinus10
deriving DecidableEq, Repr

/-- vpyplot.py:1220-1242: of a field of longitude and latitude, the part whose extremes are written beside the plot -/
def ionoPart (given : String) (lat : List ℚ) : Except Err (List (FillSel.Row String Slc)) :=
  match hemisphere given lat with
  | .error e => .error e
  | .ok .north =>
    match FillSel.fill .all (fun _ => "new") ["lon", "lat"] [⟨some "lat", .sel .from10⟩] with
    | .ok r => .ok r
    | .error _ => .error .value
  | .ok .south =>
    match FillSel.fill .all (fun _ => "new") ["lon", "lat"] [⟨some "theta", .sel .upToMinus10⟩] with
    | .ok r => .ok r
    | .error _ => .error .value

end Viscid.MapPlot
