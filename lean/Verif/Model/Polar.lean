import Verif.Model.MapField
import Mathlib.Algebra.Order.Floor.Defs
import Mathlib.Algebra.Order.Archimedean.Real.Basic
/-!
# Model of `viscid/mapfield.py`: fields and points for polar plots (`as_polar_mapfield` and `pts2polar_mapfield`)

Numbers are real and rounding is not modelled, nor is `strip().lower()` of the hemisphere. Fields are as in the model of `as_mapfield`
(node-centred, two axes). Selection by value is without its tolerance (a ten thousandth of a spacing). Units are not kept, as
`wrap_crds` is not given any.
-/
namespace Viscid.Polar
open Viscid.MapField

inductive Err
  | map (e : MapField.Err)
  | value
  | index
deriving DecidableEq, Repr

variable {α : Type}

noncomputable section

open Classical in
/-- mapfield.py:251-271: of an increasing axis of latitudes, those kept, and whether they are reversed. `:x:-1` is from the last one down
    to the value `x`, and `:x` from the first one up to it. -/
def latSel (lat : List ℝ) (bounding : ℝ) (hemisphere : String) : Except Err (List ℝ × Bool) :=
  let bound := |Real.pi / 180 * bounding|
  if hemisphere = "north" ∨ hemisphere = "n" then
    if ∀ x ∈ lat, x < bound then .error .value
    else .ok (lat.reverse.takeWhile fun x => decide (Real.pi / 2 - bound ≤ x), true)
  else if hemisphere = "south" ∨ hemisphere = "s" then
    if ∀ x ∈ lat, - bound < x then .error .value
    else .ok (lat.takeWhile fun x => decide (x ≤ - Real.pi / 2 + bound), false)
  else .error .value

open Classical in
/-- mapfield.py:244-249: the default (`xh` and `xl` are the last and the first) -/
def bounding (lat : List ℝ) : Option ℝ → ℝ
  | some b => b
  | none => if 101 / 100 * Real.pi ≤ |lat.getLastD 0 - lat.headD 0| then 40 else 90

/-- mapfield.py:273-275 and 280-281 -/
def toPole (hemisphere : String) (x : ℝ) : ℝ := (if hemisphere = "north" ∨ hemisphere = "n" then -1 else 1) * x + Real.pi / 2

open Classical in
/-- mapfield.py:284-301, for coordinates that are not uniform -/
def periodic (f : Fld α) : Except Err (Fld α) :=
  match f.ax0.crds.head?, f.ax0.crds.getLast? with
  | some a, some b =>
    if b - a < 2 * Real.pi - 1 / 100000 then
      .ok { f with
        ax0 := { f.ax0 with crds := f.ax0.crds ++ [a + 2 * Real.pi] }
        data := fun idx => f.data (if idx.headD 0 = f.ax0.crds.length then 0 :: idx.tail else idx) }
    else .ok f
  | _, _ => .error .index

/-- mapfield.py:284-301, for uniform coordinates: the new bounds and how many there are (the data gets one more) -/
def periodicUniform (xl xh : ℝ) (n : Nat) : ℝ × ℝ × Nat := (xl, xh + (xh - xl) / n, n)

/-- mapfield.py:222-305 `as_polar_mapfield`. For vectors `loc` is given more items than there are axes (C129). -/
def asPolar (f : Fld α) (boundingLat : Option ℝ) (hemisphere : String) (makePeriodic : Bool) : Except Err (Fld α) :=
  match asMapfield f ["lon", "lat"] (.str "rad") with
  | .error e => .error (.map e)
  | .ok m =>
    match latSel m.ax1.crds (bounding m.ax1.crds boundingLat) hemisphere with
    | .error e => .error e
    | .ok (lat, rev) =>
      match m.layout with
      | .scalar =>
        let g : Fld α := { m with
          ax0 := { m.ax0 with unit := "" }
          ax1 := ⟨m.ax1.name, "", lat.map (toPole hemisphere)⟩
          data := if rev then reverse m 1 else m.data }
        if makePeriodic then periodic g else .ok g
      | _ => .error .index

/-- writing numbers to an array; those of whole numbers have no fractions -/
def store (isInt : Bool) (l : List ℝ) : List ℝ := if isInt then l.map fun x => if 0 ≤ x then ⌊x⌋ else ⌈x⌉ else l

/-- mapfield.py:351-356, for one axis -/
def toMap (isInt : Bool) (unit : String) (ax : String) (row : List ℝ) : Except MapField.Err (String × List ℝ) :=
  let row := if unit = "deg" then row.map fun x => Real.pi / 180 * x else row
  if ax = "phi" then .ok ("lon", store isInt row)
  else if ax = "theta" then (theta2lat "rad" row).map fun r => ("lat", store isInt r)
  else .ok (ax, store isInt row)

/-- mapfield.py:349-356 -/
def toMaps (isInt : Bool) (unit : String) : List String → List (List ℝ) → Except Err (List (String × List ℝ))
  | [], _ => .ok []
  | _ :: _, [] => .error .index
  | ax :: axes, row :: rows =>
    match toMap isInt unit ax row with
    | .error e => .error (.map e)
    | .ok p => (toMaps isInt unit axes rows).map (p :: ·)

/-- mapfield.py:308-374 `pts2polar_mapfield` -/
def pts2polar (isInt : Bool) (pts : List (List ℝ)) (axes : List String) (unit hemisphere : String) : Except Err (List (List ℝ)) :=
  if unit = "deg" ∨ unit = "rad" then
    match toMaps isInt unit axes pts with
    | .error e => .error e
    | .ok l =>
      match l.find? fun p => p.1 = "lon", l.find? fun p => p.1 = "lat" with
      | some lon, some lat => .ok [lon.2, store isInt (lat.2.map (toPole hemisphere))]
      | _, _ => .error .value
  else .error .value

end

end Viscid.Polar
