import Verif.Model.GreatCircle
import Mathlib.Analysis.SpecialFunctions.Trigonometric.Inverse
/-!
# Model of the conversions between Cartesian, spherical and latitude-longitude coordinates

`viscid/mapfield.py`.  One point at a time (the code works on the columns of a 3xN array); real numbers for
floats.  The type of the elements matters: the results are stored into an array of the type of the input, so
for an array of integers every result is truncated towards zero.
-/
namespace Viscid.SphCart
open Viscid.Rotation

noncomputable section

/-- The type of the elements of the input. -/
inductive DType where
  | float | int
  deriving DecidableEq, Repr

inductive Err where
  | typeError
  deriving DecidableEq, Repr

/-- Truncation towards zero. -/
def trunc (x : ℝ) : ℝ := if 0 ≤ x then (⌊x⌋ : ℤ) else (⌈x⌉ : ℤ)

/-- Assignment of a float to an element of an array of type `t`. -/
def store (t : DType) (x : ℝ) : ℝ := match t with
  | .float => x
  | .int => trunc x

/-- mapfield.py:383-404 `cart2sph`: (r, theta, phi).  With `deg` it is the (copied) input that is
    multiplied, after it has been used: the result is in radians.  For integers and `deg` that in place
    multiplication raises. -/
def cart2sph (t : DType) (deg : Bool) (a : V3) : Except Err V3 :=
  let r := store t (√(a 0 ^ 2 + a 1 ^ 2 + a 2 ^ 2))
  let theta := store t (Real.arccos (a 2 / r))
  let phi := store t (arctan2 (a 1) (a 0))
  if deg ∧ t = .int then .error .typeError
  else .ok ![r, theta, phi]

/-- mapfield.py:406-427 `sph2cart` -/
def sph2cart (t : DType) (deg : Bool) (a : V3) : Except Err V3 :=
  if deg ∧ t = .int then .error .typeError
  else
    let theta := if deg then a 1 * (Real.pi / 180) else a 1
    let phi := if deg then a 2 * (Real.pi / 180) else a 2
    .ok ![store t (a 0 * Real.sin theta * Real.cos phi),
          store t (a 0 * Real.sin theta * Real.sin phi),
          store t (a 0 * Real.cos theta)]

def quarter (deg : Bool) : ℝ := if deg then 90 else Real.pi / 2
def half (deg : Bool) : ℝ := if deg then 180 else Real.pi

/-- mapfield.py:429-450 `latlon2cart` of an array of floats -/
def latlon2cart (deg : Bool) (r lat lon : ℝ) : Except Err V3 :=
  sph2cart .float deg ![r, quarter deg - lat, lon + half deg]

/-- mapfield.py:452-472 `cart2latlon` of an array of floats: (lat, lon) -/
def cart2latlon (deg : Bool) (a : V3) : Except Err (ℝ × ℝ) :=
  match cart2sph .float deg a with
  | .ok s => .ok (quarter deg - s 1, s 2 - half deg)
  | .error e => .error e

end
end Viscid.SphCart
