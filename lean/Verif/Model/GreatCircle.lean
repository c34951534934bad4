import Verif.Model.Rotation
/-!
# Model of `great_circle` in `viscid/mapfield.py`
-/
namespace Viscid.GreatCircle
open Matrix Viscid.Rotation

noncomputable section

/-- Element `i` of `np.linspace(a, b, n)`. -/
def linspace (a b : ℝ) (n i : ℕ) : ℝ := a + (b - a) * (i / (n - 1 : ℕ))

/-- mapfield.py:406-427 `sph2cart`, one point, angles in radians. -/
def sph2cart (r θ φ : ℝ) : V3 :=
  ![r * Real.sin θ * Real.cos φ, r * Real.sin θ * Real.sin φ, r * Real.cos θ]

open Classical in
/-- mapfield.py:499-507: the pole of the great circle, with its replacement for collinear points. -/
def poleOf (p1 p2 : V3) : V3 :=
  if isClose (len (cross p1 p2)) 0 then
    if isClose (len (cross ![0, -1, 0] p1)) 0 then ![0, 0, -1] else ![0, -1, 0]
  else cross p1 p2

/-- mapfield.py:508-527: point `i` of the path, relative to the origin.  (The validation of lines 510-516,
which only logs, is left out.) -/
def path (p1 p2 : V3) (n i : ℕ) : Option V3 :=
  (a2bRotNewX ![0, 0, 1] (poleOf p1 p2) p1).map fun M =>
    M *ᵥ sph2cart (linspace (len p1) (len p2) n i) (Real.pi / 2)
      (linspace 0 (arctan2 (len (cross p1 p2)) (dot p1 p2)) n i)

/-- mapfield.py:474-527 `great_circle(p1, p2, origin, n)[:, i]` -/
def greatCircle (p1 p2 origin : V3) (n i : ℕ) : Option V3 :=
  (path (vsub p1 origin) (vsub p2 origin) n i).map fun p => fun j => p j + origin j

end

end Viscid.GreatCircle
