import Verif.Model.Seed
/-!
# Model of what is put into 3D scenes: nulls, the earth and ionospheric fields of `viscid/plot/vlab.py`

Real numbers instead of floats; what mayavi draws is not modelled, only what it is asked to.
-/
namespace Viscid.Scene3d
open Viscid.Seed Viscid.Rotation

noncomputable section

/-! ## `plot_nulls` -/

abbrev Pts := List V3
abbrev Color := ℝ × ℝ × ℝ

/-- a dict as from find_nulls, or an array of points -/
inductive Nulls where
  | dict (o a b : Pts)
  | array (p : Pts)

/-- a call of `mlab.points3d`: name, colour (`none` is mayavi's own choice) and points -/
structure Call where
  name : String
  color : Option Color
  pts : Pts

/-- vlab.py:722-724 -/
def Nulls.parts : Nulls → Pts × Pts × Pts
  | .dict o a b => (o, a, b)
  | .array p => (p, [], [])

/-- vlab.py:717-739 `plot_nulls`; the colour is `none` for None -/
def plotNulls (n : Nulls) (acolor bcolor ocolor : Option Color) : List Call :=
  let (o, a, b) := n.parts
  (if ocolor.isSome && o.length != 0 then [⟨"Onulls", ocolor, o⟩] else []) ++
  (if ocolor.isSome && o.length != 0 then [⟨"Anulls", acolor, a⟩] else []) ++
  (if bcolor.isSome && b.length != 0 then [⟨"Bnulls", bcolor, b⟩] else [])

/-! ## `plot_earth_3d` -/

/-- a part of a sphere between two angles about z, in degrees -/
structure Part where
  radius : ℝ
  start : ℝ
  stop : ℝ

/-- vlab.py:1138-1146: angles of dusk and dawn -/
def duskDawn (crdSystem : String) : ℝ × ℝ :=
  if crdSystem = "mhd" then (270, 90) else if crdSystem = "gse" then (90, 270) else (90, 270)

/-- vlab.py:1148-1149 -/
def night (crdSystem : String) (radius : ℝ) : Part := ⟨radius, (duskDawn crdSystem).1, (duskDawn crdSystem).2⟩
/-- vlab.py:1155-1162 -/
def day (crdSystem : String) (radius : ℝ) (nightOnly : Bool) : Option Part :=
  if nightOnly then none else some ⟨radius, (duskDawn crdSystem).2, (duskDawn crdSystem).1⟩

/-- where a part ends in VTK: at the next angle after the start that is the end -/
def Part.stop' (p : Part) : ℝ := if p.stop < p.start then p.stop + 360 else p.stop

/-- the points of a part: by the angle `t` from z, and that about z, in degrees -/
def Part.point (p : Part) (t a : ℝ) : V3 :=
  ![p.radius * Real.sin (t * Real.pi / 180) * Real.cos (a * Real.pi / 180), p.radius * Real.sin (t * Real.pi / 180) * Real.sin (a * Real.pi / 180),
    p.radius * Real.cos (t * Real.pi / 180)]

/-! ## `plot_ionosphere` -/

/-- vlab.py:675-684: the sphere on which the values of a field are put; limits in degrees, as of the field, and its shape -/
def ionoSphere (radius : ℝ) (phil phih thetal thetah : ℝ) (nphi ntheta : ℕ) : Option Sphere :=
  sphereInit ![0, 0, 0] radius ![0, 0, 1] true ntheta nphi (thetal * Real.pi / 180) (thetah * Real.pi / 180) (phil * Real.pi / 180) (phih * Real.pi / 180) 0

/-- vlab.py:684: the angles, theta and phi in radians, at which the value [k, j] of the field is put -/
def ionoPlace (s : Sphere) (k j : ℕ) : Option (ℝ × ℝ) := (s.thetas[j]?).bind fun t => (s.phiAxis[k]?).map fun p => (t, p)

end
end Viscid.Scene3d
