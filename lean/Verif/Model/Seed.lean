import Verif.Model.SeedGrid
import Verif.Model.Rotation
/-!
# Model of the geometry of seeds: `viscid/seed.py`

Real numbers for floats; `none` stands for a vector of nan, which is what a division of the zero vector by its length
gives.  Seeds with an integer `dtype` are not modelled.
-/
namespace Viscid.Seed
open Viscid.Rotation Matrix

noncomputable section
open Classical

/-- `np.linspace(a, b, n, endpoint)` -/
def linspace (a b : ℝ) (n : Nat) (endpoint : Bool := true) : List ℝ :=
  (List.range n).map fun (i : Nat) => a + (i : ℝ) * ((b - a) / (if endpoint then (n : ℝ) - 1 else n))

def vadd (a b : V3) : V3 := fun i => a i + b i

/-! ## `Plane` -/

/-- `v / np.sqrt(np.dot(v, v))` -/
def toUnit (v : V3) : Option V3 := if dot v v = 0 then none else some fun i => v i / √(dot v v)

structure Plane where
  p0 : V3
  ndir : Option V3
  ldir : Option V3
  mdir : Option V3

/-- `np.allclose(v, [0, 0, 0])`; false for nan. -/
def allCloseZero : Option V3 → Bool
  | none => false
  | some v => decide (∀ i, isClose (v i) 0)

/-- seed.py:602-621 -/
def planeDirs (ndir ldir : V3) : Option V3 × Option V3 × Option V3 :=
  let n := toUnit ndir
  let l := n.bind fun n => toUnit (vsub ldir (vsmul (dot ldir n) n))
  let m := n.bind fun n => l.map fun l => cross n l
  (n, l, m)

/-- seed.py:568-636 `Plane.__init__` -/
def Plane.init (p0 pN pL : V3) (vectors : Bool) : Except Err Plane :=
  let ndir := if vectors then pN else vsub pN p0
  let ldir := if vectors then pL else vsub pL p0
  let d := planeDirs ndir ldir
  if allCloseZero d.2.2 then .error .runtimeError
  else .ok ⟨p0, d.1, d.2.1, d.2.2⟩

/-- seed.py:752 `Plane.get_rotation`: the columns are L, M and N; `none` if any is nan. -/
def Plane.rotation (p : Plane) : Option M3 :=
  p.ldir.bind fun l => p.mdir.bind fun m => p.ndir.map fun n =>
    !![l 0, m 0, n 0; l 1, m 1, n 1; l 2, m 2, n 2]

/-- seed.py:650-653 `Plane.to_3d`, one point -/
def Plane.to3d (p : Plane) (v : V3) : Option V3 := p.rotation.map fun R => vadd p.p0 (R *ᵥ v)

/-- seed.py:655-658 `Plane.to_local`, one point -/
def Plane.toLocal (p : Plane) (v : V3) : Option V3 := p.rotation.map fun R => Rᵀ *ᵥ vsub v p.p0

/-! ## `Line` -/

/-- seed.py:461-466, 471-478 `Line.get_points` -/
def linePoints (p0 p1 : V3) (n : Nat) : List V3 :=
  (linspace 0 1 n).map fun t => vadd p0 (vsmul t (vsub p1 p0))

/-- seed.py:483-488 `Line.as_local_coordinates` -/
def lineCrds (p0 p1 : V3) (n : Nat) : List ℝ := linspace 0 (len (vsub p1 p0)) n

/-! ## `Spline` -/

/-- The options given for `splprep` are kept, and `k` is removed from them when it is first used. -/
structure SplineSt where
  k : Option Nat

/-- seed.py:528-535 `Spline.to_3d` of `_make_local_axes()`; `curve k u` is the point at parameter `u` of the
    spline of degree `k` through the knots, by scipy.  Also what as_local_coordinates (552-560) uses. -/
def splineCall (curve : Nat → ℝ → V3) (nknots n : Nat) (s : SplineSt) : List V3 × SplineSt :=
  let k := s.k.getD (nknots - 1)
  let u := linspace 0 1 (n + 1)
  ((linspace 0 1 n).map fun t => curve k (u.getD (⌊t * n⌋).toNat 0), ⟨none⟩)

/-! ## `Sphere` -/

structure Sphere where
  p0 : V3
  r : ℝ
  /-- the normalised pole -/
  pole : V3
  ntheta : Nat
  nphi : Nat
  /-- limits in radians -/
  theta0 : ℝ
  theta1 : ℝ
  phi0 : ℝ
  phi1 : ℝ
  /-- roll around the pole, in radians: `roll + crd_system_roll` -/
  roll : ℝ

/-- seed.py:911-926 `Sphere.__init__`: the radius, if it is not given, is the length of `pole`, which is then
    normalised. `none` for a zero pole (nan). -/
def sphereInit (p0 : V3) (r : ℝ) (pole : V3) (isVector : Bool) (ntheta nphi : Nat) (theta0 theta1 phi0 phi1 roll : ℝ) :
    Option Sphere :=
  let pole := if isVector then pole else vsub pole p0
  if len pole = 0 then none
  else some ⟨p0, if r = 0 then len pole else r, unit pole, ntheta, nphi, theta0, theta1, phi0, phi1, roll⟩

/-- seed.py:1012-1013 `_includes_pole` -/
def includesPole (t : ℝ) : Bool := decide (isClose t 0 ∨ isClose t Real.pi)

/-- seed.py:993-1004 `_resolve_theta_endpoints` for 'auto' -/
def Sphere.endpoints (s : Sphere) : Bool × Bool := (!includesPole s.theta0, !includesPole s.theta1)

/-- seed.py:965-967 `_spans_phi` -/
def Sphere.spansPhi (s : Sphere) : Bool := decide (isClose (s.phi1 - s.phi0) (2 * Real.pi))

/-- seed.py:1068-1085: the theta axis, for given endpoints. -/
def thetaAxis (t0 t1 : ℝ) (n : Nat) (e : Bool × Bool) : List ℝ :=
  if e.1 && e.2 then linspace t0 t1 n
  else if e.1 then linspace t0 t1 n false
  else if e.2 then (linspace t1 t0 n false).reverse
  else
    let t := linspace t0 t1 (n + 1)
    (List.range n).map fun i => (1 / 2 : ℝ) * (t.getD (i + 1) 0 + t.getD i 0)

/-- seed.py:1087-1089 with `_resolve_phi_endpoint` (1006-1010) for 'auto' -/
def Sphere.phiAxis (s : Sphere) : List ℝ := linspace s.phi0 s.phi1 s.nphi (!s.spansPhi)

/-- `theta` for the 'auto' endpoints -/
def Sphere.thetas (s : Sphere) : List ℝ := thetaAxis s.theta0 s.theta1 s.ntheta s.endpoints

/-- seed.py:1038-1049, 1097-1099 `Sphere.to_3d` of (r, theta, phi) -/
def Sphere.to3d (s : Sphere) (t p : ℝ) : Option V3 :=
  (a2bRot ![0, 0, 1] s.pole s.roll).map fun R =>
    vadd s.p0 (R *ᵥ ![s.r * Real.sin t * Real.cos p, s.r * Real.sin t * Real.sin p, s.r * Real.cos t + 0 * p])

/-- seed.py:1136 the point that is added to the mesh at pole `i` -/
def Sphere.polePoint (s : Sphere) (i : Nat) : V3 := vadd s.p0 (vsmul (if i = 0 then 1 else -1) (vsmul s.r s.pole))

/-- seed.py:1015-1020 `_skipped_poles`, 'auto' endpoints -/
def Sphere.skippedPoles (s : Sphere) : Bool × Bool :=
  (includesPole s.theta0 && !s.endpoints.1, includesPole s.theta1 && !s.endpoints.2)

/-- seed.py:1240-1269 `Circle`: `SphericalCap` with both angles 90, one theta; its endpoints for 'auto' are
    (True, False), seed.py:1230-1235. -/
def circlePoints (s : Sphere) : List (Option V3) :=
  (thetaAxis (Real.pi / 2) (Real.pi / 2) 1 (true, false)).flatMap fun t => s.phiAxis.map fun p => s.to3d t p

/-! ## `SphericalPatch` -/

structure Patch where
  p0 : V3
  p1 : V3
  maxAlpha : ℝ
  maxBeta : ℝ
  roll : ℝ
  r : ℝ

/-- seed.py:1274-1305 `SphericalPatch.__init__`, angles in radians, `p1` a vector -/
def patchInit (p0 p1 : V3) (maxAlpha maxBeta roll r : ℝ) : Except Err Patch :=
  let p1' := if r ≠ 0 then vsmul (r / len p1) p1 else p1
  let r' := if r ≠ 0 then r else len p1
  if Real.sin maxAlpha ^ 2 + Real.sin maxBeta ^ 2 > 1 then .error .valueError
  else .ok ⟨p0, p1', maxAlpha, maxBeta, roll, r'⟩

/-- `np.sqrt`: nan for negative numbers. -/
def sqrtNan (x : ℝ) : Option ℝ := if x < 0 then none else some (√x)

/-- seed.py:1319-1325, 1347-1348 `SphericalPatch.to_3d` of (alpha, beta) -/
def Patch.to3d (s : Patch) (a b : ℝ) : Option V3 :=
  let x := s.r * Real.sin a
  let y := s.r * Real.sin b
  (sqrtNan (s.r ^ 2 - x ^ 2 - y ^ 2)).bind fun z =>
    (a2bRot ![0, 0, 1] s.p1 s.roll).map fun R => vadd s.p0 (R *ᵥ ![x, y, z])

/-- seed.py:1337-1342: the two axes. -/
def Patch.axes (s : Patch) (na nb : Nat) : List ℝ × List ℝ :=
  (linspace (-s.maxAlpha) s.maxAlpha na, linspace (-s.maxBeta) s.maxBeta nb)

end
end Viscid.Seed
