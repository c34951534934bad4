import Verif.Model.Seed
/-!
# Model of `SphericalCap` of `viscid/seed.py` and of `guess_dipole_moment` of `viscid/dipole.py`

Real numbers instead of floats. The field interpolated at a point is a function; nan is not modelled.
-/
namespace Viscid.CapGuess
open Viscid.Seed Viscid.Rotation

noncomputable section

/-- `theta_endpoint`: 'auto', or one value for each end -/
inductive Ends where
  | auto
  | pair (a b : Bool)

/-- seed.py:1210-1220 `SphericalCap.__init__(angle0, angle, theta_endpoint, **kwargs)`: limits are given in degrees.
`theta_endpoint` is an argument of this function and so is not among the `kwargs` passed on: `Sphere.__init__` (seed.py:868-950) has its default 'auto'. -/
def capInit (p0 : V3) (r : ℝ) (pole : V3) (ntheta nphi : Nat) (angle0 angle : ℝ) (phi0 phi1 roll : ℝ) (_thetaEndpoint : Ends) :
    Option (Sphere × Ends) :=
  (sphereInit p0 r pole true ntheta nphi (angle0 * Real.pi / 180) (angle * Real.pi / 180) (phi0 * Real.pi / 180) (phi1 * Real.pi / 180)
    (roll * Real.pi / 180)).map fun s => (s, .auto)

/-- seed.py:1226-1228 `SphericalCap.angle` -/
def capAngle (s : Sphere) : ℝ := s.theta1

/-- seed.py:1230-1235 `SphericalCap._resolve_theta_endpoints` -/
def capEnds : Ends → Bool × Bool
  | .auto => (true, false)
  | .pair a b => (a, b)

/-- seed.py:1068-1085 with these ends -/
def capThetas (s : Sphere) (e : Ends) : List ℝ := thetaAxis s.theta0 s.theta1 s.ntheta (capEnds e)

/-- seed.py:1054-1066 `_make_local_points` without `theta_phi`, and 1038-1049 `to_3d`: phi is the slower index -/
def capPoints (s : Sphere) (e : Ends) : List (Option V3) :=
  s.phiAxis.flatMap fun p => (capThetas s e).map fun t => s.to3d t p

/-- `np.argmax`: the first index of the greatest value; ValueError (`none`) without values -/
def argmaxFrom (best : ℝ) (bi : Nat) : Nat → List ℝ → Nat
  | _, [] => bi
  | i, y :: ys => if y > best then argmaxFrom y i (i + 1) ys else argmaxFrom best bi (i + 1) ys

def argmax : List ℝ → Option Nat
  | [] => none
  | x :: xs => some (argmaxFrom x 0 1 xs)

/-- dipole.py:30-56 `guess_dipole_moment(b, r, strength, cap_angle, cap_ntheta, cap_nphi)`; `b` is the field as interpolated -/
def guess (b : V3 → V3) (r strength capAngle : ℝ) (ntheta nphi : Nat) : Option V3 :=
  match capInit 0 r ![0, 0, 1] ntheta nphi 0 capAngle 0 360 0 (.pair true false) with
  | none => none
  | some (s, e) =>
    let pts := (capPoints s e).filterMap id
    (argmax (pts.map fun p => len (b p))).bind fun i => (pts[i]?).map fun p => fun k => strength * p k / len p

end
end Viscid.CapGuess
