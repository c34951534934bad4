import Verif.Model.Cotr
import Verif.Model.SphCart
/-!
# Model of `viscid/dipole.py`: field lines of an ideal dipole, and its field at a list of points

Real numbers for floats.  A division by zero is 0 here, infinite or nan in numpy; the theorems exclude it.
-/
namespace Viscid.Dipole
open Viscid.Rotation Viscid.Cotr

noncomputable section

/-- `(l-shell, r, lambda, phi)` -/
structure Lsrlp where
  lshell : ℝ
  r : ℝ
  lam : ℝ
  phi : ℝ

/-- `viscid.cart2sph` of an array of floats (the points were multiplied with a matrix of floats). -/
def sph (v : V3) : V3 :=
  match SphCart.cart2sph .float false v with
  | .ok s => s
  | .error _ => 0

/-- `viscid.sph2cart` of an array of floats. -/
def cart (v : V3) : V3 :=
  match SphCart.sph2cart .float false v with
  | .ok s => s
  | .error _ => 0

/-- dipole.py:268-298 `xyz2lsrlp`, for one point; `p` is the `Cotr`. -/
def xyz2lsrlp (p : Params) (s : Sys) (pt : V3) : Act Lsrlp := do
  let v ← transform p s .sm pt
  let a := sph v
  let lam := 0.5 * Real.pi - a 1
  pure ⟨a 0 / Real.cos lam ^ 2, a 0, lam, a 2⟩

/-- dipole.py:328-341: (r, theta, phi) of the mapped point. -/
def mapped (l : Lsrlp) (r : ℝ) : V3 :=
  ![r, 0.5 * Real.pi - sgn l.lam * Real.arccos (√(r / l.lshell)), l.phi]

/-- dipole.py:300-349 `dipole_map` with `as_spherical=False` -/
def dipoleMap (p : Params) (s : Sys) (r : ℝ) (pt : V3) : Act V3 := do
  let l ← xyz2lsrlp p s pt
  transform p .sm s (cart (mapped l r))

/-- dipole.py:343-347 `dipole_map` with `as_spherical=True`: r, theta and phi in degrees, in SM. -/
def dipoleMapSph (p : Params) (s : Sys) (r : ℝ) (pt : V3) : Act V3 := do
  let l ← xyz2lsrlp p s pt
  let m := mapped l r
  let phi := rad2deg (m 2)
  pure ![m 0, rad2deg (m 1), phi - 360 * (⌊phi / 360⌋ : ℤ)]

/-! ## `calc_dip` -/

inductive Err where
  | valueError
  deriving DecidableEq, Repr

/-- An array of shape (N, 3) combined with one of shape (K,) by a broadcasting operation: the last dimensions, 3
    and K, must be equal, or K must be 1. -/
def bcast (f : ℝ → ℝ → ℝ) (a : List V3) (b : List ℝ) : Except Err (List V3) :=
  if b.length = 1 then .ok (a.map fun v => fun j => f (v j) (b.getD 0 0))
  else if b.length = 3 then .ok (a.map fun v => fun j => f (v j) (b.getD j 0))
  else .error .valueError

/-- dipole.py:175-203 `calc_dip`, of an (N, 3) array of floats and a moment, without `strength`.
    `rsq**1.5` is written as `rsq * sqrt(rsq)`. -/
def calcDip (pts : List V3) (m : V3) : Except Err (List V3) :=
  let rsq := pts.map fun v => v 0 ^ 2 + v 1 ^ 2 + v 2 ^ 2
  let mdotr := pts.map fun v => m 0 * v 0 + m 1 * v 1 + m 2 * v 2
  match bcast (· * ·) (pts.map fun v => fun j => 3 * v j) mdotr with
  | .error e => .error e
  | .ok a => match bcast (· / ·) a rsq with
    | .error e => .error e
    | .ok b => bcast (· / ·) (b.map fun v => fun j => v j - m j) (rsq.map fun q => q * √q)

/-- dipole.py:176-178, 204-205: a single point of shape (3,). -/
def calcDipOne (pt : V3) (m : V3) : Except Err V3 :=
  match calcDip [pt] m with
  | .ok l => match l with
    | v :: _ => .ok v
    | [] => .error .valueError
  | .error e => .error e

end
end Viscid.Dipole
