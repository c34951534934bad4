import Verif.Model.Cotr
import Verif.Model.A2b
import Mathlib.LinearAlgebra.Matrix.NonsingularInverse
/-!
# Model of `viscid/cotr.py`: vectors with four components, matrices of rotations and translations, axis and angle of a matrix

Real numbers instead of floats.
-/
namespace Viscid.Mats
open Matrix Viscid.Rotation
open Viscid.Cotr (deg2rad rad2deg)

inductive Err where
  | value | index | singular
  deriving DecidableEq, Repr

/-- cotr.py:159-168: the new rows, `j` from `arr.shape[0]` to `ndim`; `init_vals[j]` is there, because there are `ndim` of them -/
def newRows (fill : α → β) (init : List α) (j : Nat) : Nat → List β
  | 0 => []
  | n + 1 => match init[j]? with
    | some v => fill v :: newRows fill init (j + 1) n
    | none => newRows fill init (j + 1) n

/-- cotr.py:142-169 `as_nvec(arr, ndim, init_vals)`: the rows of an array are numbers, or lists of numbers; `fill v` is a row of `v` -/
def asNvec (fill : α → β) (arr : List β) (ndim : Nat) (init : List α) : Except Err (List β) :=
  if arr.length < ndim then
    if init.length < ndim then .error .value
    else .ok (arr ++ newRows fill init arr.length (ndim - arr.length))
  else .ok arr

/-- What can be given as an axis: text, or a number -/
inductive Axis where
  | text (s : List Char)
  | int (n : Int)
  deriving DecidableEq, Repr

/-- cotr.py:188-191: `axis.lower().strip()`; ASCII -/
def Axis.tidy : Axis → Axis
  | .text s => .text (A2b.strip (s.map Char.toLower))
  | .int n => .int n

noncomputable section

/-- cotr.py:196-218: the 4x4 matrix -/
def rotation4 (theta : ℝ) (axis : Axis) : Except Err (Matrix (Fin 4) (Fin 4) ℝ) :=
  let s := Real.sin (deg2rad theta)
  let c := Real.cos (deg2rad theta)
  if theta = 0 then .ok 1
  else if axis = .text ['x'] ∨ axis = .int 0 then .ok !![1, 0, 0, 0; 0, c, s, 0; 0, -s, c, 0; 0, 0, 0, 1]
  else if axis = .text ['y'] ∨ axis = .int 1 then .ok !![c, 0, s, 0; 0, 1, 0, 0; -s, 0, c, 0; 0, 0, 0, 1]
  else if axis = .text ['z'] ∨ axis = .int 2 then .ok !![c, s, 0, 0; -s, c, 0, 0; 0, 0, 1, 0; 0, 0, 0, 1]
  else .error .value

/-- cotr.py:171-220 `make_rotation(theta, axis, rdim)`: the first `rdim` rows and columns (`np.eye(rdim)` is the same part of `np.eye(4)`) -/
def makeRotation (theta : ℝ) (axis : Axis) (rdim : Nat) : Except Err (Matrix (Fin rdim) (Fin rdim) ℝ) :=
  if h : rdim = 2 ∨ rdim = 3 ∨ rdim = 4 then do
    let m ← rotation4 theta axis.tidy
    return m.submatrix (Fin.castLE (by omega)) (Fin.castLE (by omega))
  else .error .value

/-- cotr.py:222-240 `make_translation(v)` -/
def makeTranslation (v : List ℝ) : Except Err (Matrix (Fin 4) (Fin 4) ℝ × Matrix (Fin 4) (Fin 4) ℝ) :=
  match v with
  | x :: y :: z :: _ => .ok (!![1, 0, 0, x; 0, 1, 0, y; 0, 0, 1, z; 0, 0, 0, 1], !![1, 0, 0, -x; 0, 1, 0, -y; 0, 0, 1, -z; 0, 0, 0, 1])
  | _ => .error .index

open Classical in
/-- cotr.py:254-255: `np.linalg.inv` refuses singular matrices; `np.allclose` -/
def checkInverse (M : M3) : Except Err Unit :=
  if M.det = 0 then .error .singular
  else if ∀ i j, isClose (Mᵀ i j) (M⁻¹ i j) then .ok ()
  else .error .value

open Classical in
/-- cotr.py:272-293: the angle in degrees and the axis, from a normalised axis `u` (there is no `np.clip`, as in
`Rotation.angleAbout`; without rounding it makes no difference) -/
def angleAbout (M : M3) (u : V3) : ℝ × V3 :=
  let a := if len (vsub ex u) < 1 / 10 ∨ len (vsub ex u) > 19 / 10 then ey else ex
  let b1 := unit (cross a u)
  let b2 := unit (M *ᵥ b1)
  (rad2deg (Real.arccos (dot b1 b2)), if dot (cross b1 b2) u < 0 then vsmul (-1) u else u)

/-- cotr.py:266-270: what `np.linalg.eig` may return as the eigenvector for the eigenvalue closest to one; for a real
eigenvalue it is real -/
def Eigen (M : M3) (e : Fin 3 → ℂ) : Prop :=
  ∃ lam : ℂ, e ≠ 0 ∧ M.map Complex.ofReal *ᵥ e = lam • e ∧ (lam.im = 0 → ∀ i, (e i).im = 0) ∧
    ∀ (mu : ℂ) (e' : Fin 3 → ℂ), e' ≠ 0 → M.map Complex.ofReal *ᵥ e' = mu • e' → ‖lam - 1‖ ≤ ‖mu - 1‖

/-- cotr.py:242-293 `get_rotation_wxyz(mat, check_inverse, quick)`, as a relation: `eig` may return several things -/
def GetRotationWxyz (check quick : Bool) (M : M3) (r : Except Err (ℝ × V3)) : Prop :=
  match (if check then checkInverse M else .ok ()) with
  | .error e => r = .error e
  | .ok () =>
    let u := if quick then quickAxis M else fun _ => 0
    (¬ isClose (len u) 0 ∧ r = .ok (angleAbout M (unit u))) ∨
    (isClose (len u) 0 ∧ ∃ e, Eigen M e ∧ r = .ok (angleAbout M (unit fun i => (e i).re)))

end

end Viscid.Mats
