import Verif.Model.Basic
import Mathlib.LinearAlgebra.Matrix.Notation
import Mathlib.LinearAlgebra.Matrix.Determinant.Basic
import Mathlib.Analysis.SpecialFunctions.Trigonometric.Basic
import Mathlib.Analysis.SpecialFunctions.Complex.Arg
import Mathlib.Analysis.Real.Sqrt
/-!
# Model of `viscid/rotation.py`: matrices, quaternions, axis-angle and Euler angles

Everything is over the real numbers (floating point rounding is not modelled), for single values (the
stacked versions apply the same formulas row by row).  `np.arctan2(y, x)` is the argument of `x + i y`
(signed zeros are not modelled: `arctan2(-0.0, -1)` is `-pi` in numpy).  A division by a zero norm, which
gives nan in numpy, is `none`.  That `quat2rot` normalises and `a2b_rot` divides in place (changing arrays
of the caller) is not modelled.
-/
namespace Viscid.Rotation
open Matrix

noncomputable section

abbrev M3 := Matrix (Fin 3) (Fin 3) ℝ
abbrev V3 := Fin 3 → ℝ

inductive Err where
  | valueError
  deriving DecidableEq, Repr

/-- A quaternion as stored: scalar, then vector part. -/
@[ext] structure Quat where
  w : ℝ
  x : ℝ
  y : ℝ
  z : ℝ

def Quat.neg (q : Quat) : Quat := ⟨-q.w, -q.x, -q.y, -q.z⟩
def Quat.scale (q : Quat) (c : ℝ) : Quat := ⟨q.w * c, q.x * c, q.y * c, q.z * c⟩

/-- `np.linalg.norm(q, axis=-1)` -/
def Quat.norm (q : Quat) : ℝ := √(q.w ^ 2 + q.x ^ 2 + q.y ^ 2 + q.z ^ 2)

/-- `np.isclose(a, b)` with the default tolerances rtol=1e-5, atol=1e-8. -/
def isClose (a b : ℝ) : Prop := |a - b| ≤ 1 / 10 ^ 8 + 1 / 10 ^ 5 * |b|

open Classical in
/-- rotation.py:780-783: renormalise unless the norm is close to 0 or 1. -/
def renorm (q : Quat) : Quat :=
  if isClose q.norm 0 ∨ isClose q.norm 1 then q else q.scale (1 / q.norm)

/-- rotation.py:786-798: the nine entries. -/
def rotOf (q : Quat) : M3 :=
  !![1 - 2 * (q.y ^ 2 + q.z ^ 2), 2 * (q.x * q.y - q.z * q.w), 2 * (q.x * q.z + q.y * q.w);
     2 * (q.x * q.y + q.z * q.w), 1 - 2 * (q.x ^ 2 + q.z ^ 2), 2 * (q.y * q.z - q.x * q.w);
     2 * (q.x * q.z - q.y * q.w), 2 * (q.y * q.z + q.x * q.w), 1 - 2 * (q.x ^ 2 + q.y ^ 2)]

/-- rotation.py:761-802 `quat2rot` -/
def quat2rot (q : Quat) : M3 := rotOf (renorm q)

/-- rotation.py:804-816 `quat2dcm` -/
def quat2dcm (q : Quat) : M3 := (quat2rot q)ᵀ

/-- rotation.py:897-914: one step of the loop of `quatmul`, `a` the product so far. -/
def qmul (a b : Quat) : Quat :=
  ⟨a.w * b.w - a.x * b.x - a.y * b.y - a.z * b.z,
   a.x * b.w + a.w * b.x - a.z * b.y + a.y * b.z,
   a.y * b.w + a.z * b.x + a.w * b.y - a.x * b.z,
   a.z * b.w - a.y * b.x + a.x * b.y + a.w * b.z⟩

/-- rotation.py:866-920 `quatmul(*quats)` (without numpy-quaternion). -/
def quatmul (qs : List Quat) : Quat := qs.foldl qmul ⟨1, 0, 0, 0⟩

/-- rotation.py:922-958 `quat_rotate(vec, *quats)`; q_inv is the conjugate over the squared norm. -/
def quatRotate (v : V3) (qs : List Quat) : Option V3 :=
  let q := quatmul qs
  let n := q.w ^ 2 + q.x ^ 2 + q.y ^ 2 + q.z ^ 2
  if n = 0 then none
  else
    let r := quatmul [q, ⟨0, v 0, v 1, v 2⟩, ⟨q.w / n, -q.x / n, -q.y / n, -q.z / n⟩]
    some ![r.x, r.y, r.z]

/-- rotation.py:709-726: the matrix K3 of `rot2quat`. -/
def k3 (R : M3) : Matrix (Fin 4) (Fin 4) ℝ :=
  !![(R 0 0 - R 1 1 - R 2 2) / 3, (R 1 0 + R 0 1) / 3, (R 2 0 + R 0 2) / 3, (R 1 2 - R 2 1) / 3;
     (R 1 0 + R 0 1) / 3, (R 1 1 - R 0 0 - R 2 2) / 3, (R 2 1 + R 1 2) / 3, (R 2 0 - R 0 2) / 3;
     (R 2 0 + R 0 2) / 3, (R 2 1 + R 1 2) / 3, (R 2 2 - R 0 0 - R 1 1) / 3, (R 0 1 - R 1 0) / 3;
     (R 1 2 - R 2 1) / 3, (R 2 0 - R 0 2) / 3, (R 0 1 - R 1 0) / 3, (R 0 0 + R 1 1 + R 2 2) / 3]

/-- `(lam, u)` is an eigenpair of `K`. -/
def Eig (K : Matrix (Fin 4) (Fin 4) ℝ) (lam : ℝ) (u : Fin 4 → ℝ) : Prop := u ≠ 0 ∧ K *ᵥ u = lam • u

/-- rotation.py:728-735, the result for a selected eigenvector. -/
def ofEvec (u : Fin 4 → ℝ) : Quat :=
  let q : Quat := ⟨u 3, -u 0, -u 1, -u 2⟩
  q.scale (1 / q.norm)

/-- rotation.py:681-740 `rot2quat`, as a relation: `np.linalg.eigh` returns some orthonormal eigenvectors
with their eigenvalues, and one with the largest eigenvalue is selected. -/
def Rot2Quat (R : M3) (q : Quat) : Prop :=
  ∃ lam u, Eig (k3 R) lam u ∧ (∀ mu u', Eig (k3 R) mu u' → mu ≤ lam) ∧ q = ofEvec u

/-- Euclidean length, `np.linalg.norm`. -/
def len (v : V3) : ℝ := √(v 0 ^ 2 + v 1 ^ 2 + v 2 ^ 2)

/-- rotation.py:987-993: the cross product matrix of `k`. -/
def crossMat (k : V3) : M3 := !![0, -k 2, k 1; k 2, 0, -k 0; -k 1, k 0, 0]

/-- rotation.py:1000-1003, Rodrigues' formula for the axis `k`. -/
def rodrigues (θ : ℝ) (k : V3) : M3 :=
  1 + Real.sin θ • crossMat k + (1 - Real.cos θ) • (crossMat k * crossMat k)

/-- rotation.py:960-1008 `wxyz2rot`; `none` is nan (a zero axis). -/
def wxyz2rot (θ : ℝ) (v : V3) : Option M3 :=
  if len v = 0 then none else some (rodrigues θ fun i => v i / len v)

/-- rotation.py:1133-1168 `wxyz2quat` -/
def wxyz2quat (θ : ℝ) (v : V3) : Option Quat :=
  if len v = 0 then none
  else some ⟨Real.cos (θ / 2), Real.sin (θ / 2) * v 0 / len v, Real.sin (θ / 2) * v 1 / len v,
    Real.sin (θ / 2) * v 2 / len v⟩

/-- `np.arctan2(y, x)` -/
def arctan2 (y x : ℝ) : ℝ := Complex.arg ⟨x, y⟩

open Classical in
/-- rotation.py:1189-1226 `quat2wxyz` for one quaternion (for a stack, line 1216 divides every quaternion by
the norm of the last one, which changes nothing but the comparison with zero); `none` is nan. -/
def quat2wxyz (q : Quat) : Option (ℝ × V3) :=
  if q.norm = 0 then none
  else
    let q := q.scale (1 / q.norm)
    let vn := len ![q.x, q.y, q.z]
    some (2 * arctan2 vn q.w, if isClose vn 0 then ![0, 0, 1] else ![q.x / vn, q.y / vn, q.z / vn])

/-- `np.cross`, `np.sum(a * b)` -/
def cross (a b : V3) : V3 := ![a 1 * b 2 - a 2 * b 1, a 2 * b 0 - a 0 * b 2, a 0 * b 1 - a 1 * b 0]
def dot (a b : V3) : ℝ := a 0 * b 0 + a 1 * b 1 + a 2 * b 2
def vsmul (c : ℝ) (a : V3) : V3 := fun i => c * a i
def vsub (a b : V3) : V3 := fun i => a i - b i
/-- `v / np.linalg.norm(v)` -/
def unit (v : V3) : V3 := fun i => v i / len v
def ex : V3 := ![1, 0, 0]
def ey : V3 := ![0, 1, 0]

/-- `np.clip(a, -1.0, 1.0)` -/
def clip (a : ℝ) : ℝ := max (-1) (min a 1)

/-- What `np.linalg.eigh` reads of a matrix: the lower triangle. -/
def symLower (R : M3) : M3 :=
  !![R 0 0, R 1 0, R 2 0; R 1 0, R 1 1, R 2 1; R 2 0, R 2 1, R 2 2]

/-- rotation.py:1061-1068: the axis of the quick method. -/
def quickAxis (R : M3) : V3 := ![R 2 1 - R 1 2, R 0 2 - R 2 0, R 1 0 - R 0 1]

open Classical in
/-- rotation.py:1082-1102: the angle and the signed axis, from a normalised axis `u`. -/
def angleAbout (R : M3) (u : V3) : ℝ × V3 :=
  let a := if len (vsub ex u) < 1 / 10 ∨ len (vsub ex u) > 19 / 10 then ey else ex
  let b1 := unit (cross a u)
  let b2 := unit (R *ᵥ b1)
  (Real.arccos (clip (dot b1 b2)), if dot (cross b1 b2) u < 0 then vsmul (-1) u else u)

/-- rotation.py:1028-1107 `rot2wxyz(R, quick)`, as a relation: the eigenvectors are any that
`np.linalg.eigh` may return, one with the eigenvalue closest to one being selected.  (The determinant check,
which only warns by default, is left out.) -/
def Rot2Wxyz (quick : Bool) (R : M3) (r : ℝ × V3) : Prop :=
  let u := if quick then quickAxis R else fun _ => 0
  (¬ isClose (len u) 0 ∧ r = angleAbout R (unit u)) ∨
  (isClose (len u) 0 ∧ ∃ (lam : ℝ) (e : V3), e ≠ 0 ∧ symLower R *ᵥ e = lam • e ∧
    (∀ (mu : ℝ) (e' : V3), e' ≠ 0 → symLower R *ᵥ e' = mu • e' → |lam - 1| ≤ |mu - 1|) ∧ r = angleAbout R (unit e))

open Classical in
/-- rotation.py:1310-1317: the rotation axis of `a2b_rot`, for unit vectors. -/
def a2bAxis (a b : V3) : V3 :=
  let axis := cross a b
  if isClose (len axis) 0 then
    let axis := cross a ex
    if isClose (len axis) 0 then cross a ey else axis
  else axis

/-- rotation.py:1304-1319, for unit vectors: the rotation before roll. -/
def a2bUnit (a b : V3) : Option M3 :=
  wxyz2rot (arctan2 (len (cross a b)) (dot a b)) (a2bAxis a b)

/-- rotation.py:1342-1348: the optional roll around `b` (in radians). -/
def applyRoll (roll : ℝ) (b : V3) (R : M3) : Option M3 :=
  if roll = 0 then some R else (wxyz2rot roll b).map (· * R)

/-- rotation.py:1277-1350 `a2b_rot(a, b, roll)`, roll in radians; `none` is nan (a zero vector). -/
def a2bRot (a b : V3) (roll : ℝ) : Option M3 :=
  if len a = 0 ∨ len b = 0 then none
  else (a2bUnit (unit a) (unit b)).bind (applyRoll roll (unit b))

/-- `np.sign` -/
def sgn (x : ℝ) : ℝ := if 0 < x then 1 else if x < 0 then -1 else 0

open Classical in
/-- rotation.py:1322-1340: the roll chosen from `new_x`, for unit `b`. -/
def newXRoll (b newx : V3) (R : M3) : ℝ :=
  let nx := vsub newx (vsmul (dot newx b) b)
  if isClose (len nx) 0 then 0
  else
    let nx := unit nx
    let cx := unit (R *ᵥ ex)
    arctan2 (len (cross cx nx)) (dot cx nx) * sgn (dot (cross cx nx) b)

/-- rotation.py:1277-1350 `a2b_rot(a, b, new_x=newx)` (and no roll) -/
def a2bRotNewX (a b newx : V3) : Option M3 :=
  if len a = 0 ∨ len b = 0 then none
  else (a2bUnit (unit a) (unit b)).bind fun R => applyRoll (newXRoll (unit b) newx R) (unit b) R

end

end Viscid.Rotation
