import Verif.Model.RotStack
import Verif.Model.AsCotr
import Mathlib.LinearAlgebra.Matrix.Determinant.Basic
/-!
# Model of conversions of stacks of rotations: `viscid/rotation.py` `check_orthonormality`, `rot2quat`, `dcm2quat`, `rot2wxyz`, `rot2axang`, `quat2axang`

Angles are in radians (for units see `Verif.Model.A2b`). nan is `none`. The numpy-quaternion module is not imported.
-/
namespace Viscid.RotConv
open Viscid.Rotation Viscid.RotStack

abbrev Text := List Char

/-- `np.allclose(x, 1.0, atol=8e-16, rtol=4e-16)` for one number -/
noncomputable def closeToOne (x : ℝ) : Prop := |x - 1| ≤ 8 / 10 ^ 16 + 4 / 10 ^ 16 * |(1 : ℝ)|

/-- What `check_orthonormality` does: it returns a value or raises ValueError, and it may print a message. -/
structure Checked where
  result : Except RotStack.Err (Option Bool)
  printed : Bool

open Classical in
/-- rotation.py:203-228 `check_orthonormality(mat, bad_matrix)`; `none` as `bad_matrix` is None -/
noncomputable def check (mats : Stk (Matrix (Fin d) (Fin d) ℝ)) (bad : Option Text) : Checked :=
  let bad := match bad with
    | none => "ignore".toList
    | some [] => "ignore".toList
    | some s => s
  let bad := AsCotr.clean bad
  if bad ≠ "ignore".toList then
    if ∀ m ∈ mats.list, closeToOne m.det then ⟨.ok (some true), false⟩
    else if bad = "raise".toList then ⟨.error .value, false⟩
    else if bad = "warn".toList then ⟨.ok (some false), true⟩
    else ⟨.ok (some false), false⟩
  else ⟨.ok none, false⟩

/-- rotation.py:681-740 `rot2quat` for one matrix or a stack: whatever eigenvectors are found for each -/
def Rot2Quats : Stk M3 → Stk Quat → Prop
  | .one R, .one q => Rot2Quat R q
  | .many Rs, .many qs => List.Forall₂ Rot2Quat Rs qs
  | _, _ => False

/-- `np.swapaxes(R, -2, -1)` -/
def swap : Stk M3 → Stk M3
  | .one R => .one R.transpose
  | .many Rs => .many (Rs.map Matrix.transpose)

/-- rotation.py:742-759 `dcm2quat` -/
def Dcm2Quats (R : Stk M3) (q : Stk Quat) : Prop := Rot2Quats (swap R) q

/-- rotation.py:1028-1107 `rot2wxyz(R, quick=…, bad_matrix=…)`; a stack of angles and a stack of axes -/
def Rot2Wxyzs (quick : Bool) (bad : Option Text) (R : Stk M3) (r : Except RotStack.Err (Stk (ℝ × V3))) : Prop :=
  match (check R bad).result with
  | .error e => r = .error e
  | .ok _ => match R with
    | .one R => ∃ p, Rot2Wxyz quick R p ∧ r = .ok (.one p)
    | .many Rs => ∃ ps, List.Forall₂ (Rot2Wxyz quick) Rs ps ∧ r = .ok (.many ps)

/-- rotation.py:1124-1131 and 1241-1248: `axang[..., :3] = ax`, `axang[..., 3] = ang` -/
def pack : Stk (ℝ × V3) → Stk (V3 × ℝ)
  | .one p => .one (p.2, p.1)
  | .many l => .many (l.map fun p => (p.2, p.1))

/-- rotation.py:1109-1131 `rot2axang` -/
def Rot2Axangs (quick : Bool) (bad : Option Text) (R : Stk M3) (r : Except RotStack.Err (Stk (V3 × ℝ))) : Prop :=
  ∃ w, Rot2Wxyzs quick bad R w ∧ r = w.map pack

/-- rotation.py:1228-1248 `quat2axang` -/
noncomputable def quat2axang (q : Stk Quat) : Except RotStack.Err (Stk (Option (V3 × ℝ))) :=
  (RotStack.quat2wxyz q).map fun
    | .one p => .one (p.map fun p => (p.2, p.1))
    | .many l => .many (l.map fun p => p.map fun p => (p.2, p.1))

end Viscid.RotConv
