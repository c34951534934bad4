import Verif.Model.Rotation
/-!
# Model of the Euler angle functions of `viscid/rotation.py`

Over the reals, for one matrix.  Axes are given as three letters; other letters raise in `e_rot`, and orders
other than the twelve raise in `rot2angle`.  The determinant check only warns by default and is left out.
-/
namespace Viscid.Euler
open Matrix Viscid.Rotation

noncomputable section

inductive Ax where
  | x | y | z
  deriving DecidableEq, Repr

structure Ang where
  a0 : ℝ
  a1 : ℝ
  a2 : ℝ

/-- `angles[::-1]` -/
def Ang.rev (a : Ang) : Ang := ⟨a.a2, a.a1, a.a0⟩
/-- `-angles` -/
def Ang.neg (a : Ang) : Ang := ⟨-a.a0, -a.a1, -a.a2⟩
def Ang.map (f : ℝ → ℝ) (a : Ang) : Ang := ⟨f a.a0, f a.a1, f a.a2⟩

inductive Unit' where
  | rad | deg
  deriving DecidableEq, Repr

/-- rotation.py:176-201 `convert_angle` from `u` to radians, and from radians to `u`. -/
def toRad : Unit' → ℝ → ℝ
  | .rad, a => a
  | .deg, a => a * (Real.pi / 180)
def ofRad : Unit' → ℝ → ℝ
  | .rad, a => a
  | .deg, a => a * (180 / Real.pi)

/-- rotation.py:230-288 `e_rot`, angle in radians. -/
def eRot (θ : ℝ) : Ax → M3
  | .x => !![1, 0, 0; 0, Real.cos θ, -Real.sin θ; 0, Real.sin θ, Real.cos θ]
  | .y => !![Real.cos θ, 0, Real.sin θ; 0, 1, 0; -Real.sin θ, 0, Real.cos θ]
  | .z => !![Real.cos θ, -Real.sin θ, 0; Real.sin θ, Real.cos θ, 0; 0, 0, 1]

/-- rotation.py:290-309 `e_dcm` -/
def eDcm (θ : ℝ) (ax : Ax) : M3 := eRot (-θ) ax

/-- rotation.py:311-362 `angle2rot(angles, axes)`, angles in radians (line 343 converts). -/
def angle2rotRad (a : Ang) (i j k : Ax) : M3 := eRot a.a2 k * (eRot a.a1 j * eRot a.a0 i)

/-- rotation.py:311-362 `angle2rot(angles, axes, unit)` -/
def angle2rot (u : Unit') (a : Ang) (i j k : Ax) : M3 := angle2rotRad (a.map (toRad u)) i j k

/-- rotation.py:364-398 `eul2rot` -/
def eul2rot (u : Unit') (a : Ang) (i j k : Ax) : M3 := angle2rot u a.rev k j i

/-- rotation.py:400-429 `angle2dcm` -/
def angle2dcm (u : Unit') (a : Ang) (i j k : Ax) : M3 := angle2rot u a.neg i j k

/-- rotation.py:431-462 `eul2dcm` -/
def eul2dcm (u : Unit') (a : Ang) (i j k : Ax) : M3 := angle2dcm u a.rev k j i

/-- The entries `rot2angle` reads for three different axes. -/
structure TB where
  s1 : ℝ
  c0c1 : ℝ
  s0c1 : ℝ
  s2c1 : ℝ
  c2c1 : ℝ
  s0p2 : ℝ
  c0p2 : ℝ

/-- The entries `rot2angle` reads when the first axis is repeated. -/
structure PE where
  c1 : ℝ
  s0s1 : ℝ
  c0s1 : ℝ
  s1s2 : ℝ
  s1c2 : ℝ
  s0p2 : ℝ
  c0p2 : ℝ

/-- rotation.py:500-530: the table for three different axes. -/
def tbTable (R : M3) : Ax → Ax → Ax → Option TB
  | .z, .y, .x => some ⟨R 0 2, R 0 0, -R 0 1, -R 1 2, R 2 2, R 2 1, R 1 1⟩
  | .y, .x, .z => some ⟨R 2 1, R 2 2, -R 2 0, -R 0 1, R 1 1, R 1 0, R 0 0⟩
  | .x, .z, .y => some ⟨R 1 0, R 1 1, -R 1 2, -R 2 0, R 0 0, R 0 2, R 2 2⟩
  | .x, .y, .z => some ⟨-R 2 0, R 2 2, R 2 1, R 1 0, R 0 0, -R 0 1, R 1 1⟩
  | .y, .z, .x => some ⟨-R 0 1, R 0 0, R 0 2, R 2 1, R 1 1, -R 1 2, R 2 2⟩
  | .z, .x, .y => some ⟨-R 1 2, R 1 1, R 1 0, R 0 2, R 2 2, -R 2 0, R 0 0⟩
  | _, _, _ => none

/-- rotation.py:548-578: the table for a repeated axis. -/
def peTable (R : M3) : Ax → Ax → Ax → Option PE
  | .z, .y, .z => some ⟨R 2 2, R 2 1, -R 2 0, R 1 2, R 0 2, -R 0 1, R 1 1⟩
  | .z, .x, .z => some ⟨R 2 2, R 2 0, R 2 1, R 0 2, -R 1 2, R 1 0, R 0 0⟩
  | .y, .z, .y => some ⟨R 1 1, R 1 2, R 1 0, R 2 1, -R 0 1, R 0 2, R 2 2⟩
  | .y, .x, .y => some ⟨R 1 1, R 1 0, -R 1 2, R 0 1, R 2 1, -R 2 0, R 0 0⟩
  | .x, .z, .x => some ⟨R 0 0, R 0 2, -R 0 1, R 2 0, R 1 0, -R 1 2, R 2 2⟩
  | .x, .y, .x => some ⟨R 0 0, R 0 1, R 0 2, R 1 0, -R 2 0, R 2 1, R 1 1⟩
  | _, _, _ => none

/-- rotation.py:498 `singular_threshold` -/
def singularThreshold : ℝ := 1 / 10 ^ 10

/-- rotation.py:532-546 -/
def tbAngles (t : TB) : Ang :=
  let c1 := clip √(t.c0c1 ^ 2 + t.s0c1 ^ 2)
  if |c1| < singularThreshold then
    ⟨0, arctan2 (clip t.s1) c1, arctan2 (clip t.s0p2) (clip t.c0p2)⟩
  else
    ⟨arctan2 (clip t.s0c1 / c1) (clip t.c0c1 / c1), arctan2 (clip t.s1) c1,
     arctan2 (clip t.s2c1 / c1) (clip t.c2c1 / c1)⟩

/-- rotation.py:580-594 -/
def peAngles (t : PE) : Ang :=
  let s1 := clip √(t.s0s1 ^ 2 + t.c0s1 ^ 2)
  if |s1| < singularThreshold then
    ⟨0, arctan2 s1 (clip t.c1), arctan2 (clip t.s0p2) (clip t.c0p2)⟩
  else
    ⟨arctan2 (clip t.s0s1) (clip t.c0s1), arctan2 s1 (clip t.c1), arctan2 (clip t.s1s2) (clip t.s1c2)⟩

/-- rotation.py:464-598 `rot2angle(R, axes)`, angles in radians. -/
def rot2angleRad (R : M3) (i j k : Ax) : Except Err Ang :=
  match tbTable R i j k with
  | some t => .ok (tbAngles t)
  | none => match peTable R i j k with
    | some t => .ok (peAngles t)
    | none => .error .valueError

/-- rotation.py:464-598 `rot2angle(R, axes, unit)` -/
def rot2angle (u : Unit') (R : M3) (i j k : Ax) : Except Err Ang :=
  (rot2angleRad R i j k).map (Ang.map (ofRad u))

/-- rotation.py:600-621 `rot2eul` -/
def rot2eul (u : Unit') (R : M3) (i j k : Ax) : Except Err Ang := (rot2angle u R k j i).map Ang.rev

/-- rotation.py:623-656 `dcm2angle` -/
def dcm2angle (u : Unit') (R : M3) (i j k : Ax) : Except Err Ang := (rot2angle u Rᵀ k j i).map Ang.rev

/-- rotation.py:658-679 `dcm2eul` -/
def dcm2eul (u : Unit') (R : M3) (i j k : Ax) : Except Err Ang := (dcm2angle u R k j i).map Ang.rev

end

end Viscid.Euler
