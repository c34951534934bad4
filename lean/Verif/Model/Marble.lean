import Mathlib.Analysis.SpecialFunctions.Trigonometric.Basic
/-!
# Model of `viscid/plot/vlab.py`: the picture of Earth on a sphere

Real arithmetic. VTK's plane source puts the place `(u, v)` of a picture (from its lower left corner, both from 0 to 1) at
`origin + u (point1 - origin) + v (point2 - origin)`, in `x_resolution` times `y_resolution` cells; its spherical transform takes (radius, colatitude,
longitude), in radians, to (x, y, z).
-/
namespace Viscid.Marble

abbrev V3 := ℝ × ℝ × ℝ

/-- vtkPlaneSource: where the place `(u, v)` of the picture is -/
def plane (origin p1 p2 : V3) (u v : ℝ) : V3 :=
  (origin.1 + u * (p1.1 - origin.1) + v * (p2.1 - origin.1),
   origin.2.1 + u * (p1.2.1 - origin.2.1) + v * (p2.2.1 - origin.2.1),
   origin.2.2 + u * (p1.2.2 - origin.2.2) + v * (p2.2.2 - origin.2.2))

/-- vtkSphericalTransform -/
noncomputable def spherical (p : V3) : V3 :=
  (p.1 * Real.sin p.2.1 * Real.cos p.2.2, p.1 * Real.sin p.2.1 * Real.sin p.2.2, p.1 * Real.cos p.2.1)

/-- vlab.py:1110 `rotate_z(180)` -/
def turned (p : V3) : V3 := (-p.1, -p.2.1, p.2.2)

/-- vlab.py:1081-1085 the plane, with `eps` of line 1080 -/
noncomputable def sheet (eps r u v : ℝ) : V3 :=
  plane (r, r * Real.pi - eps, r * 0) (r, r * Real.pi - eps, r * 2 * Real.pi) (r, eps, 0) u v

/-- vlab.py:1079-1110 `plot_blue_marble`, before it is rotated to a time: where the place `(u, v)` of the picture is -/
noncomputable def marble (eps r u v : ℝ) : V3 := turned (spherical (sheet eps r u v))

/-- vlab.py:1080 -/
noncomputable def eps : ℝ := 1 / 10 ^ 4

inductive Exc where
  | assertion | type | value
deriving Repr, DecidableEq

/-- vlab.py:1097-1101 the name of the picture; `style` is None if `none` -/
def imgName (style : Option String) (lines : Bool) (res : Nat) : Except Exc String :=
  let linestr := if lines then "_lines" else ""
  if ¬ (style = none ∨ style = some "" ∨ style = some "faded") then .error .assertion
  else if ¬ (res = 1 ∨ res = 2 ∨ res = 4 ∨ res = 8) then .error .assertion
  else
    let m := match style with
      | some s => if s = "" then "" else "_" ++ s
      | none => ""
    .ok ("images/earth" ++ m ++ linestr ++ "_" ++ toString res ++ "k.jpg")

/-- The argument `rotate`: something with `get_rotation_wxyz`, which gives `w`; what `as_cotr` takes (None, times, fields), with the rotation `w`; or a
sequence of numbers. A text or node that `as_cotr` does not take is as a sequence. -/
inductive Rotate where
  | hasRotation (w : List ℝ)
  | cotr (w : List ℝ)
  | numbers (l : List ℝ)

/-- vlab.py:1040-1050 `_apply_rotation`: the arguments of `rotate_wxyz`. `as_cotr` of numbers is a TypeError (cotr.py:792-806, npdatetime.py:744-751); an
empty sequence is taken for a time (npdatetime.py:751), and `Cotr(time=[])` raises some error, here a ValueError. -/
noncomputable def applyRotation (rotate : Rotate) : Except Exc (List ℝ) :=
  let w : Except Exc (List ℝ) := match rotate with
    | .hasRotation w => .ok w
    | .cotr w => .ok w
    | .numbers [] => .error .value
    | .numbers (_ :: _) => .error .type
  match w with
  | .error e => .error e
  | .ok w => if w.length ≠ 4 then .error .value else .ok w

end Viscid.Marble
