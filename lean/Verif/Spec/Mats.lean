import Verif.Model.Mats
/-! # Specification: turning and moving vectors -/
namespace Viscid.Spec.Mats
open Viscid.Mats Viscid.Rotation

/-- The vector `v` turned by the angle `φ` (in radians, right handed) about the unit vector `k`: what is along `k` stays, what is
perpendicular is turned in its plane. -/
noncomputable def turned (φ : ℝ) (k v : V3) : V3 := fun i =>
  let along := k 0 * v 0 + k 1 * v 1 + k 2 * v 2
  let side : V3 := ![k 1 * v 2 - k 2 * v 1, k 2 * v 0 - k 0 * v 2, k 0 * v 1 - k 1 * v 0]
  along * k i + Real.cos φ * (v i - along * k i) + Real.sin φ * side i

/-- Radians of `d` degrees. -/
noncomputable def rad (d : ℝ) : ℝ := d / 180 * Real.pi

/-- The axis that is meant, and the direction of positive angles: right handed about y, left handed about x and z. -/
inductive Means : Axis → V3 → ℝ → Prop
  | x (s : List Char) (h : s ∈ [['x'], ['X']]) : Means (.text s) ![1, 0, 0] (-1)
  | y (s : List Char) (h : s ∈ [['y'], ['Y']]) : Means (.text s) ![0, 1, 0] 1
  | z (s : List Char) (h : s ∈ [['z'], ['Z']]) : Means (.text s) ![0, 0, 1] (-1)
  | zero : Means (.int 0) ![1, 0, 0] (-1)
  | one : Means (.int 1) ![0, 1, 0] 1
  | two : Means (.int 2) ![0, 0, 1] (-1)
  | blank (s a b : List Char) (k : V3) (g : ℝ) (ha : ∀ c ∈ a ++ b, c ∈ [' ', '\t', '\n', '\r', '\x0b', '\x0c']) (h : Means (.text s) k g) :
      Means (.text (a ++ s ++ b)) k g

/-- A vector of three components, and a fourth. -/
def with4 (v : V3) (w : ℝ) : Fin 4 → ℝ := ![v 0, v 1, v 2, w]

end Viscid.Spec.Mats
