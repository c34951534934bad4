import Verif.Model.A2b
/-! # Angles between vectors, units of angles, vectors that are nearly parallel -/
namespace Viscid.Spec.A2b
open Viscid.Euler (Unit')

/-- `r` (in radians) is the angle between `a` and `b` -/
def IsAngle (a b : Fin d → ℝ) (r : ℝ) : Prop :=
  0 ≤ r ∧ r ≤ Real.pi ∧ Real.cos r * (√(∑ i, a i ^ 2) * √(∑ i, b i ^ 2)) = ∑ i, a i * b i

/-- white space, then the three first letters, then anything -/
def Says (s : List Char) (u : Unit') : Prop :=
  ∃ sp a b c rest, s = sp ++ a :: b :: c :: rest ∧ (∀ x ∈ sp, x ∈ [' ', '\t', '\n', '\r', '\x0b', '\x0c']) ∧
    match u with
    | .rad => (a = 'r' ∨ a = 'R') ∧ (b = 'a' ∨ b = 'A') ∧ (c = 'd' ∨ c = 'D')
    | .deg => (a = 'd' ∨ a = 'D') ∧ (b = 'e' ∨ b = 'E') ∧ (c = 'g' ∨ c = 'G')

/-- an angle in radians, in the unit `u` -/
noncomputable def inUnit (u : Unit') (r : ℝ) : ℝ :=
  match u with
  | .rad => r
  | .deg => r * 180 / Real.pi

end Viscid.Spec.A2b
