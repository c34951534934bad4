import Verif.Spec.Minvar
import Mathlib.Analysis.SpecialFunctions.Trigonometric.Inverse
import Mathlib.Analysis.Calculus.Deriv.Basic
/-!
# Normals of surfaces, edges, and angles
-/
namespace Viscid.Spec.Mpause
open Viscid.Spec.Minvar (along)

/-- `n` is at right angles to the surface `x = f y z` at `y` and `z`: to its tangents in the directions of both -/
def Normal (f : ℝ → ℝ → ℝ) (y z : ℝ) (n : Fin 3 → ℝ) : Prop :=
  (∃ d, HasDerivAt (fun y => f y z) d y ∧ along n ![d, 1, 0] = 0) ∧ ∃ d, HasDerivAt (fun z => f y z) d z ∧ along n ![d, 0, 1] = 0

/-- `m` is the largest magnitude of `l` -/
def Largest (l : List ℝ) (m : ℝ) : Prop := (∀ x ∈ l, |x| ≤ m) ∧ ∃ x ∈ l, |x| = m

/-- `i` is the first with more than `t`; or the last -/
def First (t : ℝ) (l : List ℝ) (i : Nat) : Prop := (∃ x, l[i]? = some x ∧ t < x) ∧ ∀ k x, k < i → l[k]? = some x → x ≤ t

def Last (t : ℝ) (l : List ℝ) (i : Nat) : Prop := (∃ x, l[i]? = some x ∧ t < x) ∧ ∀ k x, i < k → l[k]? = some x → x ≤ t

/-- the angle between two vectors, in degrees -/
def Angle (a b : Fin 3 → ℝ) (d : ℝ) : Prop :=
  0 ≤ d ∧ d ≤ 180 ∧ along a b = √(along a a) * √(along b b) * Real.cos (Real.pi / 180 * d)

end Viscid.Spec.Mpause
