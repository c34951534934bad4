import Mathlib.Data.Real.Basic
/-!
# Specification for null finding
-/
namespace Viscid.Spec.Nulls

/-- The component `d` of the field takes a positive and a nonpositive value on the corners of cell (i, j, k). -/
def ChangesSign (b : Nat → Nat → Nat → Nat → ℝ) (i j k d : Nat) : Prop :=
  (∃ p q r, p ≤ 1 ∧ q ≤ 1 ∧ r ≤ 1 ∧ b (i + p) (j + q) (k + r) d > 0) ∧
  (∃ p q r, p ≤ 1 ∧ q ≤ 1 ∧ r ≤ 1 ∧ b (i + p) (j + q) (k + r) d ≤ 0)

/-- Trilinear interpolation in cell (i, j, k) at the fractions x, y, z. -/
noncomputable def trilinear (b : Nat → Nat → Nat → Nat → ℝ) (i j k d : Nat) (x y z : ℝ) : ℝ :=
  (1 - x) * ((1 - y) * ((1 - z) * b i j k d + z * b i j (k + 1) d)
    + y * ((1 - z) * b i (j + 1) k d + z * b i (j + 1) (k + 1) d))
  + x * ((1 - y) * ((1 - z) * b (i + 1) j k d + z * b (i + 1) j (k + 1) d)
    + y * ((1 - z) * b (i + 1) (j + 1) k d + z * b (i + 1) (j + 1) (k + 1) d))

/-- The point with face coordinates u, v on face `n` of the unit cube: lower and upper XY, YZ and ZX faces. -/
def facePoint (n : Nat) (u v : ℝ) : ℝ × ℝ × ℝ :=
  match n with
  | 0 => (u, v, 0)
  | 1 => (u, v, 1)
  | 2 => (0, u, v)
  | 3 => (1, u, v)
  | 4 => (v, 0, u)
  | _ => (v, 1, u)

/-- A bilinear function of the unit square. -/
noncomputable def bilinear (a b c d x y : ℝ) : ℝ := a + b * x + c * y + d * x * y

end Viscid.Spec.Nulls

namespace Viscid.Spec.Nulls

/-- The eigenvalues (real and imaginary parts) of the Jacobian of a divergence free field at a null that is neither
    degenerate nor nearly so: three reals that add up to 0, or a real one and a conjugate pair. -/
def Regular (atol : ℝ) (es : List (ℝ × ℝ)) : Prop :=
  (∃ x y z : ℝ, es.Perm [(x, 0), (y, 0), (z, 0)] ∧ x + y + z = 0 ∧ atol < |x| ∧ atol < |y| ∧ atol < |z|) ∨
  (∃ r c d : ℝ, es.Perm [(r, 0), (c, d), (c, -d)] ∧ r + 2 * c = 0 ∧ atol < |r| ∧ atol < |d|)

/-- Number of eigenvalues with positive and negative real part. -/
noncomputable def growing (es : List (ℝ × ℝ)) : Nat := (es.filter fun e => decide (0 < e.1)).length
noncomputable def decaying (es : List (ℝ × ℝ)) : Nat := (es.filter fun e => decide (e.1 < 0)).length

end Viscid.Spec.Nulls
