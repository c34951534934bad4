import Mathlib.Algebra.Field.Basic
import Mathlib.Data.Real.Basic
/-!
# Flux functions, and the plasma beta
-/
namespace Viscid.Spec.Plasma

variable {K : Type} [Field K]

/-- the flux of the field through the four sides of each cell adds up to nothing, with the mean of the corners for each side -/
def Solenoidal (n0 n1 : Nat) (c0 c1 : Nat → K) (b0 b1 : Nat → Nat → K) : Prop :=
  ∀ i j, i + 1 < n0 → j + 1 < n1 →
    (c1 (j + 1) - c1 j) * ((b0 (i + 1) j + b0 (i + 1) (j + 1)) / 2 - (b0 i j + b0 i (j + 1)) / 2) +
      (c0 (i + 1) - c0 i) * ((b1 i (j + 1) + b1 (i + 1) (j + 1)) / 2 - (b1 i j + b1 (i + 1) j) / 2) = 0

/-- `b0` is minus the derivative of `A` along the second axis: differences of `A` are fluxes between points -/
def Along1 (n0 n1 : Nat) (c1 : Nat → K) (b0 : Nat → Nat → K) (A : Nat → Nat → K) : Prop :=
  ∀ i j, i < n0 → j + 1 < n1 → A i (j + 1) - A i j = -((c1 (j + 1) - c1 j) * ((b0 i j + b0 i (j + 1)) / 2))

/-- `b1` is the derivative of `A` along the first axis -/
def Along0 (n0 n1 : Nat) (c0 : Nat → K) (b1 : Nat → Nat → K) (A : Nat → Nat → K) : Prop :=
  ∀ i j, i + 1 < n0 → j < n1 → A (i + 1) j - A i j = (c0 (i + 1) - c0 i) * ((b1 i j + b1 (i + 1) j) / 2)

/-- `A` is a flux function of the field: its derivatives are the components of the field -/
def IsFlux (n0 n1 : Nat) (c0 c1 : Nat → K) (b0 b1 : Nat → Nat → K) (A : Nat → Nat → K) : Prop :=
  Along0 n0 n1 c0 b1 A ∧ Along1 n0 n1 c1 b0 A

/-- the plasma beta, as documented: 2 p / B^2 -/
noncomputable def beta (p bx b_y bz : ℝ) : ℝ := 2 * p / (bx ^ 2 + b_y ^ 2 + bz ^ 2)

end Viscid.Spec.Plasma
