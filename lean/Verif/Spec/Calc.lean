import Verif.Model.Calc
import Mathlib.Algebra.BigOperators.Fin
import Mathlib.Algebra.Order.Field.Basic
/-!
# Specification for C31, C32, C34
-/
namespace Viscid.Spec.Calc
open Viscid.Calc

/-- The position of the value nearest to position t of the extended axis, in the original axis: nl cells
were added below its n values. -/
def nearest (nl n t : Nat) : Nat := min (t - nl) (n - 1)

/-- Strictly increasing coordinates along an axis of n points. -/
def Increasing {K : Type} [LT K] (n : Nat) (c : Nat → K) : Prop := ∀ i j, i < j → j < n → c i < c j

/-- The index is inside the shape. -/
def Inside {d : Nat} (n : Fin d → Nat) (idx : Fin d → Nat) : Prop := ∀ a, idx a < n a

/-- The component is a + g₀ x + g₁ y + g₂ z at every point of the grid. -/
def Affine {K : Type} [Field K] {nc : Nat} (f : Fld K nc) (m : Fin nc) (a : K) (g : Fin 3 → K) : Prop :=
  ∀ idx, Inside f.n idx → f.dat m idx = a + g 0 * f.crd 0 (idx 0) + g 1 * f.crd 1 (idx 1) + g 2 * f.crd 2 (idx 2)

/-- The same number of points at the same places. -/
def SameGrid {K : Type} {nc mc : Nat} (f : Fld K nc) (g : Fld K mc) : Prop :=
  g.n = f.n ∧ ∀ a t, t < f.n a → g.crd a t = f.crd a t

end Viscid.Spec.Calc
