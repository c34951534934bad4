import Verif.Spec.Arith
import Mathlib.Analysis.SpecialFunctions.Pow.Real
/-!
# Specification of the algebra of vectors with three components

A vector is a function of the number of the component.
-/
namespace Viscid.Spec.VecAlg
open Viscid.Arith (Fld Ret Exc)
open Viscid.Spec.Arith

/-- `v₀ w₀ + v₁ w₁ + v₂ w₂` -/
def dot (v w : Nat → ℝ) : ℝ := v 0 * w 0 + v 1 * w 1 + v 2 * w 2

/-- the length of a vector -/
noncomputable def size (v : Nat → ℝ) : ℝ := Real.sqrt (dot v v)

/-- the vector product -/
def cross (v w : Nat → ℝ) : Nat → ℝ
  | 0 => v 1 * w 2 - v 2 * w 1
  | 1 => v 2 * w 0 - v 0 * w 2
  | _ => v 0 * w 1 - v 1 * w 0

/-- `f` is a field of vectors with three components which are `u c` at each point, in one of the two layouts. A field with the components last on a grid
with three points along each axis cannot be told from one with the components first and is excluded. -/
def Vector (f : Fld ℝ) (u : Nat → List Nat → ℝ) : Prop :=
  Flat f 3 u ∨ (Interlaced f 3 u ∧ points f.axes ≠ List.replicate f.axes.length 3)

/-- two fields have the same layout -/
def SameLayout (f g : Fld ℝ) : Prop := f.layout = g.layout

/-- the vector of a field at a point -/
def atPoint (u : Nat → List Nat → ℝ) (idx : List Nat) : Nat → ℝ := fun c => u c idx

/-- what is asked of the result of an operation: a scalar field on the grid of `f` with the values `v` -/
def ScalarResult (f : Fld ℝ) (x : Except Exc (Ret ℝ)) (v : List Nat → ℝ) : Prop :=
  ∃ r, x = .ok (.field r) ∧ r.axes = f.axes ∧ r.center = f.center ∧ Scalar r v

/-- what is asked of the result of an operation: a vector field on the grid of `f` with the components `v` -/
def VectorResult (f : Fld ℝ) (x : Except Exc (Ret ℝ)) (v : Nat → List Nat → ℝ) : Prop :=
  ∃ r, x = .ok (.field r) ∧ r.axes = f.axes ∧ r.center = f.center ∧ Vector r v

end Viscid.Spec.VecAlg
