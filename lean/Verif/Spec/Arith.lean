import Verif.Model.Arith
/-!
# Specification of arithmetic on fields

A field is seen through its `data` and `layout`. `points` is the number of points along each axis.
-/
namespace Viscid.Spec.Arith
open Viscid.Arith (Fld)

/-- the number of points along each axis -/
def points (axes : List (String × List ℚ)) : List Nat := axes.map fun a => a.2.length

/-- the index of a point of a grid of shape `s` -/
def Within (s idx : List Nat) : Prop := List.Forall₂ (fun i n => i < n) idx s

/-- `f` is a scalar field whose value at each point is that of `v` -/
def Scalar (f : Fld α) (v : List Nat → α) : Prop :=
  f.vector = false ∧ ∃ a, f.data = .ok a ∧ a.shape = points f.axes ∧ ∀ idx, Within (points f.axes) idx → a.get idx = v idx

/-- `f` is a vector field with `n` components and the components first, and `v c` is component `c` -/
def Flat (f : Fld α) (n : Nat) (v : Nat → List Nat → α) : Prop :=
  f.vector = true ∧ f.layout = .flat ∧
    ∃ a, f.data = .ok a ∧ a.shape = n :: points f.axes ∧ ∀ c idx, c < n → Within (points f.axes) idx → a.get (c :: idx) = v c idx

/-- `f` is a vector field with `n` components and the components last, and `v c` is component `c` -/
def Interlaced (f : Fld α) (n : Nat) (v : Nat → List Nat → α) : Prop :=
  f.vector = true ∧ f.layout = .interlaced ∧
    ∃ a, f.data = .ok a ∧ a.shape = points f.axes ++ [n] ∧ ∀ c idx, c < n → Within (points f.axes) idx → a.get (idx ++ [c]) = v c idx

/-- the trapezoid rule -/
def trapezoids : List ℚ → List ℚ → ℚ
  | x :: x' :: xs, y :: y' :: ys => (x' - x) * (y' + y) / 2 + trapezoids (x' :: xs) (y' :: ys)
  | _, _ => 0

end Viscid.Spec.Arith
