import Verif.Model.Interp
/-!
# Specification for interpolation (C17, C18, C19, C61)
-/
namespace Viscid.Spec.Interp
open Viscid.Interp

/-- Strictly increasing. -/
def Increasing (c : List ℚ) : Prop := ∀ (i j : Nat) (x y : ℚ), c[i]? = some x → c[j]? = some y → i < j → x < y

/-- A usable axis: non-empty, increasing; an axis flagged uniform is evenly spaced. -/
structure Valid (a : Axis) : Prop where
  ne : a.crds ≠ []
  inc : Increasing a.crds
  uni : a.uniform = true → ∃ h : ℚ, ∀ (i : Nat) (x : ℚ), a.crds[i]? = some x → x = a.crds.headD 0 + i * h

/-- `i` brackets `v`: crds[i] ≤ v < crds[i+1]. -/
def Brackets (c : List ℚ) (v : ℚ) (i : Nat) : Prop :=
  ∃ x y, c[i]? = some x ∧ c[i + 1]? = some y ∧ x ≤ v ∧ v < y

/-- The point is inside the axis. -/
def InRange (a : Axis) (v : ℚ) : Prop := a.crds.headD 0 ≤ v ∧ v ≤ a.crds.getLastD 0

/-- `v` moved to the nearest end if outside the axis. -/
def clamp (a : Axis) (v : ℚ) : ℚ := min (max v (a.crds.headD 0)) (a.crds.getLastD 0)

/-- A function that is linear in each coordinate separately. -/
structure Multilinear where
  k0 : ℚ
  kx : ℚ
  ky : ℚ
  kz : ℚ
  kxy : ℚ
  kyz : ℚ
  kxz : ℚ
  kxyz : ℚ

def Multilinear.eval (m : Multilinear) (x y z : ℚ) : ℚ :=
  m.k0 + m.kx * x + m.ky * y + m.kz * z + m.kxy * (x * y) + m.kyz * (y * z) + m.kxz * (x * z) + m.kxyz * (x * y * z)

end Viscid.Spec.Interp
