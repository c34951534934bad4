import Verif.Model.Fluid
/-!
# Following fluid elements, the field at some time, and seeds within bounds
-/
namespace Viscid.Spec.Fluid
open Viscid.Fluid

/-- Steps of `dt` (in the direction `dir`) from `a` to `b`, and not beyond. The seeds of each step are where those of the one before
    have gone, with the fields of a time that is less than `dtI` ago. -/
structure Follows {S : Type} (next : ℚ → ℚ → S → S) (dir a b dt dtI : ℚ) (s : S) (l : List (Step S)) : Prop where
  number : ∀ k : Nat, k < l.length ↔ k * dt ≤ dir * (b - a)
  first : ∀ x, l.head? = some x → x.seeds = s ∧ x.tfld = x.t
  time : ∀ (k : Nat) x, l[k]? = some x → x.t = a + dir * (k * dt)
  next : ∀ (k : Nat) x y, l[k]? = some x → l[k + 1]? = some y → y.seeds = next x.tfld x.t x.seeds
  fields : ∀ (k : Nat) x, l[k]? = some x → ∃ (j : Nat) (y : Step S), j ≤ k ∧ l[j]? = some y ∧ x.tfld = y.t ∧ (k - j : ℚ) * dt < dtI

/-- `t` is between two consecutive times (of which the later one may be `t`): the straight line between their values -/
def OnLine (t0 t1 v0 v1 t v : ℚ) : Prop := (v - v0) * (t1 - t0) = (v1 - v0) * (t - t0)

/-- inside the box and between the radii, as far as they are given and not zero -/
def Inside (b : Bounds) (p : Pt) : Prop :=
  (∀ l, b.lo.1 = some l → l ≤ p.x) ∧ (∀ h, b.hi.1 = some h → p.x ≤ h) ∧
  (∀ l, b.lo.2.1 = some l → l ≤ p.y) ∧ (∀ h, b.hi.2.1 = some h → p.y ≤ h) ∧
  (∀ l, b.lo.2.2 = some l → l ≤ p.z) ∧ (∀ h, b.hi.2.2 = some h → p.z ≤ h) ∧
  (∀ r, b.ibound = some r → r ^ 2 ≤ p.x ^ 2 + p.y ^ 2 + p.z ^ 2) ∧
  (∀ r, b.oboundR = some r → r ≠ 0 → p.x ^ 2 + p.y ^ 2 + p.z ^ 2 ≤ r ^ 2)

end Viscid.Spec.Fluid
