import Verif.Model.AmrSlice
/-!
# What a selection by value takes of a set of boxes
-/
namespace Viscid.Spec.AmrSlice
open Viscid.AmrSlice (Sel Patch Box)
open Viscid.Select (Bound)

/-- the coordinates a selection by value is about. An open end goes to infinity in the direction of the step -/
def InSel : Sel → ℚ → Prop
  | .one (.val v), x => x = v
  | .one _, _ => False
  | .slc (.val a) (.val b) _, x => min a b ≤ x ∧ x ≤ max a b
  | .slc (.val a) .none u, x => if 0 < u.getD 1 then a ≤ x else x ≤ a
  | .slc .none (.val b) u, x => if 0 < u.getD 1 then x ≤ b else b ≤ x
  | .slc .none .none _, _ => True
  | .slc _ _ _, _ => False

/-- a selection along an axis by value, with a step that is not 0 -/
def ByValue : Sel → Prop
  | .one (.val _) => True
  | .one _ => False
  | .slc (.idx _) _ _ => False
  | .slc _ (.idx _) _ => False
  | .slc _ _ u => u.getD 1 ≠ 0

/-- no patch has an extent in direction `k` -/
def Flat (ps : List Patch) (k : Nat) : Prop := ∀ p ∈ ps, p.lo.getD k 0 = p.hi.getD k 0

/-- a patch (with its lower, without its upper boundary, and moved down by `d`) has points of the selection -/
def Overlaps (d : ℚ) (ps : List Patch) (p : Patch) (sel : List Sel) : Prop :=
  ∀ k s, sel[k]? = some s → Flat ps k ∨ ∃ x, InSel s x ∧ p.lo.getD k 0 - d ≤ x ∧ x < p.hi.getD k 0

/-- the selection starts near the upper boundary of the patch in some direction: within `d` and a part in 100000 -/
def StartsNear (d : ℚ) (p : Patch) (sel : List Sel) : Prop :=
  ∃ k s x, sel[k]? = some s ∧ InSel s x ∧ (∀ y, InSel s y → x ≤ y) ∧ |p.hi.getD k 0 - x| ≤ d + 1 / 100000 * |x|

end Viscid.Spec.AmrSlice
