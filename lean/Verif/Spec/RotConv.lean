import Verif.Model.RotConv
import Verif.Spec.AsCotr
import Verif.Spec.Rotation
/-! # Conversions of rotations: what the user is told -/
namespace Viscid.Spec.RotConv
open Viscid.RotConv Viscid.Rotation Viscid.RotStack

/-- What the user says, `s`, means the word `w` (blanks around it and case do not count); None and "" mean "ignore". -/
def Means (s : Option Text) (w : String) : Prop :=
  (s = none ∧ w = "ignore") ∨ (s = some [] ∧ w = "ignore") ∨ ∃ t, s = some t ∧ t ≠ [] ∧ AsCotr.Name t w.toList

/-- Orthonormal rows. -/
def Orthonormal (m : Matrix (Fin d) (Fin d) ℝ) : Prop := m * m.transpose = 1

/-- Two stacks (or two single values), entry by entry. -/
def Each (P : α → β → Prop) : Stk α → Stk β → Prop
  | .one x, .one y => P x y
  | .many l, .many l' => List.Forall₂ P l l'
  | _, _ => False

end Viscid.Spec.RotConv
