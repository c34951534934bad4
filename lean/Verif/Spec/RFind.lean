/-!
# Specification for C226: where a text occurs in another one
-/
namespace Viscid.Spec.RFind

/-- The text w stands in s from position p on. -/
def Occurs (s w : List Char) (p : Nat) : Prop := ∃ a b, s = a ++ w ++ b ∧ a.length = p

/-- One of the texts stands in s from position p on. -/
def Any (s : List Char) (ws : List (List Char)) (p : Nat) : Prop := ∃ w ∈ ws, Occurs s w p

end Viscid.Spec.RFind
