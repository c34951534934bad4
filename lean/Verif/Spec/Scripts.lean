import Verif.Model.Scripts
/-! What the command line tools ought to say. -/
namespace Viscid.Spec.Scripts

/-- The number a hexadecimal digit stands for. -/
def HexDigit (c : Char) (n : Nat) : Prop := "0123456789abcdef".toList[n]? = some c

/-- Two hexadecimal digits of a number. -/
def HexTwo (s : List Char) (n : Nat) : Prop := ∃ c d x y, s = [c, d] ∧ HexDigit c x ∧ HexDigit d y ∧ n = 16 * x + y

/-- `#rrggbb`. -/
def HexColor (s : List Char) (r g b : Nat) : Prop := ∃ x y z, s = '#' :: (x ++ y ++ z) ∧ HexTwo x r ∧ HexTwo y g ∧ HexTwo z b

end Viscid.Spec.Scripts
