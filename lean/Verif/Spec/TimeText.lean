import Verif.Model.TimeText
/-!
# What times should look like
-/
namespace Viscid.Spec.TimeText
open Viscid.TimeText (Piece)

/-- a number below 100 in two digits -/
def pad2 (n : Nat) : List Char := if n < 10 then '0' :: (toString n).toList else (toString n).toList

/-- hours, minutes and seconds -/
def hms (h m s : Nat) : List Char := pad2 h ++ [':'] ++ pad2 m ++ [':'] ++ pad2 s

/-- the value of a string of digits -/
def value (l : List Char) : Nat := l.foldl (fun v c => 10 * v + (c.toNat - '0'.toNat)) 0

/-- `rnd n us` is the nearest number of 10^-n seconds to `us` microseconds (in a tie, either one) -/
def Rounds (rnd : Nat → Nat → Nat) : Prop :=
  ∀ n us, 2 * (rnd n us * 10 ^ 6) ≤ 2 * (us * 10 ^ n) + 10 ^ 6 ∧ 2 * (us * 10 ^ n) ≤ 2 * (rnd n us * 10 ^ 6) + 10 ^ 6

/-- `out` is the format `fmt` filled in: the texts as they are, the fractions with the number of digits asked for (6 if none
is) and the nearest value -/
inductive Filled (us : Nat) : List Piece → List Char → Prop
  | nil : Filled us [] []
  | text {s ps out} : Filled us ps out → Filled us (.text s :: ps) (s ++ out)
  | frac {n ps out f} : f.length = n.getD 6 → f.all (·.isDigit) = true →
      2 * (value f * 10 ^ 6) ≤ 2 * (us * 10 ^ n.getD 6) + 10 ^ 6 →
      2 * (us * 10 ^ n.getD 6) ≤ 2 * (value f * 10 ^ 6) + 10 ^ 6 →
      Filled us ps out → Filled us (.frac n :: ps) (f ++ out)

/-- no six digits in a row, and no digit at the end -/
def Plain (s : List Char) : Prop :=
  (∀ a b c, s = a ++ b ++ c → b.length = 6 → ∃ x ∈ b, x.isDigit = false) ∧ ∀ x, s.getLast? = some x → x.isDigit = false

end Viscid.Spec.TimeText
