import Verif.Model.Colors
/-!
# What colours are written as
-/
namespace Viscid.Spec.Colors
open Viscid.Colors

/-- a hexadecimal digit, of that value -/
def Digit (c : Char) (n : Nat) : Prop :=
  (n < 10 ∧ c = "0123456789".toList.getD n ' ') ∨
    (10 ≤ n ∧ n < 16 ∧ (c = "abcdef".toList.getD (n - 10) ' ' ∨ c = "ABCDEF".toList.getD (n - 10) ' '))

/-- a colour: red, green and blue from 0 to 255, and perhaps how opaque it is -/
structure Colour where
  r : Nat
  g : Nat
  b : Nat
  a : Option Nat

/-- codes of colours: #rrggbb, #rrggbbaa, or #rgb and #rgba with one digit for both of two -/
inductive Code : Text → Colour → Prop
  | rgb6 {r r' g g' b b' x x' y y' z z'} : Digit r x → Digit r' x' → Digit g y → Digit g' y' → Digit b z → Digit b' z' →
      Code ['#', r, r', g, g', b, b'] ⟨16 * x + x', 16 * y + y', 16 * z + z', none⟩
  | rgba8 {r r' g g' b b' a a' x x' y y' z z' w w'} : Digit r x → Digit r' x' → Digit g y → Digit g' y' → Digit b z → Digit b' z' →
      Digit a w → Digit a' w' →
      Code ['#', r, r', g, g', b, b', a, a'] ⟨16 * x + x', 16 * y + y', 16 * z + z', some (16 * w + w')⟩
  | rgb3 {r g b x y z} : Digit r x → Digit g y → Digit b z → Code ['#', r, g, b] ⟨17 * x, 17 * y, 17 * z, none⟩
  | rgba4 {r g b a x y z w} : Digit r x → Digit g y → Digit b z → Digit a w →
      Code ['#', r, g, b, a] ⟨17 * x, 17 * y, 17 * z, some (17 * w)⟩

/-- a code, or a name for which matplotlib has one -/
inductive Means (named : Text → Text) : Text → Colour → Prop
  | code {s c} : Code s c → Means named s c
  | name {s c a} : s.head? ≠ some '#' → (named s).length = 9 → c.a = some a → Code (named s) c → Means named s c

/-- the bytes of a colour: what is not said to be transparent is opaque -/
def Colour.bytes (opacity : Bool) (c : Colour) : List Nat :=
  if opacity then [c.r, c.g, c.b, c.a.getD 255] else [c.r, c.g, c.b]

end Viscid.Spec.Colors
