import Verif.Model.LogValue
import Verif.Spec.AsCotr
import Mathlib.Data.List.Forall2
/-! What the text of a parameter's value in a log file means. -/
namespace Viscid.Spec.LogValue
open Viscid.LogValue Viscid.Spec.AsCotr

/-- `s` is the texts of `l`, none of which has `sep` in it, with `sep` between them. -/
inductive Joined (sep : Char) : Text → List Text → Prop
  | one {p} : sep ∉ p → Joined sep p [p]
  | more {p s l} : sep ∉ p → Joined sep s l → Joined sep (p ++ sep :: s) (p :: l)

def Digit (c : Char) : Prop := c ∈ "0123456789".toList
def Letter (c : Char) : Prop := c ∈ "abcdefghijklmnopqrstuvwxyzABCDEFGHIJKLMNOPQRSTUVWXYZ".toList

/-- Digits, with single underscores between some of them, of the number `n`. -/
def NatText (s : Text) (n : Nat) : Prop :=
  ∃ l, Joined '_' s l ∧ (∀ p ∈ l, p ≠ [] ∧ ∀ c ∈ p, Digit c) ∧ n = Nat.ofDigitChars 10 l.flatten 0

/-- The texts of an integer: blanks, a sign or none, digits, blanks. -/
def IntText (s : Text) (n : Int) : Prop :=
  ∃ t m, Trimmed s t ∧ ((t = '-' :: m ∧ ∃ k, NatText m k ∧ n = -(k : Int)) ∨ ((t = '+' :: m ∨ t = m) ∧ ∃ k, NatText m k ∧ n = (k : Int)))

/-- The decimal text of an integer. -/
def dec (n : Int) : Text := (toString n).toList

/-- Of what numbers without exponent are made; of what words are made. -/
def NumChar (c : Char) : Prop := Digit c ∨ c = '.'
def WordChar (c : Char) : Prop := Letter c ∨ Digit c ∨ c = '.' ∨ c = '-'

/-- Digits and dots, with a minus or without. -/
def Numeral (s : Text) : Prop := ∃ d, d ≠ [] ∧ (∀ c ∈ d, NumChar c) ∧ (s = d ∨ s = '-' :: d)

/-- It begins with two numerals with a comma between them; blanks may be around the comma. -/
def ListLike (s : Text) : Prop :=
  ∃ a b x y rest, Numeral x ∧ Numeral y ∧ (∀ c ∈ a, Blank c) ∧ (∀ c ∈ b, Blank c) ∧ s = x ++ (a ++ ',' :: (b ++ (y ++ rest)))

/-- It begins with two words with a colon between them; blanks may be around the colon. -/
def WordsLike (s : Text) : Prop :=
  ∃ a b x y rest, x ≠ [] ∧ y ≠ [] ∧ (∀ c ∈ x, WordChar c) ∧ (∀ c ∈ y, WordChar c) ∧ (∀ c ∈ a, Blank c) ∧ (∀ c ∈ b, Blank c) ∧
    s = x ++ (a ++ ':' :: (b ++ (y ++ rest)))

/-- An entry of a list: an integer, else a float, else the trimmed text. -/
inductive Entry (f : Floats F) : Text → Item F → Prop
  | int {p n} : IntText p n → Entry f p (.int n)
  | float {p x} : (∀ n, ¬ IntText p n) → f.float p = some x → Entry f p (.float x)
  | text {p t} : (∀ n, ¬ IntText p n) → f.float p = none → Trimmed p t → Entry f p (.text t)

/-- `x` is the number, as a float. -/
inductive AsFloat (f : Floats F) : Item F → F → Prop
  | int (n) : AsFloat f (.int n) (f.ofInt n)
  | float (x) : AsFloat f (.float x) x

inductive AsText (f : Floats F) : Item F → Text → Prop
  | int (n) : AsText f (.int n) (dec n)
  | float (x) : AsText f (.float x) (f.str x)
  | text (s) : AsText f (.text s) s

/-- The array with these entries: of integers if all are, of floats if all are numbers, else of texts. -/
inductive IsArray (f : Floats F) : List (Item F) → Value F → Prop
  | ints (l) : IsArray f (l.map .int) (.ints l)
  | floats {is l} : List.Forall₂ (AsFloat f) is l → (∃ x, Item.float x ∈ is) → IsArray f is (.floats l)
  | texts {is l} : List.Forall₂ (AsText f) is l → (∃ x, Item.text x ∈ is) → IsArray f is (.texts l)

/-- No text of a float has a comma or a colon in it. -/
def Sane (f : Floats F) : Prop := ∀ s x, f.float s = some x → ',' ∉ s ∧ ':' ∉ s

end Viscid.Spec.LogValue
