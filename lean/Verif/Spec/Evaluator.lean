/-!
# What equations are made of
-/
namespace Viscid.Spec.Evaluator

/-- The parts of an equation: the name of a field; the name of a function with its parenthesis, and blanks in between; a number or part of
    one; any other character -/
inductive Item
  | field (n : List Char)
  | func (n blanks : List Char)
  | num (n : List Char)
  | op (c : Char)
deriving DecidableEq, Repr

/-- letters, digits and underscores -/
def Letter (c : Char) : Prop := c.isAlpha = true ∨ c = '_'
def Wordy (c : Char) : Prop := Letter c ∨ c.isDigit = true

/-- names start with a letter or underscore -/
def Name : List Char → Prop
  | [] => False
  | c :: w => Letter c ∧ ∀ x ∈ w, Wordy x

/-- numbers start with a digit -/
def Number : List Char → Prop
  | [] => False
  | c :: w => c.isDigit = true ∧ ∀ x ∈ w, Wordy x

/-- the equation as typed -/
def Item.text : Item → List Char
  | .field n => n
  | .func n b => n ++ b ++ ['(']
  | .num n => n
  | .op c => [c]

/-- the equation as evaluated: every name has a prefix, and the rest is as it was, up to blanks in front of parentheses -/
def Item.prefixed (p : List Char) : Item → List Char
  | .field n => p ++ n
  | .func n _ => p ++ n ++ ['(']
  | .num n => n
  | .op c => [c]

def text (e : List Item) : List Char := e.flatMap Item.text
def prefixed (p : List Char) (e : List Item) : List Char := e.flatMap (Item.prefixed p)

/-- a word ends here -/
def Ends : List Item → Prop
  | [] => True
  | .op _ :: _ => True
  | _ => False

/-- next, after blanks, is a parenthesis -/
def Called : List Item → Prop
  | .op c :: e => c = '(' ∨ c.isWhitespace = true ∧ Called e
  | _ => False

/-- Parts that were cut from an equation at the right places; without quotes -/
def Parsed : List Item → Prop
  | [] => True
  | .field n :: e => Name n ∧ Ends e ∧ ¬ Called e ∧ Parsed e
  | .func n b :: e => Name n ∧ (∀ c ∈ b, c.isWhitespace = true) ∧ Parsed e
  | .num n :: e => Number n ∧ Ends e ∧ Parsed e
  | .op c :: e => ¬ Wordy c ∧ c ≠ '\'' ∧ c ≠ '"' ∧ Parsed e

/-- two underscores in a row -/
def Dunder (s : List Char) : Prop := ['_', '_'] <:+: s

end Viscid.Spec.Evaluator
