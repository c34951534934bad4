import Verif.Model.TimeLike
/-!
# What is a time
-/
namespace Viscid.Spec.TimeLike
open Viscid.TimeLike (Atom)

/-- the fields between the colons of a text -/
def fields : List Char → List (List Char)
  | [] => [[]]
  | c :: cs => if c = ':' then [] :: fields cs else (fields cs).modifyHead (c :: ·)

/-- the value of a string of digits -/
def value (l : List Char) : Nat := l.foldl (fun v c => 10 * v + (c.toNat - '0'.toNat)) 0

/-- Python's `float` reads digits as the number they stand for -/
def Reads (float : List Char → Option ℚ) : Prop :=
  ∀ l : List Char, l ≠ [] → (∀ c ∈ l, c.isDigit = true) → float l = some (value l : ℚ)

/-- values of the types of instants -/
inductive Instant : Atom → Prop
  | np : Instant .dt64
  | py : Instant .dt

/-- values of the types of durations -/
inductive Duration : Atom → Prop
  | np : Duration .td64
  | py : Duration .td

/-- numbers -/
inductive Number : Atom → Prop
  | flt (np) : Number (.flt np)
  | int (np) : Number (.int np)

end Viscid.Spec.TimeLike
