import Verif.Spec.Fortbin
import Mathlib.Algebra.Order.Ring.Rat
/-!
# Text files: headers and tables
-/
namespace Viscid.Spec.TextFile
open Viscid.Spec.Fortbin (cells)

/-- the number that decimal digits stand for -/
def value : List (Fin 10) → ℚ
  | [] => 0
  | d :: ds => (d.val : ℚ) * 10 ^ ds.length + value ds

def digitChars : List (Fin 10) → List Char := List.map fun d => Char.ofNat (48 + d.val)

/-- a decimal number without exponent, as text: some digits, and maybe a point and more digits -/
inductive Decimal : List Char → ℚ → Prop
  | int (a) : a ≠ [] → Decimal (digitChars a) (value a)
  | point (a b) : a ++ b ≠ [] → Decimal (digitChars a ++ '.' :: digitChars b) (value (a ++ b) / 10 ^ b.length)

def Blanks (s : List Char) : Prop := ∀ c ∈ s, c = ' ' ∨ c = '\t'

/-- text that a number can not go on with -/
def Ends (s : List Char) : Prop := ∀ c, s.head? = some c → c ≠ '.' ∧ ∀ d : Fin 10, c ≠ Char.ofNat (48 + d.val)

/-- what a line of a header says -/
inductive Says
  | nothing
  | dim (n : Nat)
  | time (t : ℚ)
  | columns (names : List (List Char))

/-- names of columns with their numbers -/
def columnsText : List (List (Fin 10) × List Char) → List Char
  | [] => []
  | (k, n) :: l => '[' :: digitChars k ++ ']' :: '=' :: n ++ columnsText l

/-- lines and what they say; `size line n` is that a line which begins with Nx gives the number `n` -/
inductive Meaning (size : List Char → Nat → Prop) : List Char → Says → Prop
  | nothing (s) : ¬ "Nx".toList <+: s → ¬ "Time".toList <:+: s → '[' ∉ s → Meaning size s .nothing
  | dim (s n) : "Nx".toList <+: s → size s n → ¬ "Time".toList <:+: s → '[' ∉ s → Meaning size s (.dim n)
  /-- "... Time = 1.5 ..." -/
  | time (a b b' t rest q) : ¬ "Nx".toList <+: a → 'T' ∉ a → Blanks b → Blanks b' → Decimal t q → Ends rest →
      '[' ∉ a → '[' ∉ rest → Meaning size (a ++ ("Time".toList ++ (b ++ '=' :: (b' ++ (t ++ rest))))) (.time q)
  /-- "... [1]=name [2]=name ..." -/
  | columns (a l) : ¬ "Nx".toList <+: a → '[' ∉ a → (∀ x ∈ l, x.1 ≠ [] ∧ '[' ∉ x.2) → l ≠ [] →
      ¬ "Time".toList <:+: (a ++ columnsText l) → Meaning size (a ++ columnsText l) (.columns (l.map (·.2)))

/-- the last time -/
def lastTime : List Says → ℚ → ℚ
  | [], t => t
  | .time q :: l, _ => lastTime l q
  | _ :: l, t => lastTime l t

/-- the last names of columns -/
def lastColumns : List Says → List (List Char) → List (List Char)
  | [], n => n
  | .columns m :: l, _ => lastColumns l m
  | _ :: l, n => lastColumns l n

/-- the sizes, in order -/
def sizes : List Says → List Nat
  | [] => []
  | .dim n :: l => n :: sizes l
  | _ :: l => sizes l

def White (c : Char) : Prop := c ∈ [' ', '\t', '\n', '\r', '\x0b', '\x0c']

/-- `n` is `s` without blanks at the ends -/
def Trimmed (s n : List Char) : Prop :=
  ∃ a b, s = a ++ n ++ b ∧ (∀ c ∈ a, White c) ∧ (∀ c ∈ b, White c) ∧
    (∀ c, n.head? = some c → ¬ White c) ∧ ∀ c, n.getLast? = some c → ¬ White c

/-- how many places there are -/
def count : List Nat → Nat
  | [] => 1
  | n :: s => n * count s

/-- the position of an index, the last one fastest -/
def place : List Nat → List Nat → Nat
  | _ :: s, i :: idx => i * count s + place s idx
  | _, _ => 0

/-- the rows of an Athena tab file: every cell, the first index fastest, has its numbers, the coordinates of its centre, and values -/
def tabRows (dims : List Nat) (number : List Nat → List ℚ) (crd : Nat → Nat → ℚ) (vals : List Nat → List ℚ) : List (List ℚ) :=
  (cells dims).map fun idx => number idx ++ ((idx.zipIdx.map fun p => crd p.2 p.1) ++ vals idx)

end Viscid.Spec.TextFile
