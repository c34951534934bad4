import Verif.Model.AsCotr
import Verif.Spec.Tree
/-! # Specification: names of coordinate systems, and what says how coordinates are to be transformed -/
namespace Viscid.Spec.AsCotr
open Viscid.AsCotr Viscid.Spec.Tree

/-- The characters around a text that are taken off. -/
def Blank (c : Char) : Prop := c ∈ [' ', '\t', '\n', '\r', '\x0b', '\x0c']

/-- `t` is `s` without what is blank at its two ends. -/
def Trimmed (s t : List Char) : Prop :=
  ∃ a b, s = a ++ t ++ b ∧ (∀ c ∈ a, Blank c) ∧ (∀ c ∈ b, Blank c) ∧ (∀ c, t.head? = some c → ¬ Blank c) ∧ ∀ c, t.getLast? = some c → ¬ Blank c

/-- `d` is the small letter of `c`, or `c` itself if it is no capital letter. -/
def SmallOf (c d : Char) : Prop := if 65 ≤ c.toNat ∧ c.toNat ≤ 90 then d.toNat = c.toNat + 32 else d = c

/-- `u` is `s` trimmed and in lower case. -/
def Name (s u : List Char) : Prop := ∃ t, Trimmed s t ∧ List.Forall₂ SmallOf t u

/-- The value node `n` holds for `key`. -/
def Holds (w : World) (n : Nat) (key : String) (v : Val) : Prop := (w.info n).get? key.toList = some v

/-- The nearest of `n` and those above it that holds a value for `key` holds `v`. -/
def Nearest (w : World) (n : Nat) (key : String) (v : Val) : Prop :=
  ∃ m, FirstInBfs w.parents (fun k => ((w.info k).get? key.toList).isSome) n m ∧ Holds w m key v

/-- Neither `n` nor any node above it holds a value for `key`. -/
def Nowhere (w : World) (n : Nat) (key : String) : Prop := ∀ d, ∀ m ∈ level w.parents n d, (w.info m).get? key.toList = none

/-- Values that count as nothing. -/
def Nought (w : World) : Val → Prop
  | .none => True
  | .text s => s = []
  | .time t => w.timeTruth t = false
  | .mapping d => d = []
  | .other b => b = false
  | .cotr _ => False
  | .notImplemented => False

/-- Nothing is known about `key` at `n`. -/
def Unset (w : World) (n : Nat) (key : String) : Prop := Nowhere w n key ∨ ∃ v, Nearest w n key v ∧ Nought w v

/-- The nodes above `n` are finitely many (there may be cycles), and there are steps enough for all of them. -/
def FewAbove (w : World) (n : Nat) : Prop := ∃ univ, FiniteFrom w.parents n univ ∧ univ.length + 1 ≤ w.fuel

/-- `m` is `n` or a node above it. -/
def Above (w : World) (n m : Nat) : Prop := ∃ d, m ∈ level w.parents n d

end Viscid.Spec.AsCotr
