import Mathlib.Data.List.Forall2
/-!
# What the names of coordinate arrays mean

Names are lists of character codes. 97 to 122 are the lower case letters, 65 to 90 the upper case ones.
-/
namespace Viscid.Spec.CrdNames

/-- `d` is the capital of `c`, or `c` is not a lower case letter and `d` is the same -/
def Capital (c d : Nat) : Prop := (97 ≤ c ∧ c ≤ 122 ∧ d + 32 = c) ∨ ((c < 97 ∨ 122 < c) ∧ d = c)

/-- where the points of an array are -/
inductive Where
  | nodes
  | cells
  | faces
  | edges
  deriving DecidableEq

/-- the endings of names: none or "nc" for nodes, "cc" for cells, "fc" for faces, "ec" for edges -/
inductive Ending : List Nat → Where → Prop
  | plain : Ending [] .nodes
  | nc : Ending [110, 99] .nodes
  | cc : Ending [99, 99] .cells
  | fc : Ending [102, 99] .faces
  | ec : Ending [101, 99] .edges

/-- the name `s` stands for the array of axis number `i`, at `w`; for the open one if the name of the axis is in capitals -/
def Means (axes : List (List Nat)) (s : List Nat) (i : Nat) (shaped : Bool) (w : Where) : Prop :=
  ∃ a b t, axes[i]? = some a ∧ (if shaped then List.Forall₂ Capital a b else a = b) ∧ Ending t w ∧ s = b ++ t

/-- names of axes that can be told apart: without capitals, with a letter, different from each other, and none of them
another one with an ending -/
structure Plain (axes : List (List Nat)) : Prop where
  small : ∀ a ∈ axes, ∀ c ∈ a, c < 65 ∨ 90 < c
  letter : ∀ a ∈ axes, ∃ c ∈ a, 97 ≤ c ∧ c ≤ 122
  nodup : axes.Nodup
  apart : ∀ a ∈ axes, ∀ b ∈ axes, ∀ t w, Ending t w → a = b ++ t → t = []

end Viscid.Spec.CrdNames
