import Verif.Model.Loc
/-!
# What `loc` and `iloc` should select

Numbers are coordinates for `loc`, which a selection has as imaginary numbers, and indices for `iloc`. Items are for the axes of space
from the first on; an axis without one is taken as a whole, and all components are.
-/
namespace Viscid.Spec.Loc
open Viscid.FillSel Viscid.Loc

/-- `x` stands for `y` -/
inductive Stands : Bool → Num → Num → Prop
  | coordinate (q) : Stands true (.real q) (.imag q)
  | index (x) : Stands false x x

inductive OptStands (loc : Bool) : Option Num → Option Num → Prop
  | none : OptStands loc none none
  | some {x y} : Stands loc x y → OptStands loc (some x) (some y)

/-- what one item selects -/
inductive Means (loc : Bool) : Item → Kind Sel → Prop
  | newax : Means loc .newax .newax
  | num {x y} : Stands loc x y → Means loc (.num x) (.sel (.one y))
  | list {l m} : List.Forall₂ (Stands loc) l m → Means loc (.list l) (.sel (.many m))
  | slc {a b a' b' s} : OptStands loc a a' → OptStands loc b b' → Means loc (.slc a b s) (.sel (.slc a' b' s))

/-- the whole of an axis -/
def whole : Kind Sel := .sel (.slc none none none)

/-- `rows` selects `before` from the first axes, `after` from the last ones and all of the axes between -/
def Selects (loc : Bool) (ax : List String) (before after : List Item) (rows : List (Row String Sel)) : Prop :=
  ∃ b a n, List.Forall₂ (Means loc) before b ∧ List.Forall₂ (Means loc) after a ∧
    rows.map Row.kind = b ++ List.replicate n whole ++ a ∧
    (rows.filter fun r => !r.isNew).map Row.name = ax ∧ ∀ r ∈ rows, (r.isNew = true ↔ r.kind = .newax)

/-- items that take up an axis -/
def used (its : List Item) : Nat := its.countP fun i => decide (i ≠ .newax)

/-- numbers that are not imaginary -/
def Real : Item → Prop
  | .ellipsis => True
  | .newax => True
  | .num x => ∃ q, x = .real q
  | .list l => ∀ x ∈ l, ∃ q, x = .real q
  | .slc a b _ => (∀ x ∈ a, ∃ q, x = Num.real q) ∧ ∀ x ∈ b, ∃ q, x = Num.real q

end Viscid.Spec.Loc
