import Verif.Model.KlsNames
import Verif.Spec.AsCotr
/-! What it means to find a class by its name. -/
namespace Viscid.Spec.KlsNames
open Viscid.KlsNames
open Viscid.Readers (Cls)
open Viscid.Spec.AsCotr (SmallOf)

/-- `t` is `s` in lower case. -/
def LowerOf (s t : Text) : Prop := List.Forall₂ SmallOf s t

/-- `t` is `s` without its first "file", if there is one. -/
def Bare (s t : Text) : Prop :=
  (¬ "file".toList <:+: s ∧ t = s) ∨
  ∃ a b, s = a ++ "file".toList ++ b ∧ t = a ++ b ∧ ∀ a' b', s = a' ++ "file".toList ++ b' → a.length ≤ a'.length

/-- `t` is what the user says with `s`: spaces, underscores, dashes, capital letters and the (first) word "file" do not count. -/
def Says (s t : Text) : Prop :=
  ∃ s₁ s₂, s₁ = s.filter (fun c => ¬ (c = ' ' ∨ c = '_' ∨ c = '-')) ∧ LowerOf s₁ s₂ ∧ Bare s₂ t

/-- Class `k` is called something with `t` in it. -/
def Called (t : Text) (k : Kls) : Prop := ∃ u v, LowerOf k.name u ∧ Bare u v ∧ t <:+: v

/-- `k` is the class at the root of the tree or one below it. -/
inductive Within (k : Kls) : Cls Kls → Prop
  | here {subs} : Within k (.node k subs)
  | down {r subs c} : c ∈ subs → Within k c → Within k (.node r subs)

/-- No class in the tree has the property. -/
def NoneIn (M : Kls → Prop) (c : Cls Kls) : Prop := ∀ k, Within k c → ¬ M k

/-- The class with the property that comes first, if classes further down come before those above them, and recent ones before
older ones. -/
inductive Deepest (M : Kls → Prop) : Cls Kls → Nat → Prop
  | down {k l₁ c l₂ i} : (∀ c' ∈ l₂, NoneIn M c') → Deepest M c i → Deepest M (.node k (l₁ ++ c :: l₂)) i
  | here {k subs} : (∀ c ∈ subs, NoneIn M c) → M k → Deepest M (.node k subs) k.id

/-- The class with the property that comes first, if classes come before those below them, and recent ones before older ones. -/
inductive Topmost (M : Kls → Prop) : Cls Kls → Nat → Prop
  | here {k subs} : M k → Topmost M (.node k subs) k.id
  | down {k l₁ c l₂ i} : ¬ M k → (∀ c' ∈ l₂, NoneIn M c') → Topmost M c i → Topmost M (.node k (l₁ ++ c :: l₂)) i

end Viscid.Spec.KlsNames
