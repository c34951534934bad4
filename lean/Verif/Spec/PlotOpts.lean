import Verif.Model.PlotOpts
import Verif.Spec.LogValue
/-! What plot options given as text mean. -/
namespace Viscid.Spec.PlotOpts
open Viscid.LogValue Viscid.PlotOpts Viscid.Spec.LogValue Viscid.Spec.AsCotr

/-- `s` is the texts of `l`, with an underscore or an equals sign between each two. -/
inductive Pieces : Text → List Text → Prop
  | one {p} : '_' ∉ p → '=' ∉ p → Pieces p [p]
  | more {p c s l} : '_' ∉ p → '=' ∉ p → c = '_' ∨ c = '=' → Pieces s l → Pieces (p ++ c :: s) (p :: l)

/-- A name of python. -/
def IsName (t : Text) : Prop := ∃ c cs, t = c :: cs ∧ (Letter c ∨ c = '_') ∧ ∀ d ∈ cs, Letter d ∨ Digit d ∨ d = '_'

/-- The words of python that are no names. -/
def Keyword (t : Text) : Prop := t ∈ ["and", "as", "assert", "async", "await", "break", "class", "continue", "def", "del", "elif", "else", "except", "finally",
  "for", "from", "global", "if", "import", "in", "is", "lambda", "nonlocal", "not", "or", "pass", "raise", "return", "try", "while", "with", "yield"].map String.toList

/-- The values texts stand for: True, False and None however they are written, other names for themselves, other expressions for what python says. -/
inductive Reads (w : World V) : Text → Atom V → Prop
  | yes {s} : Name s "true".toList → Reads w s (.bool true)
  | no {s} : Name s "false".toList → Reads w s (.bool false)
  | none {s} : Name s "none".toList → Reads w s .none
  | word {s t} : Trimmed s t → IsName t → ¬ Keyword t → (∀ x ∈ ["true", "false", "none"], ¬ Name s x.toList) → Reads w s (.text t)
  | expr {s t x} : Trimmed s t → ¬ IsName t → w.expr t = .ok x → Reads w s x

/-- An option: blank, a flag, a name with one value, or a name with several values, which are not all texts. -/
inductive Means (w : World V) : Text → Option (Text × Val V) → Prop
  | blank {o} : (∀ c ∈ o, Blank c) → Means w o none
  | flag {o k} : '_' ∉ o → '=' ∉ o → Trimmed o k → k ≠ [] → Means w o (some (k, .one (.bool true)))
  | value {o n k s v} : Pieces o [n, s] → Trimmed n k → Reads w s v → Means w o (some (k, .one v))
  | values {o n k s t l a b vs} : Pieces o (n :: s :: t :: l) → Trimmed n k → Reads w s a → Reads w t b → List.Forall₂ (Reads w) l vs →
      (∃ v ∈ a :: b :: vs, ∀ u, v ≠ .text u) → Means w o (some (k, .list (a :: b :: vs)))

/-- The options after some more were given: the last of those for a name counts. -/
def Updated (kw r : Kw V) (ms : List (Option (Text × Val V))) : Prop :=
  ∀ k, (∀ (i : Nat) v, ms[i]? = some (some (k, v)) → (∀ (j : Nat) u, i < j → ms[j]? ≠ some (some (k, u))) → r k = some v) ∧
    ((∀ (i : Nat) v, ms[i]? ≠ some (some (k, v))) → r k = kw k)

/-- It is written as yaml. -/
def Braced (t : Text) : Prop := ∃ m, t = '{' :: m ∧ t.getLast? = some '}'

end Viscid.Spec.PlotOpts
