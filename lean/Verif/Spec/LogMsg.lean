/-
Specification for messages of the logger: independent of the model.
-/
namespace Viscid.Spec.LogMsg

/-- White space: tab, line feed, vertical tab, form feed, carriage return, blank -/
def Space (c : Char) : Prop := c ∈ ['\t', '\n', '\x0b', '\x0c', '\r', ' ']

instance (c : Char) : Decidable (Space c) := by unfold Space; infer_instance

/-- What one can see of a text -/
def letters (s : List Char) : List Char := s.filter fun c => ¬ Space c

/-- The lines of a text -/
def lines : List Char → List (List Char)
  | [] => [[]]
  | c :: s =>
    if c = '\n' then [] :: lines s
    else match lines s with
      | [] => [[c]]
      | l :: ls => (c :: l) :: ls

/-- Lines behind a label, the others below the start of the first -/
def labelled (label : List Char) : List (List Char) → List (List Char)
  | [] => []
  | l :: ls => (label ++ l) :: ls.map fun m => List.replicate label.length ' ' ++ m

/-- `w` is one of the words of `s`, which white space separates -/
def Word (w s : List Char) : Prop :=
  ∃ pre post, s = pre ++ (w ++ post) ∧ w ≠ [] ∧ (∀ c ∈ w, ¬ Space c) ∧ (∀ c, pre.getLast? = some c → Space c) ∧ (∀ c, post.head? = some c → Space c)

/-- A way to cut words at hyphens: nothing is lost, and words without hyphens stay whole -/
structure Cuts (cut : List Char → List (List Char)) : Prop where
  whole : ∀ w, (cut w).flatten = w
  parts : ∀ w, ∀ p ∈ cut w, p ≠ []
  plain : ∀ w, w ≠ [] → '-' ∉ w → cut w = [w]

end Viscid.Spec.LogMsg
