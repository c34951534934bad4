/-!
# Looking up names: the specification
-/
namespace Viscid.Spec.Grid

/-- White space. -/
def Blank (c : Char) : Prop := c = ' ' ∨ c = '\t' ∨ c = '\n' ∨ c = '\r' ∨ c = '\x0b' ∨ c = '\x0c'

/-- `t` is `s` without the white space around it. -/
def Trimmed (s t : List Char) : Prop :=
  ∃ a b, s = a ++ t ++ b ∧ (∀ c ∈ a, Blank c) ∧ (∀ c ∈ b, Blank c) ∧
    (∀ c ∈ t.head?, ¬ Blank c) ∧ (∀ c ∈ t.getLast?, ¬ Blank c)

/-- `name` is `lhs = rhs`, with exactly one equals sign. -/
def Equation (name lhs rhs : List Char) : Prop :=
  ∃ l r, name = l ++ '=' :: r ∧ '=' ∉ l ∧ '=' ∉ r ∧ Trimmed l lhs ∧ Trimmed r rhs

/-- A step that may be absent. -/
def step {ε F : Type} (p : Option (F → Except ε F)) (f : F) : Except ε F :=
  match p with
  | none => .ok f
  | some p => p f

/-- The post-processor of that name, then the one for all names, each once. -/
def post {ε F : Type} (named all : Option (F → Except ε F)) (f : F) : Except ε F := do
  let f ← step named f
  step all f

end Viscid.Spec.Grid
