import Verif.Model.Multiplot
import Verif.Spec.LogValue
/-!
# Specification for C227 and C228: pictures of several times
-/
namespace Viscid.Spec.Multiplot
open Viscid.LogValue Viscid.Multiplot Viscid.Spec.AsCotr

/-- The picture number i: the first one is the first run, all others get its result. -/
def picture (r : Option R) (times : List G) (i : Nat) : Option (Call G R) :=
  times[i]?.map fun t => ⟨i, t, i = 0, if i = 0 then none else r⟩

/-- The text asks for a field, with a selection of its own (empty if there is none): after any number of hats comes the name, and after a comma the selection.
    If there is an equals sign before the first comma, all of it is the field. -/
inductive Asks : Text → Text → Text → Prop
  | name {h f} : (∀ c ∈ h, c = '^') → f.head? ≠ some '^' → ',' ∉ f → '=' ∉ f → Asks (h ++ f) f []
  | slice {h f s} : (∀ c ∈ h, c = '^') → f.head? ≠ some '^' → ',' ∉ f → '=' ∉ f → Asks (h ++ (f ++ ',' :: s)) f s
  | equation {h a b} : (∀ c ∈ h, c = '^') → a.head? ≠ some '^' → ',' ∉ a → Asks (h ++ (a ++ '=' :: b)) (a ++ '=' :: b) []

/-- A selection and one for all variables. -/
def both (own : Text) (all : Option Text) : Text :=
  match own, all with
  | own, none => own
  | [], some t => t
  | c :: own, some t => c :: own ++ ',' :: t

/-- The options of a variable together with those for all: a comma between them. -/
def options (own : Option (Option Text)) (all : Option Text) : Option Text :=
  match own, all with
  | none, all => all
  | some own, none => own
  | some none, some g => some ("None,".toList ++ g)
  | some (some o), some g => some (o ++ ',' :: g)

/-- `,g` so many times. -/
def again (g : Text) : Nat → Text
  | 0 => []
  | k + 1 => ',' :: g ++ again g k

/-- How many of the variables have axes of their own (no hat). -/
def axes (vars : List Var) : Nat := (vars.filter fun v => decide (v.name.head? ≠ some '^')).length

end Viscid.Spec.Multiplot
