import Verif.Model.Athena
/-!
# What names of fields of Athena files mean
-/
namespace Viscid.Spec.Athena
open Viscid.Athena

/-- the letter and the number of each axis -/
inductive Axis : String → String → Prop
  | x : Axis "x" "1"
  | y : Axis "y" "2"
  | z : Axis "z" "3"

/-- the file has a field with this name, with these numbers -/
def Has (g : Grid ι) (k : String) (v : ι → ℝ) : Prop := ∃ f l, g.stored k = some (f, l) ∧ f.val = v

/-- the file has no field with this name -/
def Lacks (g : Grid ι) (k : String) : Prop := g.stored k = none

/-- what was asked for is a scalar field with these numbers -/
def Gives (r : Grid ι × Except Exc (Out ι)) (v : ι → ℝ) : Prop :=
  ∃ x f, r.2 = .ok (.scalar x) ∧ r.1.deref x = some f ∧ f.val = v

/-- what was asked for is a scalar field of this name -/
def Called (r : Grid ι × Except Exc (Out ι)) (n : String) : Prop :=
  ∃ x f, r.2 = .ok (.scalar x) ∧ r.1.deref x = some f ∧ f.name = n

/-- what was asked for is a vector field with these components -/
def GivesVec (r : Grid ι × Except Exc (Out ι)) (v : Fin 3 → ι → ℝ) : Prop := ∃ n, r.2 = .ok (.vector n v)

end Viscid.Spec.Athena
