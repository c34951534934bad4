import Verif.Model.Injector
/-!
# Specification for C249: names in a package's namespace

Only the types of the model are used.
-/
namespace Viscid.Spec.Injector
open Viscid.Injector

/-- the names a module shares, with the objects they stand for there -/
def shared {V : Type} (m : PyMod V) : List (String × V) :=
  (m.all.getD []).filterMap fun n => (m.attr n).map fun v => (n, v)

/-- everything the turn of one name binds, in order -/
def made {V : Type} (s : String) (r : Imp V) : List (String × V) :=
  r.binds ++ match r.out with
    | .ok m => (s, m.val) :: shared m
    | .error _ => []

/-- the names a turn adds to the list -/
def added {V : Type} (r : Imp V) : List String :=
  match r.out with
  | .ok m => m.all.getD []
  | .error _ => []

/-- the names of the list that stay: those imported, and those bound by the time their import failed -/
def staying {V : Type} : (String → Prop) → List (String × Imp V) → List String → Prop
  | _, [], out => out = []
  | bound, (s, r) :: rest, out =>
    let bound' := fun n => bound n ∨ n ∈ (made s r).map Prod.fst
    ((∃ m, r.out = .ok m) ∨ bound' s → ∃ out', out = s :: out' ∧ staying bound' rest out') ∧
    (¬ ((∃ m, r.out = .ok m) ∨ bound' s) → staying bound' rest out)

/-- no surprise in a turn: the module has every name it shares, and a failure is an ImportError -/
def Plain {V : Type} (r : Imp V) : Prop :=
  (∀ m, r.out = .ok m → ∀ n ∈ m.all.getD [], m.attr n ≠ none) ∧ r.out ≠ .error .other

/-- the object last bound to a name -/
def lastBound {V : Type} (l : List (String × V)) (n : String) : Option V :=
  ((l.filter fun b => b.1 = n).getLast?).map Prod.snd

end Viscid.Spec.Injector
