import Verif.Model.Readers
/-! # Class hierarchies -/
namespace Viscid.Spec.Readers
open Viscid.Readers (Cls)

def nameOf {N : Type} : Cls N → N
  | .node n _ => n

/-- `Below t u`: `t` is `u` or somewhere below it in the hierarchy. -/
inductive Below {N : Type} : Cls N → Cls N → Prop where
  | refl (t : Cls N) : Below t t
  | sub {t c : Cls N} {n : N} {subs : List (Cls N)} : c ∈ subs → Below t c → Below t (.node n subs)

/-- Class `d` is a proper subclass of class `b` (both in the hierarchy below `root`). -/
def Derived {N : Type} (root : Cls N) (d b : N) : Prop :=
  ∃ (subs : List (Cls N)) (c t : Cls N), Below (.node b subs) root ∧ c ∈ subs ∧ Below t c ∧ nameOf t = d

/-- A name stands for one class: wherever it occurs, the same subclasses are below it. -/
def Consistent {N : Type} (root : Cls N) : Prop :=
  ∀ t u : Cls N, Below t root → Below u root → nameOf t = nameOf u → t = u

end Viscid.Spec.Readers
