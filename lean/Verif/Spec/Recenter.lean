import Verif.Model.Recenter
/-!
# Specification for C162

All fields show one array: reading gives what was written last, through whichever of them.
-/
namespace Viscid.Spec.Recenter
open Viscid.Recenter (Op Out)

/-- The results of the operations are those of a single array, which has the contents `v` at the start. -/
def Agrees (v : V) : List (Op V) → List (Out V) → Prop
  | [], [] => True
  | .read _ :: ops, o :: os => o = .val v ∧ Agrees v ops os
  | .write _ g :: ops, _ :: os => Agrees (g v) ops os
  | _ :: ops, _ :: os => Agrees v ops os
  | _, _ => False

/-- what is not done to the data -/
def noAssign : Op V → Prop
  | .assign _ _ => False
  | _ => True

def noWrite : Op V → Prop
  | .write _ _ => False
  | _ => True

def noClear : Op V → Prop
  | .clear _ => False
  | _ => True

def noCopy : Op V → Prop
  | .shell _ _ => False
  | .adjust _ => False
  | _ => True

end Viscid.Spec.Recenter
