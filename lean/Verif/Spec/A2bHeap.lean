import Verif.Model.A2bHeap
/-! # Arrays and what they hold -/
namespace Viscid.Spec.A2bHeap
open Viscid.Rotation Viscid.RotStack Viscid.A2bHeap

/-- the array at `p` holds the vector or the vectors `s` -/
def Holds (h : Heap) (p : Nat) (s : Stk V3) : Prop :=
  ∃ dbl, match s with
    | .one x => h[p]? = some ⟨dbl, true, [some x]⟩
    | .many l => h[p]? = some ⟨dbl, false, l.map some⟩

end Viscid.Spec.A2bHeap
