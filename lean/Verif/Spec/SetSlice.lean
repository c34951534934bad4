import Verif.Model.SetSlice
import Verif.Spec.LazySlice
/-!
# What a selection of an array picks, and which value of a smaller array belongs where
-/
namespace Viscid.Spec.SetSlice
open Viscid.LazySlice (Idx)
open Viscid.SetSlice (Ent)

/-- position `p` of an axis of length `L` is picked by an integer or a slice -/
def Hit (L : Nat) : Idx → Nat → Prop
  | .int i, p => (p : Int) = i ∨ (p : Int) = i + L
  | .slc s, p => (p : Int) ∈ Spec.Slice.pyIndices L s.start s.stop (s.step.getD 1)

/-- the integers and slices of an index tuple -/
def plain (ents : List Ent) : List Idx := ents.filterMap fun e => match e with
  | .newax => none
  | .idx i => some i

/-- an index is picked by a list of integers and slices; axes beyond them are kept whole -/
inductive Picked : List Nat → List Idx → List Nat → Prop
  | nil : Picked [] [] []
  | cons {L : Nat} {S : List Nat} {i : Idx} {I : List Idx} {p : Nat} {k : List Nat} : p < L → Hit L i p → Picked S I k → Picked (L :: S) (i :: I) (p :: k)
  | rest {L : Nat} {S : List Nat} {p : Nat} {k : List Nat} : p < L → Picked S [] k → Picked (L :: S) [] (p :: k)

/-- `i` is the index in an array of shape `s` of the value that goes to `j`: the axes are compared from the last on, those of length 1 are repeated -/
def Src (s j i : List Nat) : Prop :=
  i.length = s.length ∧ ∀ (d : Nat) (n : Nat), s.reverse[d]? = some n → i.reverse[d]? = some (if n = 1 then 0 else j.reverse.getD d 0)

end Viscid.Spec.SetSlice
