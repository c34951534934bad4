import Verif.Model.Layout
import Verif.Spec.LazySlice
/-! # One component of an array -/
namespace Viscid.Spec.Hdf5Wrap
open Viscid.Layout (Arr)
open Viscid.Spec.LazySlice (Valid)

/-- `a` has the axes of `f` without axis `d`, and the values of `f` whose index along axis `d` is `c` -/
def IsComponent (f : Arr α) (d c : Nat) (a : Arr α) : Prop :=
  a.shape = f.shape.eraseIdx d ∧ ∀ j, Valid f.shape j → j[d]? = some c → a.get (j.eraseIdx d) = f.get j

/-- The same place, counted from the begin or from the end (Python) -/
def Counts (n : Nat) (i : Int) (k : Nat) : Prop := k < n ∧ (i = k ∨ i = (k : Int) - n)

/-- axes in the other order -/
def IsTransposed (f a : Arr α) : Prop := a.shape = f.shape.reverse ∧ ∀ j, Valid f.shape j → a.get j.reverse = f.get j

end Viscid.Spec.Hdf5Wrap
