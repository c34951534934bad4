import Verif.Model.Contig
import Mathlib.Data.List.Forall2
/-!
# C264: what is meant by fields in memory
-/
namespace Viscid.Spec.Contig
open Viscid.Contig

/-- an index inside of a shape -/
abbrev Inside (ix shape : List Nat) : Prop := List.Forall₂ (· < ·) ix shape

/-- number of an element if the last axis runs fastest -/
def position (shape ix : List Nat) : Nat := (List.zip shape ix).foldl (fun p ni => p * ni.1 + ni.2) 0

/-- an ndarray that is there -/
def Valid (m : Mem α) (a : Nd) : Prop := a.buf < m.next ∧ a.strides.length = a.shape.length

/-- a field whose arrays are there -/
def Sound (m : Mem α) (f : Fld α) : Prop :=
  (∀ a, f.cache = some a → Valid m a) ∧ (∀ a, f.src = .arr a → Valid m a) ∧ (∀ b a, f.src = .relaid b a → Valid m a)

/-- `fld.data` -/
def dataOf (m : Mem α) (f : Fld α) : Nd := (load m f).2.2

/-- `fld.data[ix]` -/
def elem (m : Mem α) (f : Fld α) (ix : List Nat) : α := fetch (load m f).1 (dataOf m f) ix

/-- the field that is returned -/
def returned (self : Fld α) : Ret α → Option (Fld α)
  | .self => some self
  | .field g => some g
  | .number _ => none

end Viscid.Spec.Contig
