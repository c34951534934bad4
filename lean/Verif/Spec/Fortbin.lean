import Verif.Spec.AthenaBin
/-!
# OpenGGCM's binary files, as they are written
-/
namespace Viscid.Spec.Fortbin
open Viscid.Spec.AthenaBin (put int4)

/-- the indices of an array, the first one fastest -/
def cells : List Nat → List (List Nat)
  | [] => [[]]
  | n :: dims => (cells dims).flatMap fun t => (List.range n).map (· :: t)

/-- a field: its name, the text with the time, a number, the sizes, and the values at indices (x, y, z), as bytes of which the least significant comes first -/
structure Rec where
  name : List UInt8
  time : List UInt8
  inttime : Nat
  dims : List Nat
  val : List Nat → List UInt8

/-- what can be written -/
structure Rec.Ok (r : Rec) : Prop where
  dims : r.dims ≠ [] ∧ r.dims.length < 2 ^ 31 ∧ ∀ n ∈ r.dims, n < 2 ^ 31
  val : ∀ i, (r.val i).length = 4
  time : r.time.length = 80
  inttime : r.inttime < 2 ^ 31
  name : r.name ≠ [] ∧ r.name.length ≤ 80 ∧ ∀ b ∈ r.name, 32 < b

/-- the bytes of a field -/
def Rec.bytes (big : Bool) (r : Rec) : List UInt8 :=
  ([int4 2, int4 r.inttime, int4 r.dims.length] ++ r.dims.map int4).flatMap (put big) ++ (r.name ++ List.replicate (80 - r.name.length) 32) ++ r.time ++
    ((cells r.dims).map r.val).flatMap (put big)

/-- a file -/
def file (big : Bool) (rs : List Rec) : List UInt8 := rs.flatMap (Rec.bytes big)

/-- an index of an array -/
def Inside (dims idx : List Nat) : Prop := idx.length = dims.length ∧ ∀ (d i n : Nat), idx[d]? = some i → dims[d]? = some n → i < n

end Viscid.Spec.Fortbin
