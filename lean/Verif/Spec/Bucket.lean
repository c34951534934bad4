import Verif.Model.Bucket
/-!
# Abstract specification of a bucket

A bucket is just a map from handles to items together with one reference count per stored item.
Only the operation alphabet `Op` is shared with the model.
-/
namespace Viscid.Spec.Bucket
open Viscid.Bucket (Op)
open Classical

/-- What a user sees: which handle gives which item, how many references each stored item has
(meaningful only while stored), and the next automatic integer handle. -/
structure Abs (H I K : Type) where
  map : H → Option I
  refs : K → Int
  next : Nat

variable {H I K : Type}

/-- Some handle still gives an item equal to `k`. -/
def Abs.Stored (key : I → K) (a : Abs H I K) (k : K) : Prop := ∃ h i, a.map h = some i ∧ key i = k

/-- Forget an item: none of its handles resolves any more. -/
noncomputable def Abs.drop (key : I → K) (a : Abs H I K) (k : K) : Abs H I K :=
  { a with map := fun h => if (∃ i, a.map h = some i ∧ key i = k) then none else a.map h }

/-- Give back `n` references; the item goes away when none is left. -/
noncomputable def Abs.release (key : I → K) (a : Abs H I K) (k : K) (n : Int) : Abs H I K :=
  if a.refs k - n ≤ 0 then a.drop key k
  else { a with refs := fun k' => if k' = k then a.refs k - n else a.refs k' }

/-- Resolve an argument as a handle (unhashable arguments resolve to nothing). -/
def Abs.find (a : Abs H I K) (h : Option H) : Option I := h.bind a.map

/-- One call: new state, and whether it raised. -/
noncomputable def Abs.step (key : I → K) (ofNat : Nat → H) (a : Abs H I K) : Op H I → Abs H I K × Bool
  | .set hs i idx addRef =>
      let fresh := ¬ a.Stored key (key i)
      let hs' := if fresh ∧ idx then hs ++ [some (ofNat a.next)] else hs
      ({ map := fun h => if some h ∈ hs' then some i else a.map h
         next := if fresh ∧ idx then a.next + 1 else a.next
         refs := fun k => if k = key i then (if fresh then 1 else if addRef then a.refs k + 1 else a.refs k)
                          else a.refs k }, false)
  | .setNonList => (a, true)
  | .del h i =>
      match a.find h with
      | some j => (a.drop key (key j), false)
      | none => if a.Stored key (key i) then (a.drop key (key i), false) else (a, true)
  | .removeByHandle h =>
      match a.find h with
      | some j => (a.drop key (key j), false)
      | none => (a, true)
  | .removeItem i => if a.Stored key (key i) then (a.drop key (key i), false) else (a, true)
  | .removeReference i h n =>
      if a.Stored key (key i) then (a.release key (key i) n, false)
      else match a.find h with
        | some j => if n = 0 then (a.drop key (key j), false) else (a.release key (key j) n, false)
        | none => (a, true)
  | .removeAll => ({ a with map := fun _ => none }, false)

def Abs.empty : Abs H I K := ⟨fun _ => none, fun _ => 0, 0⟩

noncomputable def Abs.exec (key : I → K) (ofNat : Nat → H) (ops : List (Op H I)) : Abs H I K :=
  ops.foldl (fun a op => (a.step key ofNat op).1) Abs.empty

end Viscid.Spec.Bucket
