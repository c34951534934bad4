import Verif.Model.MeshGrid
import Mathlib.Data.List.Forall2
/-! What meshgrids are to be. Only the types are those of the model. -/
namespace Viscid.Spec.MeshGrid
open Viscid.MeshGrid (Fld Comps)
open Viscid.Layout (Arr)

/-- An index within a shape -/
def Within (shape idx : List Nat) : Prop := List.Forall₂ (fun n i => i < n) shape idx

/-- The array has the coordinates `c` along its axis number `k`, and does not change along the others -/
def Along {α : Type} (shape : List Nat) (k : Nat) (c : List α) (a : Arr α) : Prop :=
  a.shape = shape ∧ ∀ idx, Within shape idx → ∃ i, idx[k]? = some i ∧ c[i]? = some (a.get idx)

/-- One array for each of the axes, with the lengths of all of them -/
def Mesh {α : Type} (crds : List (List α)) (axes : List Nat) (r : List (Arr α)) : Prop :=
  r.length = axes.length ∧ ∀ k i a, axes[k]? = some i → r[k]? = some a → Along (axes.map fun j => (crds.getD j []).length) k (crds.getD i []) a

/-- The lengths of some axes, and 1 for the others -/
def thin {α : Type} (crds : List (List α)) (axes : List Nat) : List Nat := (List.range crds.length).map fun p => if p ∈ axes then (crds.getD p []).length else 1

/-- The axes with more than one point -/
def extended {α : Type} (crds : List (List α)) : List Nat := (List.range crds.length).filter fun i => 1 < (crds.getD i []).length

/-- The position of an index in C order -/
def place : List Nat → List Nat → Nat
  | _ :: s, i :: idx => i * s.foldr (· * ·) 1 + place s idx
  | _, _ => 0

end Viscid.Spec.MeshGrid
