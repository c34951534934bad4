import Verif.Model.Ath2Xdmf
import Mathlib.Data.List.Chain
/-! When files of processes make up one box, and what the joined file has to have in it. -/
namespace Viscid.Spec.Ath2Xdmf
open Viscid.Ath2Xdmf

/-- Arrays of nodes, each strictly increasing and of one cell at least, each beginning where the one before it ends; their beginnings are not so close to each other
that they are taken for the same number. -/
def Chain (bs : List (List ℚ)) : Prop :=
  bs.IsChain (fun b c => b.getLast? = c.head?) ∧ (∀ b ∈ bs, 2 ≤ b.length ∧ b.Pairwise (· < ·)) ∧
    ∀ b ∈ bs, ∀ c ∈ bs, ∀ x y, b.head? = some x → c.head? = some y → x ≠ y → 1 / 10 ^ 14 * |y| < |x - y|

/-- The grids tile a box: along each axis there are arrays of nodes one after another, and each combination of them is the coordinates of one grid. -/
structure Tiling (gs : List (Grid V)) (bs : Fin 3 → List (List ℚ)) (pos : Nat → Fin 3 → Nat) : Prop where
  chain : ∀ i, Chain (bs i)
  crds : ∀ (k : Nat) g, gs[k]? = some g → ∀ i, (bs i)[pos k i]? = some (g.crds i)
  apart : ∀ k l, k < gs.length → l < gs.length → pos k = pos l → k = l
  all : ∀ q : Fin 3 → Nat, (∀ i, q i < (bs i).length) → ∃ k < gs.length, pos k = q
  some : gs ≠ []
  time : ∀ g ∈ gs, ∀ h ∈ gs, g.time = h.time

/-- All nodes of the arrays, once each, in order. -/
def Nodes (bs : List (List ℚ)) (l : List ℚ) : Prop := l.Pairwise (· < ·) ∧ ∀ x, x ∈ l ↔ ∃ b ∈ bs, x ∈ b

/-- The cell `idx` of the joined file is the cell `c` of the grid: between the same nodes. -/
def SameCell (out : Out V) (g : Grid V) (idx c : Fin 3 → Nat) : Prop :=
  ∀ i, c i + 1 < (g.crds i).length ∧ (out.crds i)[idx i]? = (g.crds i)[c i]? ∧ (out.crds i)[idx i + 1]? = (g.crds i)[c i + 1]?

/-- All arrays of an axis are of the same length. -/
def SameSize (bs : List (List ℚ)) : Prop := ∀ b ∈ bs, ∀ c ∈ bs, b.length = c.length

end Viscid.Spec.Ath2Xdmf
