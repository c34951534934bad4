import Verif.Model.Frames
import Verif.Spec.Arith
/-!
# Specification of tables of fields
-/
namespace Viscid.Spec.Frames
open Viscid.Frames

/-- the place of a point among all points, the last axis changing fastest -/
def pos : List Nat → List Nat → Nat
  | _ :: s, i :: p => i * (s.foldr (· * ·) 1) + pos s p
  | _, _ => 0

/-- the table has the entry `x` in column `n` of row `i` -/
def Has (f : Frame) (n : String) (i : Nat) (x : Cell) : Prop := ∃ l, (n, l) ∈ f.cols ∧ l[i]? = some x

/-- the numbers of points along the axes -/
def sizes (axes : List (String × List Cell)) : List Nat := axes.map fun a => a.2.length

/-- row `i` of the table is the point `p` at time `t`: the coordinates of the point, and the values of the fields there -/
def AtPoint (f : Frame) (timeCol : String) (t : ℚ) (axes : List (String × List Cell)) (flds : List Fld) (i : Nat) (p : List Nat) : Prop :=
  Has f timeCol i (some t) ∧
  (∀ (k : Nat) (a : String × List Cell) (j : Nat), axes[k]? = some a → p[k]? = some j → ∃ x, a.2[j]? = some x ∧ Has f a.1 i x) ∧
  ∀ g ∈ flds, ∃ x, g.vals[pos (sizes axes) p]? = some x ∧ Has f g.name i x

/-- scalar fields on the same points at the same time, with names that can be told from each other and from the axes and the columns of times -/
structure Good (timeCol dtCol : String) (axes : List (String × List Cell)) (t : ℚ) (b : Option Cell) (flds : List Fld) : Prop where
  ne : flds ≠ []
  axesNe : axes ≠ []
  names : (timeCol :: dtCol :: (axes.map Prod.fst ++ flds.map Fld.name)).Nodup
  time : ∀ f ∈ flds, f.time = some t
  base : ∀ f ∈ flds, f.base = b
  points : ∀ f ∈ flds, f.axes = axes
  scalar : ∀ f ∈ flds, f.vals.length = (sizes axes).foldr (· * ·) 1

end Viscid.Spec.Frames

namespace Viscid.Spec.Frames
open Viscid.Frames

/-- grids of different times, with fields of the same names on the same points, which are different along each axis -/
structure Series (timeCol : String) (axes : List (String × List Cell)) (b : Option Cell) (gs : List Grid) : Prop where
  ne : gs ≠ []
  good : ∀ g ∈ gs, ∃ t, g.time = some t ∧ g.base = b ∧ Good timeCol "datetime" axes t b g.flds
  times : (gs.map Grid.time).Nodup
  names : ∀ g ∈ gs, ∀ g' ∈ gs, g.flds.map Fld.name = g'.flds.map Fld.name
  points : ∀ a ∈ axes, a.2 ≠ [] ∧ a.2.Nodup ∧ none ∉ a.2

/-- the same grid, with another base time -/
def rebase (c : Cell) (g : Grid) : Grid := ⟨g.time, some c, g.flds.map fun f => { f with base := some c }⟩

end Viscid.Spec.Frames
