import Verif.Model.Crds
/-!
# Model of `viscid/plot/vpyplot.py`: arrows of a vector field in a plane

For fields that have been reduced to two axes already, with three components. `Axis` and its slices are those of `Model.Crds`.
-/
namespace Viscid.Quiver
open Viscid.Crds (Axis)
open Viscid.Spec.Slice (pyIndices)

variable {α : Type}

/-- A field of two axes: is it of cells, are its components first (`LAYOUT_FLAT`), and its components along the axes -/
structure Fld (α : Type) where
  l : Axis
  m : Axis
  cc : Bool
  flat : Bool
  vl : Nat → Nat → α
  vm : Nat → Nat → α

/-- coordinates of the points of an axis -/
def pts (cc : Bool) (a : Axis) : List ℚ := if cc then a.centres else a.nodes

/-- field.py:684-692 `shape`: with the components -/
def Fld.shape (f : Fld α) : List Nat :=
  if f.flat then [3, (pts f.cc f.l).length, (pts f.cc f.m).length] else [(pts f.cc f.l).length, (pts f.cc f.m).length, 3]

/-- vpyplot.py:1625-1626 -/
def first (n s : Nat) : Nat := n % s / 2

/-- vpyplot.py:1623-1624: one step, or one for each axis; a list with one is one step -/
def steps : List Nat → Option (Nat × Nat)
  | [] => none
  | [s] => some (s, s)
  | s :: t :: _ => some (s, t)

/-- vpyplot.py:1586-1643 `plot2d_quiver`: the rows of arrows given to `ax.quiver`: their places and components.
    `none`: an exception -/
def quiver (f : Fld α) (step : List Nat) : Option (List (List (ℚ × ℚ × α × α))) :=
  match steps step with
  | none => none
  | some (sl, sm) =>
    if sl = 0 ∨ sm = 0 then none
    else
      let fl := first (f.shape.getD 0 0) sl
      let fm := first (f.shape.getD 1 0) sm
      let nl := (pts f.cc f.l).length
      let nm := (pts f.cc f.m).length
      match f.l.slice f.cc ⟨some (fl : Int), none, some (sl : Int)⟩, f.m.slice f.cc ⟨some (fm : Int), none, some (sm : Int)⟩ with
      | some al, some am =>
        let il := (pyIndices nl (some (fl : Int)) none sl).map Int.toNat
        let im := (pyIndices nm (some (fm : Int)) none sm).map Int.toNat
        some (List.zipWith (fun x i => List.zipWith (fun y j => (x, y, f.vl i j, f.vm i j)) (pts f.cc am) im) (pts f.cc al) il)
      | _, _ => none

end Viscid.Quiver
