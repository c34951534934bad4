import Verif.Model.XdmfGeo
/-!
# What the Geometry of an XDMF file says about the coordinates of a grid

Written from the description of the format; only the types of elements are taken from the model.
-/
namespace Viscid.Spec.XdmfGeo
open Viscid.XdmfGeo

/-- two names are the same but for upper and lower case -/
def SameName (a b : String) : Prop := a.toList.map Char.toLower = b.toList.map Char.toLower

instance (a b : String) : Decidable (SameName a b) := inferInstanceAs (Decidable (_ = _))

/-- three data items, in any order, with a name each; the axes are `x`, `y` and `z` of these names -/
def Arrays (nx ny nz : String) (items : List Item) (x y z : List ℚ) : Prop :=
  ∃ a b c : String, SameName a nx ∧ SameName b ny ∧ SameName c nz ∧
    items.Perm [⟨some a, .ok x⟩, ⟨some b, .ok y⟩, ⟨some c, .ok z⟩]

/-- the nodes of an axis with origin `o`, spacing `d` and `n` nodes -/
def spacing (o d : ℚ) (n : Nat) : List ℚ := (List.range n).map fun (i : Nat) => o + i * d

/-- the numbers of the nodes of all axes, by name -/
def nodes : Coords → List (String × List ℚ)
  | .uniform axes => axes.map fun a => (a.1, Crds.linspace a.2.xl a.2.xh a.2.n)
  | .arrays axes => axes
  | .empty => []

end Viscid.Spec.XdmfGeo
