/-!
# Specification for layouts
-/
namespace Viscid.Spec.Layout

/-- The value of component `c` at the grid point `idx` in a flat array (components first). -/
def flatComp (get : List Nat → α) (c : Nat) (idx : List Nat) : α := get (c :: idx)

/-- The value of component `c` at the grid point `idx` in an interlaced array (components last). -/
def interlacedComp (get : List Nat → α) (c : Nat) (idx : List Nat) : α := get (idx ++ [c])

/-- What the axes of the array of a field stand for: one of the coordinates, or the components (`none`). -/
def axisLabels (crds : List β) : Option Nat → List (Option β)
  | none => crds.map some
  | some c => (crds.take c).map some ++ none :: (crds.drop c).map some

end Viscid.Spec.Layout
