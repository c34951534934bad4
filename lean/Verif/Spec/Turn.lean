import Mathlib.Data.Rat.Defs
/-! # Half a turn about the z axis, which takes MHD to GSE coordinates and back -/
namespace Viscid.Spec.Turn

/-- Half a turn about z, of a point or of a vector -/
def half (p : ℚ × ℚ × ℚ) : ℚ × ℚ × ℚ := (-p.1, -p.2.1, p.2.2)

/-- On a grid with coordinates `xs`, `ys`, `zs` and values `v`, there is a grid point at `p` and the value there is `w`. -/
def At (xs ys zs : List ℚ) (v : Nat → Nat → Nat → β) (p : ℚ × ℚ × ℚ) (w : β) : Prop :=
  ∃ i j k : Nat, xs[i]? = some p.1 ∧ ys[j]? = some p.2.1 ∧ zs[k]? = some p.2.2 ∧ v i j k = w

/-- The names under which OpenGGCM's files hold the components of vectors: what comes before and after the letter of the axis -/
def vectors : List (String × String) :=
  [("b", ""), ("v", ""), ("e", ""), ("j", ""), ("xj", ""), ("rv1", ""), ("b1", ""), ("b2", ""), ("b", "1"), ("b", "2"),
   ("e", "_cc"), ("e", "_ec"), ("efl", "")]

end Viscid.Spec.Turn
