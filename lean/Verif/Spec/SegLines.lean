import Verif.Model.SegLines
/-! What segments of lines ought to be. -/
namespace Viscid.Spec.SegLines

/-- The segments of a line: each vertex with the next one. -/
def pairs : List α → List (α × α)
  | a :: b :: l => (a, b) :: pairs (b :: l)
  | _ => []

/-- `v` is the point `p` vertices along the line. -/
def On (line : List (List ℚ)) (p : ℚ) (v : List ℚ) : Prop :=
  (∃ j : Nat, p = j ∧ line[j]? = some v) ∨
  (∃ (j : Nat) (w : ℚ) (a b : List ℚ), p = j + w ∧ 0 ≤ w ∧ w ≤ 1 ∧ line[j]? = some a ∧ line[j + 1]? = some b ∧ v.length = a.length ∧
    ∀ (r : Nat) x y, a[r]? = some x → b[r]? = some y → v[r]? = some ((1 - w) * x + w * y))

/-- The fine line has vertices equally spaced (in numbers of vertices) along the other one, from its first to its last; `s` (rounded up) for each segment of it. -/
structure Refines (s : ℚ) (coarse fine : List (List ℚ)) : Prop where
  count : (fine.length : ℤ) = ⌈s * ((coarse.length : ℚ) - 1)⌉ + 1
  points : ∀ (k : Nat) v, fine[k]? = some v → ∃ p : ℚ, p * ((fine.length : ℚ) - 1) = k * ((coarse.length : ℚ) - 1) ∧ On coarse p v

end Viscid.Spec.SegLines
