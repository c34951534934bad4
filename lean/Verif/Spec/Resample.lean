import Mathlib.Data.Rat.Floor

/-!
What resampling a line means: a place along a line is a number of segments
from its beginning.
-/
namespace Viscid.Spec.Resample

/-- `At row u x`: a coordinate of a line whose vertices have the coordinates
`row` is `x` at the place that is `u` segments from the beginning -/
inductive At (row : List ℚ) : ℚ → ℚ → Prop
  | vertex {j : Nat} {a : ℚ} : row[j]? = some a → At row (j : ℚ) a
  | between {j : Nat} {a b w : ℚ} : row[j]? = some a → row[j + 1]? = some b → 0 < w → w < 1 →
      At row ((j : ℚ) + w) ((1 - w) * a + w * b)

/-- `new` has `m` points that divide the line `old` of `n` points in equal parts -/
def Even (n m : Nat) (old new : List ℚ) : Prop :=
  new.length = m ∧ ∀ i, i < m → ∃ x, new[i]? = some x ∧ At old ((i : ℚ) * ((n : ℚ) - 1) / ((m : ℚ) - 1)) x

end Viscid.Spec.Resample
