import Verif.Model.Ecfc
import Mathlib.Algebra.BigOperators.Intervals
/-! # Faces and cells of a rectilinear grid -/
namespace Viscid.Spec.Ecfc
open Viscid.Ecfc (Stag)

/-- Array index of the lower face of cell `c`: with leading staggering index `i` is the lower face of
cell `i`, with trailing staggering its upper face; reversing the axis swaps the two. -/
def low : Stag → Bool → Nat → Nat
  | .leading, false, c => c
  | .trailing, true, c => c
  | .trailing, false, c => c - 1
  | .leading, true, c => c - 1

/-- Net flux out of the block of cells `[i0, i1) × [j0, j1) × [k0, k1)`: face values (`F c i j k`, at node
`i`, `j`, `k` of axis `c`) times face areas; `x c` are the nodes. -/
def blockFlux (F : Fin 3 → Nat → Nat → Nat → ℚ) (x : Fin 3 → Nat → ℚ) (i0 i1 j0 j1 k0 k1 : Nat) : ℚ :=
  (∑ j ∈ Finset.Ico j0 j1, ∑ k ∈ Finset.Ico k0 k1,
    (F 0 i1 j k - F 0 i0 j k) * ((x 1 (j + 1) - x 1 j) * (x 2 (k + 1) - x 2 k))) +
  (∑ i ∈ Finset.Ico i0 i1, ∑ k ∈ Finset.Ico k0 k1,
    (F 1 i j1 k - F 1 i j0 k) * ((x 0 (i + 1) - x 0 i) * (x 2 (k + 1) - x 2 k))) +
  (∑ i ∈ Finset.Ico i0 i1, ∑ j ∈ Finset.Ico j0 j1,
    (F 2 i j k1 - F 2 i j k0) * ((x 0 (i + 1) - x 0 i) * (x 1 (j + 1) - x 1 j)))

/-- Volume of cell (i, j, k). -/
def vol (x : Fin 3 → Nat → ℚ) (i j k : Nat) : ℚ :=
  (x 0 (i + 1) - x 0 i) * (x 1 (j + 1) - x 1 j) * (x 2 (k + 1) - x 2 k)

end Viscid.Spec.Ecfc
