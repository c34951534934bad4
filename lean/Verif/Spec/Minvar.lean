import Mathlib.Analysis.Real.Sqrt
import Mathlib.Data.Fin.VecNotation
import Mathlib.Algebra.BigOperators.Fin
/-!
# Variances, eigenvectors and frames
-/
namespace Viscid.Spec.Minvar

/-- the average -/
noncomputable def average (l : List ℝ) : ℝ := l.sum / l.length

/-- the average of the squared deviations from the average -/
noncomputable def variance (l : List ℝ) : ℝ := average (l.map fun x => (x - average l) ^ 2)

/-- the component of a vector along another -/
def along (u v : Fin 3 → ℝ) : ℝ := ∑ i, u i * v i

/-- What is relied on of `np.linalg.eig`, of symmetric matrices: pairs of eigenvalues and eigenvectors (in columns) of length one, of
    which all other vectors are combinations. -/
structure Eigen (m : Fin 3 → Fin 3 → ℝ) (w : Fin 3 → ℝ) (v : Fin 3 → Fin 3 → ℝ) : Prop where
  pair : ∀ k i, ∑ j, m i j * v j k = w k * v i k
  length : ∀ k, along (fun i => v i k) (fun i => v i k) = 1
  span : ∀ u : Fin 3 → ℝ, ∃ a : Fin 3 → ℝ, ∀ i, u i = ∑ k, a k * v i k

/-- three directions at right angles, of length one, with the third being the first turned into the second -/
structure RightHanded (l m n : Fin 3 → ℝ) : Prop where
  ll : along l l = 1
  mm : along m m = 1
  nn : along n n = 1
  lm : along l m = 0
  ln : along l n = 0
  mn : along m n = 0
  det : l 0 * (m 1 * n 2 - m 2 * n 1) - l 1 * (m 0 * n 2 - m 2 * n 0) + l 2 * (m 0 * n 1 - m 1 * n 0) = 1

/-- `b` is `a` times a positive number -/
def Same (a b : Fin 3 → ℝ) : Prop := ∃ c : ℝ, 0 < c ∧ ∀ i, b i = c * a i

/-- the part of `b` at right angles to `n`, which has length one -/
def perp (n b : Fin 3 → ℝ) : Fin 3 → ℝ := fun i => b i - along b n * n i

/-- a sample of which all components are numbers -/
def complete (s : Fin 3 → Option ℝ) : Option (Fin 3 → ℝ) :=
  if ∀ i, (s i).isSome then some fun i => (s i).getD 0 else none

end Viscid.Spec.Minvar
