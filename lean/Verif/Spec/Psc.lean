import Mathlib.Analysis.SpecialFunctions.Pow.Real
/-! Names of the files of a PSC run, and the part of a vector along another -/
namespace Viscid.Spec.Psc

/-- The names of field files: `…fd.xdmf`, or `…fd.` with the number of the step in six digits and `.xdmf` -/
def FieldFile (s : List Char) : Prop :=
  ∃ pre, '\n' ∉ pre ∧ (s = pre ++ "fd.xdmf".toList ∨
    ∃ n, n.length = 6 ∧ (∀ c ∈ n, c.isDigit = true) ∧ s = pre ++ "fd.".toList ++ n ++ ".xdmf".toList)

def inner (a b : Fin 3 → ℝ) : ℝ := a 0 * b 0 + a 1 * b 1 + a 2 * b 2

noncomputable def length (a : Fin 3 → ℝ) : ℝ := √(inner a a)

/-- `t` is the component of `e` along `h`: what is left of `e` is at right angles to `h` -/
def Along (e h : Fin 3 → ℝ) (t : ℝ) : Prop :=
  ∃ rest : Fin 3 → ℝ, inner rest h = 0 ∧ ∀ i, e i = t * (h i / length h) + rest i

end Viscid.Spec.Psc
