import Mathlib.Analysis.Real.Sqrt
import Mathlib.Data.List.Sort
import Mathlib.Data.Fin.VecNotation
/-!
# Model of `viscid/calculator/minvar_tools.py`: minimum variance analysis and boundary normal coordinates

Numbers are real, and nan or infinite if there is none (`Option`); rounding is not modelled. `np.linalg.eig` is a parameter. The field
along the line, `viscid.interp_trilin`, and `viscid.Line` are modelled elsewhere (`Interp`, `SeedGrid`); here the samples are given.
-/
namespace Viscid.Minvar

abbrev V := Fin 3 → ℝ
abbrev Mat := Fin 3 → Fin 3 → ℝ

def dot (a b : V) : ℝ := a 0 * b 0 + a 1 * b 1 + a 2 * b 2

noncomputable def norm (a : V) : ℝ := √(dot a a)

def cross (a b : V) : V := ![a 1 * b 2 - a 2 * b 1, a 2 * b 0 - a 0 * b 2, a 0 * b 1 - a 1 * b 0]

/-- minvar_tools.py:51, 59: a sample, if all of it is finite -/
def finite (s : Fin 3 → Option ℝ) : Option V :=
  match s 0, s 1, s 2 with
  | some a, some b, some c => some ![a, b, c]
  | _, _, _ => none

/-- `np.mean` -/
noncomputable def mean (l : List ℝ) : ℝ := l.sum / l.length

/-- minvar_tools.py:63-65 -/
noncomputable def entry (arr : List V) (i j : Fin 3) : ℝ :=
  mean (arr.map fun v => v i * v j) - mean (arr.map fun v => v i) * mean (arr.map fun v => v j)

/-- minvar_tools.py:60-65: both of the entries are set from the one with `j <= i` -/
noncomputable def matrix (arr : List V) : Mat := fun i j => if j ≤ i then entry arr i j else entry arr j i

open Classical in
/-- `np.argsort` of three numbers -/
noncomputable def argsort (g : Fin 3 → ℝ) : List (Fin 3) := [0, 1, 2].insertionSort fun i j => g i ≤ g j

/-- minvar_tools.py:42-81 `minvar_series`; none is nan for everything. `eig m` is the eigenvalues, and the eigenvectors as columns. -/
noncomputable def minvarSeries (eig : Mat → V × Mat) (arr : List (Fin 3 → Option ℝ)) : Option (V × Mat) :=
  let arr := arr.filterMap finite
  if arr.length < 3 then none
  else
    let (evals, evecs) := eig (matrix arr)
    let inds := argsort fun k => |evals k|
    let ind : Fin 3 → Fin 3 := fun k => inds.getD k 0
    some (fun k => evals (ind k), fun i k => evecs i (ind k))

/-- `v / np.linalg.norm(v)`; nan if it is zero -/
noncomputable def unit (v : V) : Option V := if norm v = 0 then none else some fun i => v i / norm v

/-- minvar_tools.py:107-113 `minvar_around`: both ends -/
noncomputable def around (p0 : V) (l : ℝ) (dir : V) : Option (V × V) :=
  (unit dir).map fun d => (fun i => p0 i - 1 / 2 * l * d i, fun i => p0 i + 1 / 2 * l * d i)

open Classical in
/-- `np.allclose(a, b)`, with its default tolerances; not for nan -/
noncomputable def allclose (a : V) : Option V → Bool
  | none => false
  | some b => decide (∀ i, |a i - b i| ≤ 1 / 10 ^ 8 + 1 / 10 ^ 5 * |b i|)

/-- minvar_tools.py:115-149 `_minvar_lmn_directions`: the directions l, m and n, which are the columns. `basis` of none is None, for which
    `reshape` raises the ValueError that is caught. -/
noncomputable def lmn (evecMin evecMax : V) (basis : Option V) : Option (V × V × V) :=
  (unit evecMin).bind fun n =>
    let basis := match basis with
      | none => evecMax
      | some b => if allclose n (unit b) then evecMax else b
    (unit fun i => basis i - dot basis n * n i).map fun l => (l, cross n l, n)

/-- minvar_tools.py:151-170 and 172-204: `find_minvar_lmn` and `find_minvar_lmn_around`, of the samples on the line -/
noncomputable def findLmn (eig : Mat → V × Mat) (arr : List (Fin 3 → Option ℝ)) (basis : Option V) : Option (V × V × V) :=
  (minvarSeries eig arr).bind fun (_, evecs) => lmn (fun i => evecs i 0) (fun i => evecs i 2) basis

end Viscid.Minvar
