import Verif.Model.Minvar
import Mathlib.Analysis.SpecialFunctions.Trigonometric.Inverse
/-!
# Model of `viscid/calculator/mpause.py`: paraboloids, the edges of the magnetopause and the shear across it

Numbers are real and rounding is not modelled; nan is none. The edges and the shear are modelled for one column of the block (one y and z),
as they do not depend on the others; edges without a mask (`maskval=None`). Not modelled: the fit, the cache, and interpolation of AMR
fields.
-/
namespace Viscid.Mpause
open Viscid.Minvar (V dot)

structure Parab where
  x0 : ℝ
  y0 : ℝ
  z0 : ℝ
  ax : ℝ
  ay : ℝ
  az : ℝ

/-- mpause.py:19-21 `paraboloid` -/
noncomputable def paraboloid (p : Parab) (y z : ℝ) : ℝ := p.ax * (((y - p.y0) / p.ay) ^ 2 + ((z - p.z0) / p.az) ^ 2) + p.x0

/-- mpause.py:23-32 `paraboloid_normal` -/
noncomputable def normal (p : Parab) (y z : ℝ) (normalize : Bool) : V :=
  let dyF := 2 * (y - p.y0) / p.ay ^ 2
  let dzF := 2 * (z - p.z0) / p.az ^ 2
  let dxF := -1 / p.ax
  let n : V := ![dxF, dyF, dzF]
  if normalize then fun i => n i / Minvar.norm n else n

/-! ### edges -/

/-- `np.amax` of absolute values -/
noncomputable def absmax (l : List ℝ) : ℝ := (l.map fun x => |x|).foldr max 0

open Classical in
/-- mpause.py:333-334 -/
noncomputable def above (thresh : ℝ) (jy : List ℝ) : List Bool := jy.map fun x => decide (thresh * absmax jy < x)

/-- `np.argmax` of booleans: the first true one, or the first one, if none is -/
def argmax (l : List Bool) : Nat := (l.findIdx? id).getD 0

/-- mpause.py:337 -/
noncomputable def sphereInd (thresh : ℝ) (jy : List ℝ) : Nat := argmax (above thresh jy)

/-- mpause.py:345 -/
noncomputable def sheathInd (thresh : ℝ) (jy : List ℝ) : Nat := jy.length - 1 - argmax (above thresh jy).reverse

structure Edges where
  sheath : Option ℝ
  sphere : Option ℝ
  width : Option ℝ

/-- mpause.py:290-354 `find_mp_edges`, of a column of the current at `xcc` -/
noncomputable def edges (sphereThresh sheathThresh : ℝ) (xcc jy : List ℝ) : Edges :=
  let i := sphereInd sphereThresh jy
  let j := sheathInd sheathThresh jy
  let sphere := if 0 < i then xcc[i]? else none
  let sheath := if j < jy.length - 1 then xcc[j]? else none
  ⟨sheath, sphere, sheath.bind fun a => sphere.map fun b => a - b⟩

/-! ### shear -/

/-- mpause.py:212-238 `mp_shear` of a column of the magnetic field, in degrees -/
noncomputable def shear (b : List V) (sheath sphere : Nat) : Option ℝ :=
  let nx := b.length
  let bSheath := b.getD (min (sheath + 6) (nx - 1)) 0
  let bSphere := b.getD (min (sheath - 6) (nx - 1)) 0
  if sheath + 6 < nx ∧ 6 ≤ sphere then
    let mag := Minvar.norm bSphere * Minvar.norm bSheath
    if mag = 0 then none else some (180 / Real.pi * Real.arccos (dot bSheath bSphere / mag))
  else none

end Viscid.Mpause
