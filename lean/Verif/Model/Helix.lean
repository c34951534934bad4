import Mathlib.Analysis.SpecialFunctions.Pow.Real
import Mathlib.Analysis.SpecialFunctions.Trigonometric.Basic
/-!
# Model of `viscid/plot/_cm_cubehelix.py`: colour maps of the cubehelix

Real numbers instead of floats.
-/
namespace Viscid.Helix

noncomputable section

/-- `np.linspace(a, b, n)[k]` -/
def linspace (a b : ℝ) (n k : ℕ) : ℝ := if n ≤ 1 then a else a + (b - a) * (k / (n - 1 : ℕ))

/-- The arguments; `none` is None -/
structure Args where
  hue0 : ℝ
  hue1 : ℝ
  sat : ℝ
  intensity0 : ℝ
  intensity1 : ℝ
  gamma : ℝ
  sat0 : Option ℝ
  sat1 : Option ℝ
  start : Option ℝ
  rot : Option ℝ
  nlevels : ℕ

/-- _cm_cubehelix.py:89-90 -/
def Args.startHue (p : Args) : ℝ := p.start.getD (1 + p.hue0 / 120)
/-- _cm_cubehelix.py:91-92 -/
def Args.rotHue (p : Args) : ℝ := p.rot.getD ((1 + p.hue1 / 120) - p.startHue)

/-- _cm_cubehelix.py:95 -/
def lam (p : Args) (k : ℕ) : ℝ := linspace p.intensity0 p.intensity1 p.nlevels k
/-- _cm_cubehelix.py:96 -/
def lgam (p : Args) (k : ℕ) : ℝ := lam p k ^ p.gamma
/-- _cm_cubehelix.py:82-85 and 97 -/
def ssat (p : Args) (k : ℕ) : ℝ := linspace (p.sat0.getD p.sat) (p.sat1.getD p.sat) p.nlevels k

/-- _cm_cubehelix.py:88 and 100-103 -/
def phi (p : Args) (k : ℕ) : ℝ :=
  if p.start.isSome || p.rot.isSome then 2 * Real.pi * (p.startHue / 3 + 1 + p.rotHue * lam p k)
  else 2 * Real.pi / 3 * linspace p.startHue (p.startHue + p.rotHue) p.nlevels k

/-- _cm_cubehelix.py:104 -/
def amp (p : Args) (k : ℕ) : ℝ := 1 / 2 * ssat p k * lgam p k * (1 - lgam p k)

/-- _cm_cubehelix.py:106-111: red, green and blue before they are limited -/
def raw (p : Args) (k : ℕ) : ℝ × ℝ × ℝ :=
  let c := Real.cos (phi p k)
  let s := Real.sin (phi p k)
  (lgam p k + amp p k * (-0.14861 * c + 1.78277 * s), lgam p k + amp p k * (-0.29227 * c + -0.90649 * s), lgam p k + amp p k * (1.97294 * c + 0 * s))

/-- _cm_cubehelix.py:114-115 -/
def clip (x : ℝ) : ℝ :=
  let x := if x < 0 then 0 else x
  if x > 1 then 1 else x

/-- _cm_cubehelix.py:32-118 `clac_helix_rgba` -/
def helix (p : Args) : List (List ℝ) :=
  (List.range p.nlevels).map fun k => [clip (raw p k).1, clip (raw p k).2.1, clip (raw p k).2.2, 1]

end
end Viscid.Helix
