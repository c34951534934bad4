import Verif.Model.Jrrle
import Mathlib.Analysis.SpecialFunctions.Log.Basic
/-!
# Quantisation of JRRLE data (`viscid/readers/_jrrle.f90` wrn2, rdn2), over the reals

Single precision rounding and the formatting of z1, z2 with 7 digits in the header are not modelled.
-/
namespace Viscid.Jrrle
open Real

/-- _jrrle.f90:634-641: `zmin`, `zmax` after the loop over the data. -/
noncomputable def absRange (a : List ℝ) : ℝ × ℝ :=
  (a.foldl (fun z x => min z |x|) ((10 : ℝ) ^ (33 : ℕ)), a.foldl (fun z x => max z |x|) (1 / (10 : ℝ) ^ (33 : ℕ)))

/-- _jrrle.f90:634-654: the logarithmic range (z1, z2) written to the header. -/
noncomputable def zRange (a : List ℝ) : ℝ × ℝ :=
  let zmin := max (1 / (10 : ℝ) ^ (33 : ℕ)) (absRange a).1
  let zmax := min ((10 : ℝ) ^ (33 : ℕ)) (absRange a).2
  let z2 := log zmax
  let z1 := if zmin ≠ 0 then log zmin else -76
  let z1 := max z1 (z2 - 37)
  if |z2 - z1| ≤ 1 / 100000 then (z1 - 1, z2 + 1) else (z1, z2)

/-- Fortran `INT`: truncation towards zero. -/
noncomputable def INT (x : ℝ) : ℤ := if 0 ≤ x then ⌊x⌋ else ⌈x⌉

/-- _jrrle.f90:659-668: one value to (is negative, index). -/
noncomputable def quant (z1 z2 : ℝ) (x : ℝ) : Bool × ℕ :=
  let z0 := exp z1
  let dz := 4410 / (z2 - z1)
  let a1 := min ((10 : ℝ) ^ (33 : ℕ)) |x|
  let a1 := max z0 a1
  let a1 := dz * (log a1 - z1) + 1 / 2
  let i3 := INT a1
  let i3 := max 0 i3
  let i3 := min 4414 i3
  (decide (x < 0), i3.toNat)

/-- _jrrle.f90:423, 464-469: (is negative, index) to a value. -/
noncomputable def value (zmin zmax : ℝ) (neg : Bool) (i3 : ℤ) : ℝ :=
  let dzi := (zmax - zmin) / 4410
  (if neg then -1 else 1) * exp (dzi * i3 + zmin)

/-- _jrrle.f90:616-678 wrn2: header and data lines for an array. -/
noncomputable def writeArray (a : List ℝ) : Header ℝ × List (List ℕ) :=
  let z := zRange a
  ({ isWrn2 := true, nid := some a.length, zmin := z.1, zmax := z.2 }, wrn2 (a.map (quant z.1 z.2)))

open Classical in
/-- _jrrle.f90:368-489 rdn2: reading into an array of size `n`. -/
noncomputable def readArray (n : ℕ) (f : Header ℝ × List (List ℕ)) : Except Err (List ℝ) :=
  rdn2 f.1 (value f.1.zmin f.1.zmax) n f.2

end Viscid.Jrrle
