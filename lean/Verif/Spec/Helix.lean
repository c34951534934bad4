import Mathlib.Data.Real.Basic
/-! Perceived intensity -/
namespace Viscid.Spec.Helix

/-- the intensity of a colour as in the paper of Green, 2011: 0.30 R + 0.59 G + 0.11 B -/
noncomputable def intensity (c : List ℝ) : ℝ := 0.30 * c.getD 0 0 + 0.59 * c.getD 1 0 + 0.11 * c.getD 2 0

end Viscid.Spec.Helix
