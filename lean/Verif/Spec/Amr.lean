import Verif.Model.Amr
/-!
# Specification for AMR patches (C20, C21, C22, C62)
-/
namespace Viscid.Spec.Amr
open Viscid.Amr

/-- Distance of centres and half the summed widths, along axis k. -/
def gap (a b : Patch) (k : Fin 3) : ℚ := |a.xm k - b.xm k| - (a.L k + b.L k) / 2

/-- Along axis k the boxes meet, up to the tolerance (absolute 1e-6 plus relative 1e-5). -/
def Meets (a b : Patch) (k : Fin 3) : Prop :=
  gap a b k ≤ 0 ∨ |gap a b k| ≤ 1 / 1000000 + 1 / 100000 * |(a.L k + b.L k) / 2|

/-- Along axis k a face of one box lies on a face of the other (within 1e-6). -/
def FaceOn (a b : Patch) (k : Fin 3) : Prop := |gap a b k| ≤ 1 / 1000000

/-- The boxes touch: they meet along every axis, and share a face plane along at least one. -/
def Touch (a b : Patch) : Prop := (∀ k, Meets a b k) ∧ ∃ k, FaceOn a b k

/-- `x` lies in the box of patch p, up to the tolerance relative to the box's corner. -/
def Inside (s : Skel) (p : Nat) (x : Vec) : Prop :=
  ∀ k, (s.xl p k ≤ x k ∨ |x k - s.xl p k| ≤ 1 / 1000000 + 1 / 100000 * |s.xl p k|) ∧
    (x k ≤ s.xh p k ∨ |x k - s.xh p k| ≤ 1 / 1000000 + 1 / 100000 * |s.xh p k|)

/-- Squared distance of `x` from the centre of patch p. -/
def dist2 (s : Skel) (p : Nat) (x : Vec) : ℚ := ((List.finRange 3).map fun k => (x k - s.xm p k) ^ 2).sum

end Viscid.Spec.Amr
