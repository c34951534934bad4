import Verif.Model.Earth
import Verif.Spec.Earth
import Mathlib.Analysis.SpecialFunctions.Trigonometric.Basic
/-!
# C240: the earth in plots
-/
namespace Viscid.Props
open Viscid.Earth Viscid.Spec.Earth

/-- radius of a patch -/
def ER.radius : Patch → ℝ
  | .wedge r _ _ _ => r
  | .circle r _ => r

/-- C240: the earth is drawn if the plane cuts the sphere with radius `scale`, and as large as the cut. -/
theorem C240_size (sys : Sys) (plane : Plane) (hp : plane ≠ .other) (value scale rot : ℝ) :
    (plotEarth sys plane value scale rot ≠ [] ↔ |value| < |scale|) ∧
    ∀ p ∈ plotEarth sys plane value scale rot, 0 < ER.radius p ∧ ER.radius p ^ 2 + value ^ 2 = scale ^ 2 := by
  unfold plotEarth
  by_cases h : value ^ 2 ≥ scale ^ 2
  · rw [if_pos h]
    exact ⟨⟨fun h' => absurd rfl h', fun h' => absurd (sq_lt_sq.2 h') (not_lt.2 h)⟩, fun p hp => by simp at hp⟩
  · rw [if_neg h]
    have h' : value ^ 2 < scale ^ 2 := not_le.1 h
    have hr : 0 < Real.sqrt (scale ^ 2 - value ^ 2) := Real.sqrt_pos.2 (by linarith)
    have hs : Real.sqrt (scale ^ 2 - value ^ 2) ^ 2 + value ^ 2 = scale ^ 2 := by rw [Real.sq_sqrt (by linarith)]; ring
    cases plane with
    | other => exact absurd rfl hp
    | y => exact ⟨⟨fun _ => sq_lt_sq.1 h', fun _ => by simp⟩, fun p hp => by
        simp only [List.mem_cons, List.not_mem_nil, or_false] at hp; rcases hp with rfl | rfl <;> exact ⟨hr, hs⟩⟩
    | z => exact ⟨⟨fun _ => sq_lt_sq.1 h', fun _ => by simp⟩, fun p hp => by
        simp only [List.mem_cons, List.not_mem_nil, or_false] at hp; rcases hp with rfl | rfl <;> exact ⟨hr, hs⟩⟩
    | x =>
      refine ⟨⟨fun _ => sq_lt_sq.1 h', fun _ => ?_⟩, fun p hp => ?_⟩
      · dsimp only; split <;> simp
      · dsimp only at hp
        split at hp <;> (simp only [List.mem_singleton] at hp; subst hp; exact ⟨hr, hs⟩)

/-- C240: in planes of constant y or z, with x to the right, the part of the earth that is coloured as day is the one toward the sun.
Missing: planes of constant x, see the following theorems. -/
theorem C240_sides_partial (sys : Sys) (hsys : sys ≠ .other) (plane : Plane) (hp : plane = .y ∨ plane = .z) (value scale : ℝ) (r a b θ : ℝ) (day : Bool)
    (hw : Patch.wedge r a b day ∈ plotEarth sys plane value scale 0) (h1 : a < θ) (h2 : θ < b) :
    (day = true ↔ sunward (decide (sys = .gse)) (r * Real.cos (θ * (Real.pi / 180)))) := by
  have hpi := Real.pi_pos
  unfold plotEarth at hw
  split at hw
  · simp at hw
  · rename_i hv
    have hr : 0 < Real.sqrt (scale ^ 2 - value ^ 2) := Real.sqrt_pos.2 (by linarith [not_le.1 hv])
    have key : ∀ q : ℝ, Patch.wedge r a b day ∈ [Patch.wedge (Real.sqrt (scale ^ 2 - value ^ 2)) (90 + q) (270 + q) true,
        Patch.wedge (Real.sqrt (scale ^ 2 - value ^ 2)) (270 + q) (450 + q) false] →
        (day = true ↔ r * Real.cos ((θ - q) * (Real.pi / 180)) < 0) ∧ (day = false ↔ 0 < r * Real.cos ((θ - q) * (Real.pi / 180))) := by
      intro q hq
      simp only [List.mem_cons, List.not_mem_nil, or_false, Patch.wedge.injEq] at hq
      rcases hq with ⟨rfl, rfl, rfl, rfl⟩ | ⟨rfl, rfl, rfl, rfl⟩
      · have : Real.cos ((θ - q) * (Real.pi / 180)) < 0 := by
          apply Real.cos_neg_of_pi_div_two_lt_of_lt
          · nlinarith
          · nlinarith
        have := mul_neg_of_pos_of_neg hr this
        exact ⟨⟨fun _ => this, fun _ => rfl⟩, ⟨fun h => by simp at h, fun h => absurd h (not_lt.2 this.le)⟩⟩
      · have : 0 < Real.cos ((θ - q) * (Real.pi / 180)) := by
          rw [← Real.cos_sub_two_pi]
          apply Real.cos_pos_of_mem_Ioo
          constructor <;> nlinarith
        have := mul_pos hr this
        exact ⟨⟨fun h => by simp at h, fun h => absurd h (not_lt.2 this.le)⟩, ⟨fun _ => this, fun _ => rfl⟩⟩
    cases sys with
    | other => exact absurd rfl hsys
    | mhd =>
      have hw' : Patch.wedge r a b day ∈ [Patch.wedge (Real.sqrt (scale ^ 2 - value ^ 2)) (90 + 0) (270 + 0) true,
        Patch.wedge (Real.sqrt (scale ^ 2 - value ^ 2)) (270 + 0) (450 + 0) false] := by rcases hp with rfl | rfl <;> exact hw
      have := (key 0 hw').1
      rw [sub_zero] at this
      exact this
    | gse =>
      have hw' : Patch.wedge r a b day ∈ [Patch.wedge (Real.sqrt (scale ^ 2 - value ^ 2)) (90 + 180) (270 + 180) true,
        Patch.wedge (Real.sqrt (scale ^ 2 - value ^ 2)) (270 + 180) (450 + 180) false] := by rcases hp with rfl | rfl <;> exact hw
      have e : Real.cos ((θ - 180) * (Real.pi / 180)) = - Real.cos (θ * (Real.pi / 180)) := by
        rw [show (θ - 180) * (Real.pi / 180) = θ * (Real.pi / 180) - Real.pi by ring, Real.cos_sub_pi]
      have := (key 180 hw').1
      rw [e] at this
      show day = true ↔ 0 < _
      rw [this]
      constructor <;> intro h <;> nlinarith

/-- C240 is violated: in GSE a plane of constant x is coloured as night if it is toward the sun, and as day if it is away from it, whatever its x. -/
theorem C240_x_violated (value scale rot : ℝ) (h : |value| < |scale|) (hne : value ≠ 0) :
    ∃ r day, plotEarth .gse .x value scale rot = [.circle r day] ∧ (day = true ↔ ¬ sunward true value) := by
  have h' : ¬ value ^ 2 ≥ scale ^ 2 := not_le.2 (sq_lt_sq.2 h)
  unfold plotEarth
  rw [if_neg h']
  dsimp only
  by_cases hv : value < 0
  · rw [if_pos hv]
    exact ⟨_, true, rfl, by simp [sunward, hv.le]⟩
  · rw [if_neg hv]
    exact ⟨_, false, rfl, by simp [sunward]; exact lt_of_le_of_ne (not_lt.1 hv) (Ne.symm hne)⟩

/-- C240 is violated: for a field in a plane of constant x the colour is always night, even where the plane is toward the sun. -/
theorem C240_field_violated (sys : Sys) (v scale rot : ℝ) (h : |v| < |scale|) :
    ∃ r, plotEarthField sys .x [v] scale rot = [.circle r false] := by
  have h' : ¬ |v| ^ 2 ≥ scale ^ 2 := by rw [sq_abs]; exact not_le.2 (sq_lt_sq.2 h)
  unfold plotEarthField
  simp only [fieldValue, List.foldl_nil]
  unfold plotEarth
  rw [if_neg h']
  dsimp only
  rw [if_neg (not_lt.2 (abs_nonneg v))]
  exact ⟨_, rfl⟩

/-- C240 is violated: in GSE the rotation that is asked for is ignored. -/
theorem C240_rot_violated (plane : Plane) (value scale rot rot' : ℝ) : plotEarth .gse plane value scale rot = plotEarth .gse plane value scale rot' := rfl

/-- The hypotheses of C240 are met. -/
example : ∃ r, Patch.wedge r (90 + 180) (270 + 180) true ∈ plotEarth .gse .y (1 / 2) 1 0 := by
  refine ⟨Real.sqrt (1 ^ 2 - (1 / 2) ^ 2), ?_⟩
  unfold plotEarth
  rw [if_neg (by norm_num)]
  simp
example : |(-1 / 2 : ℝ)| < |1| := by norm_num [abs_of_neg, abs_of_pos]

end Viscid.Props
