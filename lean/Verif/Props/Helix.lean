import Verif.Model.Helix
import Verif.Spec.Helix
import Mathlib.Tactic.Linarith
import Mathlib.Tactic.NormNum
import Mathlib.Tactic.Positivity
/-!
# C246: colour maps of the cubehelix
-/
namespace Viscid.Props
open Viscid.Helix Viscid.Spec.Helix

namespace HX

theorem clip_bounds (x : ℝ) : 0 ≤ clip x ∧ clip x ≤ 1 := by
  unfold clip
  by_cases h : x < 0
  · simp only [if_pos h]
    rw [if_neg (by norm_num)]
    norm_num
  · simp only [if_neg h]
    split
    · norm_num
    · constructor <;> linarith

theorem clip_id (x : ℝ) (h0 : 0 ≤ x) (h1 : x ≤ 1) : clip x = x := by
  unfold clip
  have : ¬ x < 0 := by linarith
  simp only [if_neg this]
  rw [if_neg (by linarith)]

theorem linspace_mem (a b : ℝ) (n k : ℕ) (hk : k < n) (lo hi : ℝ) (ha : lo ≤ a ∧ a ≤ hi) (hb : lo ≤ b ∧ b ≤ hi) : lo ≤ linspace a b n k ∧ linspace a b n k ≤ hi := by
  unfold linspace
  split
  · exact ha
  · have hn : (0 : ℝ) < ((n - 1 : ℕ) : ℝ) := by exact_mod_cast (by omega : 0 < n - 1)
    have h1 : (k : ℝ) / ((n - 1 : ℕ) : ℝ) ≤ 1 := by
      rw [div_le_one hn]
      exact_mod_cast (by omega : k ≤ n - 1)
    have h0 : 0 ≤ (k : ℝ) / ((n - 1 : ℕ) : ℝ) := by positivity
    generalize (k : ℝ) / ((n - 1 : ℕ) : ℝ) = t at h0 h1
    constructor
    · nlinarith [ha.1, hb.1]
    · nlinarith [ha.2, hb.2]

theorem combo (a b c s : ℝ) (hc : |c| ≤ 1) (hs : |s| ≤ 1) : |a * c + b * s| ≤ |a| + |b| := by
  calc |a * c + b * s| ≤ |a * c| + |b * s| := abs_add_le _ _
    _ = |a| * |c| + |b| * |s| := by rw [abs_mul, abs_mul]
    _ ≤ |a| * 1 + |b| * 1 := add_le_add (mul_le_mul_of_nonneg_left hc (abs_nonneg _)) (mul_le_mul_of_nonneg_left hs (abs_nonneg _))
    _ = |a| + |b| := by ring

/-- with a saturation up to one no colour is out of range -/
theorem inside (l s e : ℝ) (h0 : 0 ≤ l) (h1 : l ≤ 1) (hs : |s| ≤ 1) (he : |e| ≤ 2) :
    0 ≤ l + 1 / 2 * s * l * (1 - l) * e ∧ l + 1 / 2 * s * l * (1 - l) * e ≤ 1 := by
  have hse : |s * e| ≤ 2 := by
    rw [abs_mul]
    calc |s| * |e| ≤ 1 * 2 := mul_le_mul hs he (abs_nonneg _) (by norm_num)
      _ = 2 := by norm_num
  obtain ⟨hl, hr⟩ := abs_le.1 hse
  have hp : 0 ≤ l * (1 - l) := mul_nonneg h0 (by linarith)
  have e1 : 1 / 2 * s * l * (1 - l) * e = l * (1 - l) * (s * e) / 2 := by ring
  rw [e1]
  constructor
  · nlinarith
  · nlinarith

end HX

/-- C246: there are as many colours as asked for, opaque, and within the range of colours; whatever the arguments. -/
theorem C246_range (p : Args) : (helix p).length = p.nlevels ∧ ∀ c ∈ helix p, c.length = 4 ∧ c[3]? = some 1 ∧ ∀ x ∈ c, 0 ≤ x ∧ x ≤ 1 := by
  refine ⟨by simp [helix], fun c hc => ?_⟩
  obtain ⟨k, -, rfl⟩ := List.mem_map.1 hc
  refine ⟨rfl, rfl, fun x hx => ?_⟩
  simp only [List.mem_cons, List.not_mem_nil, or_false] at hx
  rcases hx with rfl | rfl | rfl | rfl
  · exact HX.clip_bounds _
  · exact HX.clip_bounds _
  · exact HX.clip_bounds _
  · norm_num

/-- C246: for intensities and saturations between 0 and 1 the intensity of a colour is that asked for at its place, to the power of gamma, within less than
a millionth, whatever the hues. -/
theorem C246_intensity (p : Args) (hg : 0 < p.gamma) (h0 : 0 ≤ p.intensity0 ∧ p.intensity0 ≤ 1) (h1 : 0 ≤ p.intensity1 ∧ p.intensity1 ≤ 1)
    (s0 : |p.sat0.getD p.sat| ≤ 1) (s1 : |p.sat1.getD p.sat| ≤ 1) (k : ℕ) (hk : k < p.nlevels) :
    ∃ c, (helix p)[k]? = some c ∧ |intensity c - (if p.nlevels = 1 then p.intensity0 else p.intensity0 + (p.intensity1 - p.intensity0) * (k / (p.nlevels - 1))) ^ p.gamma| ≤ 1 / 2000000 := by
  have hlam : lam p k = if p.nlevels = 1 then p.intensity0 else p.intensity0 + (p.intensity1 - p.intensity0) * (k / (p.nlevels - 1)) := by
    unfold lam linspace
    by_cases h : p.nlevels = 1
    · rw [if_pos (by omega), if_pos h]
    · rw [if_neg (by omega), if_neg h, Nat.cast_sub (by omega), Nat.cast_one]
  refine ⟨_, by unfold helix; rw [List.getElem?_map, List.getElem?_range hk, Option.map_some], ?_⟩
  rw [← hlam]
  have hl := HX.linspace_mem p.intensity0 p.intensity1 p.nlevels k hk 0 1 h0 h1
  have hl0 : 0 ≤ lgam p k := Real.rpow_nonneg hl.1 _
  have hl1 : lgam p k ≤ 1 := Real.rpow_le_one hl.1 hl.2 hg.le
  have hs : |ssat p k| ≤ 1 := by
    rw [abs_le] at s0 s1 ⊢
    exact HX.linspace_mem _ _ _ _ hk (-1) 1 s0 s1
  have hc : |Real.cos (phi p k)| ≤ 1 := Real.abs_cos_le_one _
  have hsn : |Real.sin (phi p k)| ≤ 1 := Real.abs_sin_le_one _
  have e1 := HX.combo (-0.14861) 1.78277 _ _ hc hsn
  have e2 := HX.combo (-0.29227) (-0.90649) _ _ hc hsn
  have e3 := HX.combo 1.97294 0 _ _ hc hsn
  norm_num [abs_of_pos, abs_of_neg] at e1 e2 e3
  have r1 := HX.inside (lgam p k) (ssat p k) (-0.14861 * Real.cos (phi p k) + 1.78277 * Real.sin (phi p k)) hl0 hl1 hs (by norm_num at e1 ⊢; linarith)
  have r2 := HX.inside (lgam p k) (ssat p k) (-0.29227 * Real.cos (phi p k) + -0.90649 * Real.sin (phi p k)) hl0 hl1 hs (by norm_num at e2 ⊢; linarith)
  have r3 := HX.inside (lgam p k) (ssat p k) (1.97294 * Real.cos (phi p k) + 0 * Real.sin (phi p k)) hl0 hl1 hs (by norm_num at e3 ⊢; linarith)
  have q1 := HX.clip_id _ r1.1 r1.2
  have q2 := HX.clip_id _ r2.1 r2.2
  have q3 := HX.clip_id _ r3.1 r3.2
  unfold intensity
  simp only [List.getD_cons_zero, List.getD_cons_succ, raw, amp, q1, q2, q3]
  change |_ - lgam p k| ≤ _
  have hp : 0 ≤ lgam p k * (1 - lgam p k) := mul_nonneg hl0 (by linarith)
  have hq : lgam p k * (1 - lgam p k) ≤ 1 / 4 := by nlinarith [sq_nonneg (lgam p k - 1 / 2)]
  generalize lgam p k = l at *
  generalize ssat p k = s at *
  generalize Real.cos (phi p k) = c at *
  generalize Real.sin (phi p k) = d at *
  have hsm := HX.combo (0.0000011 : ℝ) 0.0000019 c d hc hsn
  have e : 0.30 * (l + 1 / 2 * s * l * (1 - l) * (-0.14861 * c + 1.78277 * d)) + 0.59 * (l + 1 / 2 * s * l * (1 - l) * (-0.29227 * c + -0.90649 * d)) +
      0.11 * (l + 1 / 2 * s * l * (1 - l) * (1.97294 * c + 0 * d)) - l = 1 / 2 * (l * (1 - l)) * (s * (0.0000011 * c + 0.0000019 * d)) := by ring
  rw [e, abs_mul, abs_mul s]
  have h2 : |1 / 2 * (l * (1 - l))| ≤ 1 / 8 := by
    rw [abs_of_nonneg (by linarith)]; linarith
  have h3 : |s| * |0.0000011 * c + 0.0000019 * d| ≤ 1 * (3 / 1000000) := by
    apply mul_le_mul hs _ (abs_nonneg _) (by norm_num)
    refine le_trans hsm ?_
    rw [abs_of_pos (by norm_num), abs_of_pos (by norm_num)]; norm_num
  calc |1 / 2 * (l * (1 - l))| * (|s| * |0.0000011 * c + 0.0000019 * d|) ≤ 1 / 8 * (1 * (3 / 1000000)) :=
        mul_le_mul h2 h3 (mul_nonneg (abs_nonneg _) (abs_nonneg _)) (by norm_num)
    _ ≤ 1 / 2000000 := by norm_num

/-- C246: hence the intensity grows along the map where that asked for does, by more than a millionth. -/
theorem C246_increasing (p : Args) (hg : 0 < p.gamma) (h0 : 0 ≤ p.intensity0 ∧ p.intensity0 ≤ 1) (h1 : 0 ≤ p.intensity1 ∧ p.intensity1 ≤ 1)
    (s0 : |p.sat0.getD p.sat| ≤ 1) (s1 : |p.sat1.getD p.sat| ≤ 1) (k j : ℕ) (hk : k < p.nlevels) (hj : j < p.nlevels)
    (h : (p.intensity0 + (p.intensity1 - p.intensity0) * (k / (p.nlevels - 1))) ^ p.gamma + 1 / 1000000 < (p.intensity0 + (p.intensity1 - p.intensity0) * (j / (p.nlevels - 1))) ^ p.gamma)
    (hn : p.nlevels ≠ 1) :
    ∃ c d, (helix p)[k]? = some c ∧ (helix p)[j]? = some d ∧ intensity c < intensity d := by
  obtain ⟨c, hc, ec⟩ := C246_intensity p hg h0 h1 s0 s1 k hk
  obtain ⟨d, hd, ed⟩ := C246_intensity p hg h0 h1 s0 s1 j hj
  rw [if_neg hn] at ec ed
  refine ⟨c, d, hc, hd, ?_⟩
  have := abs_le.1 ec
  have := abs_le.1 ed
  linarith

/-- C246: from no to full intensity the map begins with black and ends with white, whatever else is asked for. -/
theorem C246_black_white (p : Args) (hg : p.gamma ≠ 0) (h0 : p.intensity0 = 0) (h1 : p.intensity1 = 1) (hn : 2 ≤ p.nlevels) :
    (helix p)[0]? = some [0, 0, 0, 1] ∧ (helix p)[p.nlevels - 1]? = some [1, 1, 1, 1] := by
  have hn' : ¬ p.nlevels ≤ 1 := by omega
  have z : lgam p 0 = 0 := by
    unfold lgam lam linspace
    rw [if_neg hn', h0, h1]
    simp [Real.zero_rpow hg]
  have o : lgam p (p.nlevels - 1) = 1 := by
    unfold lgam lam linspace
    have : ((p.nlevels - 1 : ℕ) : ℝ) ≠ 0 := by exact_mod_cast (by omega : p.nlevels - 1 ≠ 0)
    rw [if_neg hn', h0, h1, div_self this]
    simp
  constructor
  · unfold helix
    rw [List.getElem?_map, List.getElem?_range (by omega), Option.map_some]
    simp only [raw, amp, z]
    norm_num [clip]
  · unfold helix
    rw [List.getElem?_map, List.getElem?_range (by omega), Option.map_some]
    simp only [raw, amp, o]
    norm_num [clip]

/-- C246: with hues in degrees the helix begins at the first and ends at the second (its angle is 120 degrees for red at hue 0). -/
theorem C246_hues (p : Args) (hs : p.start = none) (hr : p.rot = none) (hn : 2 ≤ p.nlevels) :
    phi p 0 = (p.hue0 + 120) * (Real.pi / 180) ∧ phi p (p.nlevels - 1) = (p.hue1 + 120) * (Real.pi / 180) := by
  have hn' : ¬ p.nlevels ≤ 1 := by omega
  have : ((p.nlevels - 1 : ℕ) : ℝ) ≠ 0 := by exact_mod_cast (by omega : p.nlevels - 1 ≠ 0)
  unfold phi linspace Args.rotHue Args.startHue
  simp only [hs, hr, Option.isSome_none, Bool.or_self, Bool.false_eq_true, if_false, if_neg hn', Option.getD_none, div_self this]
  constructor
  · norm_num; ring
  · ring

/-- C246 is violated: a rotation in hues, with the convention of `start` that 3 is once around, turns the helix by three times as much, for the whole range of intensities. -/
theorem C246_rot_violated (p : Args) (s r : ℝ) (hs : p.start = some s) (hr : p.rot = some r) (h0 : p.intensity0 = 0) (h1 : p.intensity1 = 1) (hn : 2 ≤ p.nlevels) (hne : r ≠ 0) :
    phi p (p.nlevels - 1) - phi p 0 = 3 * (2 * Real.pi / 3 * r) ∧ phi p (p.nlevels - 1) - phi p 0 ≠ 2 * Real.pi / 3 * r := by
  have hn' : ¬ p.nlevels ≤ 1 := by omega
  have : ((p.nlevels - 1 : ℕ) : ℝ) ≠ 0 := by exact_mod_cast (by omega : p.nlevels - 1 ≠ 0)
  have e : phi p (p.nlevels - 1) - phi p 0 = 3 * (2 * Real.pi / 3 * r) := by
    unfold phi Args.rotHue Args.startHue lam linspace
    simp only [hs, hr, Option.isSome_some, Bool.or_self, if_true, if_neg hn', Option.getD_some, div_self this, h0, h1]
    norm_num; ring
  refine ⟨e, ?_⟩
  rw [e]
  have hpi := Real.pi_pos
  intro h
  have : Real.pi * r = 0 := by linarith
  rcases mul_eq_zero.1 this with h | h
  · exact absurd h hpi.ne'
  · exact hne h

/-- C246 is violated: with `rot` given and colours that do not begin with black, the helix does not begin at `start`, unless it has turned whole times by then. -/
theorem C246_start_violated (p : Args) (s r : ℝ) (hs : p.start = some s) (hr : p.rot = some r) (hn : 2 ≤ p.nlevels) :
    (∃ m : ℤ, phi p 0 = 2 * Real.pi / 3 * s + m * (2 * Real.pi)) ↔ ∃ m : ℤ, r * p.intensity0 = m := by
  have hn' : ¬ p.nlevels ≤ 1 := by omega
  have hpi := Real.pi_pos
  have e : phi p 0 = 2 * Real.pi * (s / 3 + 1 + r * p.intensity0) := by
    unfold phi Args.rotHue Args.startHue lam linspace
    simp [hs, hr, hn']
  rw [e]
  constructor
  · rintro ⟨m, h⟩
    refine ⟨m - 1, ?_⟩
    push_cast
    have : Real.pi * (r * p.intensity0 - (m - 1)) = 0 := by linarith
    rcases mul_eq_zero.1 this with h | h
    · exact absurd h hpi.ne'
    · linarith
  · rintro ⟨m, h⟩
    refine ⟨m + 1, ?_⟩
    rw [h]
    push_cast
    ring

/-- The hypotheses of C246 are met by the defaults of the arguments. -/
example : ∃ p : Args, p = ⟨420, 150, 0.8, 0.15, 0.85, 1, none, none, none, none, 256⟩ ∧ 0 < p.gamma ∧ (0 ≤ p.intensity0 ∧ p.intensity0 ≤ 1) ∧ (0 ≤ p.intensity1 ∧ p.intensity1 ≤ 1) ∧
    |p.sat0.getD p.sat| ≤ 1 ∧ |p.sat1.getD p.sat| ≤ 1 := by
  refine ⟨_, rfl, ?_⟩
  norm_num [abs_of_pos]

end Viscid.Props
