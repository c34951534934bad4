import Verif.Model.Marble
import Mathlib.Analysis.SpecialFunctions.Trigonometric.Bounds
import Mathlib.Tactic.Linarith
import Mathlib.Tactic.NormNum
/-!
# C260: the picture of Earth on a sphere
-/
namespace Viscid.Spec.Marble

/-- the point of a sphere at a latitude and a longitude -/
noncomputable def geo (r lat lon : ℝ) : ℝ × ℝ × ℝ :=
  (r * (Real.cos lat * Real.cos lon), r * (Real.cos lat * Real.sin lon), r * Real.sin lat)

/-- a map of the world that is as wide as the equator: latitude and longitude of a place in it; the prime meridian is in the middle -/
noncomputable def latitude (v : ℝ) : ℝ := Real.pi * v - Real.pi / 2
noncomputable def longitude (u : ℝ) : ℝ := 2 * Real.pi * u - Real.pi

/-- the square of the distance -/
def dist2 (a b : ℝ × ℝ × ℝ) : ℝ := (a.1 - b.1) ^ 2 + (a.2.1 - b.2.1) ^ 2 + (a.2.2 - b.2.2) ^ 2

/-- the pictures that are there -/
def pictures : List String :=
  ["earth_1k.jpg", "earth_2k.jpg", "earth_4k.jpg", "earth_8k.jpg", "earth_faded_1k.jpg", "earth_faded_2k.jpg", "earth_faded_4k.jpg",
   "earth_faded_8k.jpg", "earth_faded_lines_1k.jpg", "earth_faded_lines_2k.jpg", "earth_faded_lines_4k.jpg", "earth_faded_lines_8k.jpg",
   "earth_lines_1k.jpg", "earth_lines_2k.jpg", "earth_lines_4k.jpg", "earth_lines_8k.jpg"]

/-- which of them is the one asked for -/
def number (faded lines : Bool) (res : Nat) : Nat :=
  (if faded then (if lines then 8 else 4) else if lines then 12 else 0) + (if res = 1 then 0 else if res = 2 then 1 else if res = 4 then 2 else 3)

end Viscid.Spec.Marble

namespace Viscid.Props
open Viscid.Marble Viscid.Spec.Marble

namespace BM

theorem marble_eq (e r u v : ℝ) :
    marble e r u v = (-(r * Real.sin (r * Real.pi * (1 - v) - e * (1 - 2 * v)) * Real.cos (2 * Real.pi * (r * u))),
      -(r * Real.sin (r * Real.pi * (1 - v) - e * (1 - 2 * v)) * Real.sin (2 * Real.pi * (r * u))),
      r * Real.cos (r * Real.pi * (1 - v) - e * (1 - 2 * v))) := by
  simp only [marble, turned, spherical, sheet, plane]
  have h1 : r + u * (r - r) + v * (r - r) = r := by ring
  have h2 : r * Real.pi - e + u * (r * Real.pi - e - (r * Real.pi - e)) + v * (e - (r * Real.pi - e)) = r * Real.pi * (1 - v) - e * (1 - 2 * v) := by ring
  have h3 : r * 0 + u * (r * 2 * Real.pi - r * 0) + v * (0 - r * 0) = 2 * Real.pi * (r * u) := by ring
  rw [h1, h2, h3]

theorem geo_eq (u v : ℝ) :
    geo 1 (latitude v) (longitude u) = (-(Real.sin (Real.pi * (1 - v)) * Real.cos (2 * Real.pi * u)),
      -(Real.sin (Real.pi * (1 - v)) * Real.sin (2 * Real.pi * u)), Real.cos (Real.pi * (1 - v))) := by
  have e1 : Real.pi * (1 - v) = Real.pi - Real.pi * v := by ring
  simp only [geo, latitude, longitude, one_mul, Real.cos_sub_pi, Real.sin_sub_pi, Real.cos_sub_pi_div_two, Real.sin_sub_pi_div_two, e1,
    Real.sin_pi_sub, Real.cos_pi_sub, mul_neg]

end BM
open BM

/-- **C260, sphere.** Every place of the picture is on the sphere. -/
theorem C260_sphere (e r u v : ℝ) : dist2 (marble e r u v) (0, 0, 0) = r ^ 2 := by
  rw [marble_eq]
  simp only [dist2]
  generalize r * Real.pi * (1 - v) - e * (1 - 2 * v) = a
  generalize 2 * Real.pi * (r * u) = b
  have : (-(r * Real.sin a * Real.cos b) - 0) ^ 2 + (-(r * Real.sin a * Real.sin b) - 0) ^ 2 + (r * Real.cos a - 0) ^ 2 =
      r ^ 2 * (Real.sin a ^ 2 * (Real.sin b ^ 2 + Real.cos b ^ 2) + Real.cos a ^ 2) := by ring
  rw [this, Real.sin_sq_add_cos_sq b, mul_one, Real.sin_sq_add_cos_sq a, mul_one]

/-- **C260, place.** On the sphere of radius one, every place of the picture is where it is on Earth, up to a distance of one
    in ten thousand. -/
theorem C260_place_partial (u v : ℝ) (h0 : 0 ≤ v) (h1 : v ≤ 1) :
    dist2 (marble eps 1 u v) (geo 1 (latitude v) (longitude u)) ≤ (1 / 10 ^ 4) ^ 2 := by
  rw [marble_eq, geo_eq]
  simp only [dist2, one_mul]
  generalize ha : Real.pi * (1 - v) = a
  generalize 2 * Real.pi * u = b
  generalize hd : eps * (1 - 2 * v) = d
  have e : (-(Real.sin (a - d) * Real.cos b) - -(Real.sin a * Real.cos b)) ^ 2 + (-(Real.sin (a - d) * Real.sin b) - -(Real.sin a * Real.sin b)) ^ 2 +
      (Real.cos (a - d) - Real.cos a) ^ 2 = 2 - 2 * Real.cos d := by
    have hc : Real.cos d = Real.cos (a - d) * Real.cos a + Real.sin (a - d) * Real.sin a := by
      rw [← Real.cos_sub, ← Real.cos_neg]; congr 1; ring
    rw [hc]
    have p1 := Real.sin_sq_add_cos_sq b
    have p2 := Real.sin_sq_add_cos_sq a
    have p3 := Real.sin_sq_add_cos_sq (a - d)
    have : (-(Real.sin (a - d) * Real.cos b) - -(Real.sin a * Real.cos b)) ^ 2 + (-(Real.sin (a - d) * Real.sin b) - -(Real.sin a * Real.sin b)) ^ 2
        = (Real.sin (a - d) - Real.sin a) ^ 2 * (Real.sin b ^ 2 + Real.cos b ^ 2) := by ring
    rw [this, p1]
    linarith
  rw [e]
  have hcos := Real.one_sub_sq_div_two_le_cos (x := d)
  have hd2 : d ^ 2 ≤ (1 / 10 ^ 4) ^ 2 := by
    rw [← hd]
    unfold eps
    have : (1 - 2 * v) ^ 2 ≤ 1 := by nlinarith
    nlinarith
  linarith

example : (0 : ℝ) ≤ 1 / 3 ∧ (1 / 3 : ℝ) ≤ 1 := by norm_num

/-- **C260 fails** for all radii that are no whole numbers: the left and right edges of the picture, which are one meridian, are
    apart (except at places where the sheet meets the axis). -/
theorem C260_radius_violated (r v : ℝ) (hr : ∀ n : ℤ, (n : ℝ) ≠ r) (hv : Real.sin (r * Real.pi * (1 - v) - eps * (1 - 2 * v)) ≠ 0) :
    marble eps r 0 v ≠ marble eps r 1 v ∧ geo r (latitude v) (longitude 0) = geo r (latitude v) (longitude 1) := by
  constructor
  · intro h
    rw [marble_eq, marble_eq] at h
    have h0 := congrArg Prod.fst h
    simp only [mul_zero, Real.cos_zero, mul_one, neg_inj] at h0
    have hr0 : r ≠ 0 := fun e => hr 0 (by simp [e])
    have hne := mul_ne_zero hr0 hv
    have hc : Real.cos (2 * Real.pi * r) = 1 := (mul_left_cancel₀ hne (by rw [mul_one]; exact h0)).symm
    obtain ⟨n, hn⟩ := (Real.cos_eq_one_iff _).1 hc
    refine hr n ?_
    have hp : (2 * Real.pi) ≠ 0 := by positivity
    have : 2 * Real.pi * (n : ℝ) = 2 * Real.pi * r := by rw [← hn]; ring
    exact mul_left_cancel₀ hp this
  · simp only [geo, longitude, mul_zero, zero_sub, mul_one, Real.cos_neg, Real.sin_neg, Real.sin_pi, Real.cos_pi]
    have : 2 * Real.pi - Real.pi = Real.pi := by ring
    rw [this]
    simp

/-- A radius and a place that meet the conditions: half the radius, at the lower edge. -/
example : (∀ n : ℤ, (n : ℝ) ≠ 1 / 2) ∧ Real.sin (1 / 2 * Real.pi * (1 - 0) - eps * (1 - 2 * 0)) ≠ 0 := by
  constructor
  · intro n h
    have h2 : ((2 * n : ℤ) : ℝ) = ((1 : ℤ) : ℝ) := by push_cast; linarith
    have := Int.cast_injective h2
    omega
  · have e : (1 / 2 * Real.pi * (1 - 0) - eps * (1 - 2 * 0) : ℝ) = Real.pi / 2 - eps := by ring
    rw [e, Real.sin_pi_div_two_sub]
    have := Real.one_sub_sq_div_two_le_cos (x := eps)
    have he : eps ^ 2 / 2 < 1 := by unfold eps; norm_num
    linarith

/-- **C260 fails** for twice the radius, too: the South Pole, at the lower edge of the picture, is at the top. -/
theorem C260_pole_violated (u : ℝ) : (marble eps 2 u 0).2.2 > 19 / 10 ∧ (geo 2 (latitude 0) (longitude u)).2.2 = -2 := by
  constructor
  · rw [marble_eq]
    simp only
    have e : (2 * Real.pi * (1 - 0) - eps * (1 - 2 * 0) : ℝ) = 2 * Real.pi - eps := by ring
    rw [e, Real.cos_two_pi_sub]
    have := Real.one_sub_sq_div_two_le_cos (x := eps)
    have he : eps ^ 2 / 2 < 1 / 100 := by unfold eps; norm_num
    linarith
  · simp [geo, latitude, Real.sin_neg]

/-- **C260, pictures.** Every style, with or without lines, in each of the four resolutions, has its own picture, which is there;
    anything else raises AssertionError. -/
theorem C260_pictures (style : Option String) (lines : Bool) (res : Nat) :
    (∀ s, imgName style lines res = .ok s → ∃ p, pictures[number (style == some "faded") lines res]? = some p ∧ s = "images/" ++ p) ∧
    ((style = none ∨ style = some "" ∨ style = some "faded") ∧ (res = 1 ∨ res = 2 ∨ res = 4 ∨ res = 8) → ∃ s, imgName style lines res = .ok s) ∧
    (¬ ((style = none ∨ style = some "" ∨ style = some "faded") ∧ (res = 1 ∨ res = 2 ∨ res = 4 ∨ res = 8)) →
      imgName style lines res = .error .assertion) := by
  by_cases hs : style = none ∨ style = some "" ∨ style = some "faded"
  · by_cases hr : res = 1 ∨ res = 2 ∨ res = 4 ∨ res = 8
    · refine ⟨?_, fun _ => ?_, fun h => absurd ⟨hs, hr⟩ h⟩
      · rcases hs with rfl | rfl | rfl <;> rcases hr with rfl | rfl | rfl | rfl <;> cases lines <;>
          (intro s h; simp [imgName] at h; subst h; exact ⟨_, rfl, by decide +kernel⟩)
      · simp only [imgName, hs, hr, not_true_eq_false, if_false]
        exact ⟨_, rfl⟩
    · refine ⟨?_, fun h => absurd h.2 hr, fun _ => ?_⟩ <;> simp [imgName, hs, hr]
  · refine ⟨?_, fun h => absurd h.1 hs, fun _ => ?_⟩ <;> simp [imgName, hs]

/-- **C260, time.** Earth is turned by the angle and axis of a transformation, or of the one at a time. -/
theorem C260_rotation (a x y z : ℝ) :
    applyRotation (.hasRotation [a, x, y, z]) = .ok [a, x, y, z] ∧ applyRotation (.cotr [a, x, y, z]) = .ok [a, x, y, z] := ⟨rfl, rfl⟩

/-- **C260 fails** for an angle and an axis that are given: TypeError. -/
theorem C260_rotation_violated (a x y z : ℝ) : applyRotation (.numbers [a, x, y, z]) = .error .type := rfl

end Viscid.Props
