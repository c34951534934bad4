import Verif.Model.SphCart
import Verif.Props.Cotr
import Verif.Lemmas.Euler
import Mathlib.Analysis.Real.Pi.Bounds
/-!
# C49, C74: conversions between Cartesian, spherical and latitude-longitude coordinates
-/
namespace Viscid.Props
open Viscid.Rotation Viscid.SphCart Viscid.Euler

theorem sph_value (a : V3) (ha : len a ≠ 0) :
    len a * Real.cos (Real.arccos (a 2 / len a)) = a 2 ∧
    len a * Real.sin (Real.arccos (a 2 / len a)) = √(a 0 ^ 2 + a 1 ^ 2) := by
  have hl := len_sq a
  have hp : 0 < len a := lt_of_le_of_ne (len_nonneg a) (Ne.symm ha)
  have hz : |a 2| ≤ len a := by
    apply abs_le_of_sq_le_sq _ hp.le
    nlinarith [sq_nonneg (a 0), sq_nonneg (a 1)]
  obtain ⟨z1, z2⟩ := abs_le.1 hz
  have b1 : -1 ≤ a 2 / len a := by rw [le_div_iff₀ hp]; linarith
  have b2 : a 2 / len a ≤ 1 := by rw [div_le_one hp]; exact z2
  constructor
  · rw [Real.cos_arccos b1 b2]; field_simp
  · rw [Real.sin_arccos]
    have : √(1 - (a 2 / len a) ^ 2) = √(a 0 ^ 2 + a 1 ^ 2) / len a := by
      rw [← Real.sqrt_sq hp.le, ← Real.sqrt_div' _ (sq_nonneg _), Real.sqrt_sq hp.le]
      congr 1
      field_simp
      linarith
    rw [this]; field_simp

/-- **C49, radians.** Back and forth from a point other than the origin. -/
theorem C49_cart_sph_cart (a : V3) (ha : a ≠ 0) :
    ∃ s, cart2sph .float false a = .ok s ∧ sph2cart .float false s = .ok a := by
  have hl : len a ≠ 0 := by
    intro h
    obtain ⟨h0, h1, h2⟩ := eq_zero_of_len h
    exact ha (ext3 h0 h1 h2)
  obtain ⟨c, s⟩ := sph_value a hl
  obtain ⟨p1, p2⟩ := arctan2_polar (a 1) (a 0)
  refine ⟨![len a, Real.arccos (a 2 / len a), arctan2 (a 1) (a 0)], by simp [cart2sph, store, len], ?_⟩
  simp only [sph2cart, store]
  rw [if_neg (by simp)]
  congr 1
  apply ext3
  · show len a * Real.sin (Real.arccos (a 2 / len a)) * Real.cos (arctan2 (a 1) (a 0)) = a 0
    rw [s, p1]
  · show len a * Real.sin (Real.arccos (a 2 / len a)) * Real.sin (arctan2 (a 1) (a 0)) = a 1
    rw [s, p2]
  · exact c

/-- **C49, radians.** Forth and back from spherical coordinates. -/
theorem C49_sph_cart_sph (r θ φ : ℝ) (hr : 0 < r) (h0 : 0 < θ) (h1 : θ < Real.pi) (p0 : -Real.pi < φ)
    (p1 : φ ≤ Real.pi) :
    ∃ a, sph2cart .float false ![r, θ, φ] = .ok a ∧ cart2sph .float false a = .ok ![r, θ, φ] := by
  refine ⟨![r * Real.sin θ * Real.cos φ, r * Real.sin θ * Real.sin φ, r * Real.cos θ],
    by simp [sph2cart, store], ?_⟩
  have hs : 0 < Real.sin θ := Real.sin_pos_of_pos_of_lt_pi h0 h1
  have hlen : √((r * Real.sin θ * Real.cos φ) ^ 2 + (r * Real.sin θ * Real.sin φ) ^ 2 + (r * Real.cos θ) ^ 2) = r := by
    rw [show (r * Real.sin θ * Real.cos φ) ^ 2 + (r * Real.sin θ * Real.sin φ) ^ 2 + (r * Real.cos θ) ^ 2 = r ^ 2 by
      have a1 := Real.sin_sq_add_cos_sq θ
      have a2 := Real.sin_sq_add_cos_sq φ
      linear_combination r ^ 2 * a1 + (r * Real.sin θ) ^ 2 * a2]
    exact Real.sqrt_sq hr.le
  simp only [cart2sph, store]
  rw [if_neg (by simp)]
  congr 1
  apply ext3
  · exact hlen
  · show Real.arccos (r * Real.cos θ / √((r * Real.sin θ * Real.cos φ) ^ 2 + (r * Real.sin θ * Real.sin φ) ^ 2 + (r * Real.cos θ) ^ 2)) = θ
    rw [hlen, show r * Real.cos θ / r = Real.cos θ by field_simp]
    exact Real.arccos_cos h0.le h1.le
  · show arctan2 (r * Real.sin θ * Real.sin φ) (r * Real.sin θ * Real.cos φ) = φ
    rw [arctan2_scale (mul_pos hr hs), arctan2_sin_cos p0 p1]

example : (0:ℝ) < 1 ∧ 1 < Real.pi ∧ -Real.pi < 2 ∧ 2 ≤ Real.pi := by
  have := Real.pi_gt_three
  refine ⟨by norm_num, by linarith, by linarith, by linarith⟩

/-- **C49, degrees.** `sph2cart` does what is said for degrees. -/
theorem C49_sph2cart_deg (r θ φ : ℝ) :
    sph2cart .float true ![r, θ, φ] = sph2cart .float false ![r, θ * (Real.pi / 180), φ * (Real.pi / 180)] := by
  simp [sph2cart]

/-- **C49, degrees: fails.** `cart2sph(p, deg=True)` is in radians for every point, so the two are not inverse:
    for the point (1, 0, 0). -/
theorem C49_degrees_violated :
    (∀ a, cart2sph .float true a = cart2sph .float false a) ∧
    ∃ s, cart2sph .float true ex = .ok s ∧ sph2cart .float true s ≠ .ok ex := by
  refine ⟨fun a => by simp [cart2sph], ![1, Real.pi / 2, 0], ?_, ?_⟩
  · have e0 : ex 0 = 1 := rfl
    have e1 : ex 1 = 0 := rfl
    have e2 : ex 2 = 0 := rfl
    simp [cart2sph, store, e0, e1, e2, arctan2]
    exact Complex.arg_one
  · intro h
    rw [C49_sph2cart_deg] at h
    simp only [sph2cart, store] at h
    rw [if_neg (by simp)] at h
    rw [Except.ok.injEq] at h
    have h2 := congrFun h 2
    have h2 : 1 * Real.cos (Real.pi / 2 * (Real.pi / 180)) = 0 := h2
    have hpi := Real.pi_gt_three
    have hpi4 := Real.pi_le_four
    have : 0 < Real.cos (Real.pi / 2 * (Real.pi / 180)) := by
      apply Real.cos_pos_of_mem_Ioo
      constructor <;> nlinarith
    linarith

/-- **C49, latitudes and longitudes, radians.** Inverse for longitudes in (-2pi, 0]. -/
theorem C49_latlon_partial (r lat lon : ℝ) (hr : 0 < r) (h0 : -(Real.pi / 2) < lat) (h1 : lat < Real.pi / 2)
    (p0 : -(2 * Real.pi) < lon) (p1 : lon ≤ 0) :
    ∃ a, latlon2cart false r lat lon = .ok a ∧ cart2latlon false a = .ok (lat, lon) := by
  obtain ⟨a, ha, hb⟩ := C49_sph_cart_sph r (Real.pi / 2 - lat) (lon + Real.pi) hr (by linarith) (by linarith)
    (by linarith) (by linarith)
  refine ⟨a, ?_, ?_⟩
  · simpa [latlon2cart, quarter, half] using ha
  · simp [cart2latlon, hb, quarter, half]

/-- The other half of the longitudes comes back lowered by a full turn, in radians. -/
theorem C49_latlon_positive_partial (r lat lon : ℝ) (hr : 0 < r) (h0 : -(Real.pi / 2) < lat) (h1 : lat < Real.pi / 2)
    (p0 : 0 < lon) (p1 : lon ≤ 2 * Real.pi) :
    ∃ a, latlon2cart false r lat lon = .ok a ∧ cart2latlon false a = .ok (lat, lon - 2 * Real.pi) := by
  obtain ⟨a, ha, hb⟩ := C49_latlon_partial r lat (lon - 2 * Real.pi) hr h0 h1 (by linarith) (by linarith)
  refine ⟨a, ?_, hb⟩
  rw [← ha]
  simp only [latlon2cart, sph2cart, half]
  have e : lon + Real.pi = (lon - 2 * Real.pi + Real.pi) + 2 * Real.pi := by ring
  simp only [Bool.false_eq_true, if_false]
  rw [e]
  simp [Real.sin_add_two_pi, Real.cos_add_two_pi]

/-- **C49, latitudes and longitudes: fails** for a positive longitude in radians; and in degrees, the default, it
    fails for every point: no latitude at all comes back right but those that are equal to `90 - theta` with
    theta in radians, i.e. between 86 and 90. -/
theorem C49_latlon_violated :
    (∃ a, latlon2cart false 1 0 (Real.pi / 2) = .ok a ∧ cart2latlon false a ≠ .ok (0, Real.pi / 2)) ∧
    (∀ r lat lon : ℝ, lat < 86 → ∃ a, latlon2cart true r lat lon = .ok a ∧
      ∀ lon', cart2latlon true a ≠ .ok (lat, lon')) := by
  constructor
  · obtain ⟨a, h, h'⟩ := C49_latlon_positive_partial 1 0 (Real.pi / 2) one_pos
      (by have := Real.pi_pos; linarith) (by have := Real.pi_pos; linarith) (by have := Real.pi_pos; linarith)
      (by have := Real.pi_pos; linarith)
    refine ⟨a, h, fun e => ?_⟩
    rw [h'] at e
    simp only [Except.ok.injEq, Prod.mk.injEq, true_and] at e
    have := Real.pi_pos
    linarith
  · intro r lat lon hlat
    refine ⟨![r * Real.sin ((90 - lat) * (Real.pi / 180)) * Real.cos ((lon + 180) * (Real.pi / 180)),
      r * Real.sin ((90 - lat) * (Real.pi / 180)) * Real.sin ((lon + 180) * (Real.pi / 180)),
      r * Real.cos ((90 - lat) * (Real.pi / 180))], ?_, ?_⟩
    · simp [latlon2cart, sph2cart, quarter, half, store]
    · intro lon' e
      simp [cart2latlon, cart2sph, store, quarter] at e
      have h := e.1
      have hle := Real.arccos_le_pi (r * Real.cos ((90 - lat) * (Real.pi / 180)) /
        √((r * Real.sin ((90 - lat) * (Real.pi / 180)) * Real.cos ((lon + 180) * (Real.pi / 180))) ^ 2 +
          (r * Real.sin ((90 - lat) * (Real.pi / 180)) * Real.sin ((lon + 180) * (Real.pi / 180))) ^ 2 +
          (r * Real.cos ((90 - lat) * (Real.pi / 180))) ^ 2))
      have := Real.pi_le_four
      linarith

/-! ### C74 -/

theorem trunc_of_int (n : ℤ) : trunc n = n := by
  unfold trunc; split <;> simp

/-- **C74, what is true**: for integers the results are those for floats truncated towards zero, coordinate by
    coordinate, provided the distance is an integer; the conversions from degrees raise. -/
theorem C74_truncated_partial (a : V3) :
    (∃ n : ℤ, len a = n) →
    (∃ s, cart2sph .float false a = .ok s ∧ cart2sph .int false a = .ok fun i => trunc (s i)) ∧
    cart2sph .int true a = .error .typeError ∧ sph2cart .int true a = .error .typeError ∧
    ∃ c, sph2cart .float false a = .ok c ∧ sph2cart .int false a = .ok fun i => trunc (c i) := by
  rintro ⟨n, hn⟩
  refine ⟨⟨![len a, Real.arccos (a 2 / len a), arctan2 (a 1) (a 0)], by simp [cart2sph, store, len], ?_⟩,
    by simp [cart2sph], by simp [sph2cart],
    ![a 0 * Real.sin (a 1) * Real.cos (a 2), a 0 * Real.sin (a 1) * Real.sin (a 2), a 0 * Real.cos (a 1)],
    by simp [sph2cart, store], ?_⟩
  · have hl : √(a 0 ^ 2 + a 1 ^ 2 + a 2 ^ 2) = n := hn
    simp only [cart2sph, store, hl, hn, trunc_of_int]
    rw [if_neg (by simp)]
    congr 1
    apply ext3
    · show _ = trunc (n : ℝ); rw [trunc_of_int]; rfl
    · rfl
    · rfl
  · simp only [sph2cart, store]
    rw [if_neg (by simp)]
    congr 1
    apply ext3 <;> simp

/-- **C74 fails**: the polar angle of (1, 0, 0), given as integers, is 1 instead of pi/2, and converting it back gives
    (0, 0, 0). -/
theorem C74_violated :
    cart2sph .int false ex = .ok ![1, 1, 0] ∧ cart2sph .float false ex = .ok ![1, Real.pi / 2, 0] ∧
    sph2cart .int false ![1, 1, 0] = .ok ![0, 0, 0] := by
  have e0 : ex 0 = 1 := rfl
  have e1 : ex 1 = 0 := rfl
  have e2 : ex 2 = 0 := rfl
  have h3 := Real.pi_gt_three
  have h4 := Real.pi_le_four
  have t1 : trunc 1 = 1 := by simpa using trunc_of_int 1
  have t0 : trunc 0 = 0 := by simpa using trunc_of_int 0
  have tp : trunc (Real.pi / 2) = 1 := by
    have hlt : Real.pi < 4 := by
      have := Real.pi_lt_d2; linarith
    unfold trunc
    rw [if_pos (by linarith), show ⌊Real.pi / 2⌋ = 1 from Int.floor_eq_iff.2 ⟨by push_cast; linarith, by push_cast; linarith⟩]
    simp
  have harg : arctan2 0 1 = 0 := by unfold arctan2; exact Complex.arg_one
  refine ⟨?_, ?_, ?_⟩
  · simp only [cart2sph, store, e0, e1, e2, harg]
    rw [if_neg (by simp)]
    norm_num [t1, t0, tp]
  · simp [cart2sph, store, e0, e1, e2, harg]
  · have hs1 : Real.sin 1 < 1 := by
      have := Real.sin_lt (by norm_num : (0:ℝ) < 1); linarith
    have hs0 : 0 ≤ Real.sin 1 := Real.sin_nonneg_of_nonneg_of_le_pi (by norm_num) (by linarith)
    have hc1 : Real.cos 1 < 1 := by
      nlinarith [Real.sin_sq_add_cos_sq 1, Real.cos_le_one 1, Real.sin_pos_of_pos_of_lt_pi (by norm_num : (0:ℝ) < 1) (by linarith)]
    have hc0 : 0 ≤ Real.cos 1 := Real.cos_nonneg_of_mem_Icc ⟨by linarith, by linarith⟩
    have tz : ∀ x : ℝ, 0 ≤ x → x < 1 → trunc x = 0 := by
      intro x h0 h1
      unfold trunc
      rw [if_pos h0, show ⌊x⌋ = 0 from Int.floor_eq_iff.2 ⟨by simpa using h0, by simpa using h1⟩]
      simp
    simp [sph2cart, store, tz _ hs0 hs1, tz _ hc0 hc1, t0]

example : ∃ n : ℤ, len ![1, 2, 2] = n := by
  refine ⟨3, ?_⟩
  have e : len ![1, 2, 2] = √(3 ^ 2) := by
    unfold len; congr 1; simp; norm_num
  rw [e, Real.sqrt_sq (by norm_num)]; norm_num

end Viscid.Props
