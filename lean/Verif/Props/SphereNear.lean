import Verif.Props.Sphere
/-!
# C77 for every pole: seeds of spheres with a pole almost along z
-/
namespace Viscid.Props
open Matrix Viscid.Rotation Viscid.Seed Viscid.Spec.Rotation

/-- **C77, angle, any pole.** Whatever the pole, the component of a seed along it is that of its theta, up to 2e-8 of
    the radius. -/
theorem C77_angle_close (s : Sphere) (hp : dot s.pole s.pole = 1) (t p : ℝ) :
    ∃ q, s.to3d t p = some q ∧ |dot (vsub q s.p0) s.pole - s.r * Real.cos t| ≤ 2 / 10 ^ 8 * |s.r| := by
  have hl : len s.pole ≠ 0 := by rw [len_eq_one hp]; exact one_ne_zero
  have hz : len ![0, 0, 1] ≠ 0 := by rw [ez_len]; exact one_ne_zero
  obtain ⟨R, hR, hm⟩ := C59_close ![0, 0, 1] s.pole s.roll hz hl
  obtain ⟨R', hR', hrot⟩ := C59_rotation ![0, 0, 1] s.pole s.roll hz hl
  rw [hR] at hR'
  cases hR'
  rw [ez_unit', unit_of_dot hp] at hm
  refine ⟨_, by unfold Sphere.to3d; rw [hR]; rfl, ?_⟩
  rw [vsub_vadd]
  have hs := sph_len s.r t p
  generalize hv : ![s.r * Real.sin t * Real.cos p, s.r * Real.sin t * Real.sin p, s.r * Real.cos t + 0 * p] = v at hs
  have h2 : v 2 = s.r * Real.cos t := by rw [← hv]; simp
  have e1 : dot (R *ᵥ v) (R *ᵥ ![0, 0, 1]) = s.r * Real.cos t := by
    rw [IsRot_dot hrot]; simp [dot, h2]
  have e2 : dot (R *ᵥ v) s.pole - s.r * Real.cos t = - dot (R *ᵥ v) (vsub (R *ᵥ ![0, 0, 1]) s.pole) := by
    rw [← e1]; simp only [dot, vsub]; ring
  rw [e2, abs_neg]
  have hc := cauchy (R *ᵥ v) (vsub (R *ᵥ ![0, 0, 1]) s.pole)
  rw [len_rot' hrot, hs] at hc
  have hn := len_nonneg (vsub (R *ᵥ ![0, 0, 1]) s.pole)
  rw [← mul_pow] at hc
  have h3 := abs_le_of_sq_le_sq hc (mul_nonneg (abs_nonneg _) hn)
  refine le_trans h3 ?_
  rw [mul_comm]
  exact mul_le_mul_of_nonneg_right hm (abs_nonneg _)

/-- **C77, circles, any pole.** Whatever the pole, every point of a `Circle` is at the distance of the radius from the
    centre, and off the plane perpendicular to the pole by at most 2e-8 of the radius. -/
theorem C77_circle_close (s : Sphere) (hp : dot s.pole s.pole = 1) (x : Option V3) (hx : x ∈ circlePoints s) :
    ∃ q, x = some q ∧ len (vsub q s.p0) = |s.r| ∧ |dot (vsub q s.p0) s.pole| ≤ 2 / 10 ^ 8 * |s.r| := by
  unfold circlePoints at hx
  simp only [List.mem_flatMap, List.mem_map] at hx
  obtain ⟨t, ht, p, -, rfl⟩ := hx
  have ht : t = Real.pi / 2 := by
    simp [thetaAxis, linspace] at ht
    exact ht
  obtain ⟨q, hq, hd⟩ := C77_angle_close s hp t p
  rw [ht, Real.cos_pi_div_two, mul_zero, sub_zero] at hd
  refine ⟨q, hq, ?_, hd⟩
  have hl : len s.pole ≠ 0 := by rw [len_eq_one hp]; exact one_ne_zero
  obtain ⟨R, hR, hrot⟩ := C59_rotation ![0, 0, 1] s.pole s.roll (by rw [ez_len]; exact one_ne_zero) hl
  unfold Sphere.to3d at hq
  rw [hR] at hq
  simp only [Option.map_some, Option.some.injEq] at hq
  rw [← hq, vsub_vadd, len_rot' hrot, sph_len]

/-- **C78, poles, any pole.** Whatever the pole, the points that are added to the mesh are within 2e-8 of the radius from
    the points of the sphere at angles 0 and pi. -/
theorem C78_poles_close (s : Sphere) (hp : dot s.pole s.pole = 1) (p : ℝ) :
    (∃ q, s.to3d 0 p = some q ∧ len (vsub q (s.polePoint 0)) ≤ 2 / 10 ^ 8 * |s.r|) ∧
    (∃ q, s.to3d Real.pi p = some q ∧ len (vsub q (s.polePoint 1)) ≤ 2 / 10 ^ 8 * |s.r|) := by
  have hl : len s.pole ≠ 0 := by rw [len_eq_one hp]; exact one_ne_zero
  obtain ⟨R, hR, hm⟩ := C59_close ![0, 0, 1] s.pole s.roll (by rw [ez_len]; exact one_ne_zero) hl
  rw [ez_unit', unit_of_dot hp] at hm
  have key : ∀ (c : ℝ) (q w : V3), |c| = |s.r| → (∀ i, q i - w i = c * vsub (R *ᵥ ![0, 0, 1]) s.pole i) →
      len (vsub q w) ≤ 2 / 10 ^ 8 * |s.r| := by
    intro c q w hc hq
    have : len (vsub q w) = |c| * len (vsub (R *ᵥ ![0, 0, 1]) s.pole) := by
      rw [← Real.sqrt_sq_eq_abs]
      unfold len
      rw [← Real.sqrt_mul (sq_nonneg c)]
      congr 1
      rw [show vsub q w = fun i => c * vsub (R *ᵥ ![0, 0, 1]) s.pole i from funext hq]
      ring
    rw [this, hc, mul_comm]
    exact mul_le_mul_of_nonneg_right hm (abs_nonneg _)
  constructor
  · refine ⟨_, by unfold Sphere.to3d; rw [hR]; rfl, key s.r _ _ rfl ?_⟩
    intro i
    fin_cases i <;> simp [Sphere.polePoint, vadd, vsub, vsmul, mulVec3] <;> ring
  · refine ⟨_, by unfold Sphere.to3d; rw [hR]; rfl, key (-s.r) _ _ (abs_neg _) ?_⟩
    intro i
    fin_cases i <;> simp [Sphere.polePoint, vadd, vsub, vsmul, mulVec3] <;> ring

/-- **C77 fails exactly** for a pole in the y-z plane and at most 1e-8, but not zero, from the z axis: the seed at theta 0 of a
    sphere is not at its pole, for it is turned about the y axis. -/
theorem C77_angle_violated (s : Sphere) (hp : dot s.pole s.pole = 1) (h0 : s.pole 0 = 0) (h1 : s.pole 1 ≠ 0)
    (h2 : |s.pole 1| ≤ 1 / 10 ^ 8) (hroll : s.roll = 0) (hr : 0 < s.r) (p : ℝ) :
    ∃ q, s.to3d 0 p = some q ∧ dot (vsub q s.p0) s.pole < s.r ∧ vsub q s.p0 ≠ vsmul s.r s.pole := by
  have hl : len s.pole ≠ 0 := by rw [len_eq_one hp]; exact one_ne_zero
  have hzl : len ![0, 0, 1] ≠ 0 := by rw [ez_len]; exact one_ne_zero
  have uz : dot ![0, 0, 1] ![0, 0, 1] = 1 := by simp [dot]
  have hc0 : cross ![0, 0, 1] s.pole = ![-s.pole 1, 0, 0] := by
    apply ext3 <;> simp [cross, h0]
  have hcl : len (cross ![0, 0, 1] s.pole) = |s.pole 1| := by
    rw [hc0]; simp [len, Real.sqrt_sq_eq_abs]
  have hx : a2bAxis ![0, 0, 1] s.pole = ![0, 1, 0] := by
    unfold a2bAxis
    dsimp only
    rw [if_pos ((isClose_zero (len_nonneg _)).2 (by rw [hcl]; exact h2)), if_neg]
    · simp [cross, ex]
    · rw [isClose_zero (len_nonneg _)]
      simp [len, cross, ex]
      norm_num
  have hu : unit ![0, 1, 0] = ![0, 1, 0] := unit_of_dot (by simp [dot])
  have hR : a2bRot ![0, 0, 1] s.pole s.roll = some (rodM (s.pole 2) |s.pole 1| ![0, 1, 0]) := by
    unfold a2bRot
    rw [if_neg (by push Not; exact ⟨hzl, hl⟩), ez_unit', unit_of_dot hp, a2bUnit_eq uz hp, hx, hu, hcl, hroll]
    have : dot ![0, 0, 1] s.pole = s.pole 2 := by simp [dot]
    rw [this]
    simp [applyRoll]
  refine ⟨_, by unfold Sphere.to3d; rw [hR]; rfl, ?_⟩
  rw [vsub_vadd]
  have hv : (rodM (s.pole 2) |s.pole 1| ![0, 1, 0] *ᵥ
      ![s.r * Real.sin 0 * Real.cos p, s.r * Real.sin 0 * Real.sin p, s.r * Real.cos 0 + 0 * p]) =
      ![s.r * |s.pole 1|, 0, s.r * s.pole 2] := by
    apply ext3 <;> simp [mulVec3, rodM] <;> ring
  rw [hv]
  have hd : s.pole 1 ^ 2 + s.pole 2 ^ 2 = 1 := by
    have := hp
    simp only [dot, h0] at this
    linarith [this]
  have hpos : 0 < s.pole 1 ^ 2 := by positivity
  constructor
  · simp only [dot, h0, Matrix.cons_val]
    nlinarith
  · intro e
    have := congrFun e 1
    simp [vsmul] at this
    rcases this with h | h
    · exact hr.ne' h
    · exact h1 h

/-- Such a pole and sphere exist. -/
example : ∃ s : Sphere, dot s.pole s.pole = 1 ∧ s.pole 0 = 0 ∧ s.pole 1 ≠ 0 ∧ |s.pole 1| ≤ 1 / 10 ^ 8 ∧
    s.roll = 0 ∧ 0 < s.r := by
  have h : (0:ℝ) < 1 - (1 / 10 ^ 9) ^ 2 := by norm_num
  refine ⟨⟨0, 1, ![0, 1 / 10 ^ 9, Real.sqrt (1 - (1 / 10 ^ 9) ^ 2)], 20, 20, 0, Real.pi, 0, 2 * Real.pi, 0⟩, ?_, rfl, ?_, ?_,
    rfl, one_pos⟩
  · have := Real.mul_self_sqrt h.le
    simp only [dot, Matrix.cons_val]
    linarith
  · simp
  · simp only [Matrix.cons_val]
    rw [abs_of_pos (by positivity)]
    norm_num

end Viscid.Props
