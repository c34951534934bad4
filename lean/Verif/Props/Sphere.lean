import Verif.Props.Plane
import Mathlib.Analysis.SpecialFunctions.Trigonometric.Angle
/-!
# C77, C78 (poles), C79: seeds on spheres
-/
namespace Viscid.Props
open Matrix Viscid.Rotation Viscid.Seed Viscid.Spec.Rotation

/-- The z axis and the pole are equal, opposite or further than 1e-8 from it (see C59). -/
def Clear (pole : V3) : Prop :=
  len (cross (unit ![0, 0, 1]) (unit pole)) = 0 ∨ 1 / 10 ^ 8 < len (cross (unit ![0, 0, 1]) (unit pole))

theorem ez_len : len ![0, 0, 1] = 1 := by simp [len]
theorem ez_unit' : unit ![0, 0, 1] = ![0, 0, 1] := by
  apply ext3 <;> simp [unit, ez_len]

theorem sph_len (r t p : ℝ) :
    len ![r * Real.sin t * Real.cos p, r * Real.sin t * Real.sin p, r * Real.cos t + 0 * p] = |r| := by
  unfold len
  simp only [Matrix.cons_val]
  rw [show (r * Real.sin t * Real.cos p) ^ 2 + (r * Real.sin t * Real.sin p) ^ 2 + (r * Real.cos t + 0 * p) ^ 2 = r ^ 2 by
    have a1 := Real.sin_sq_add_cos_sq t
    have a2 := Real.sin_sq_add_cos_sq p
    linear_combination r ^ 2 * a1 + (r * Real.sin t) ^ 2 * a2]
  exact Real.sqrt_sq_eq_abs r

theorem len_rot' {R : M3} (h : IsRot R) (v : V3) : len (R *ᵥ v) = len v := by
  rw [← sqrt_dot, ← sqrt_dot, IsRot_dot h]

theorem vsub_vadd (a b : V3) : vsub (vadd a b) a = b := by
  funext i; simp [vsub, vadd]

/-- **C77, distance.** Every seed of a sphere is at the distance of the radius from the centre: the given one, or
    the length of the vector to the pole if none is given. -/
theorem C77_distance (p0 pole : V3) (r : ℝ) (isVector : Bool) (nt np : Nat) (t0 t1 f0 f1 roll : ℝ)
    (hp : len (dirOf isVector p0 pole) ≠ 0) :
    ∃ s, sphereInit p0 r pole isVector nt np t0 t1 f0 f1 roll = some s ∧ s.p0 = p0 ∧
      s.r = (if r = 0 then len (dirOf isVector p0 pole) else r) ∧ s.pole = unit (dirOf isVector p0 pole) ∧
      ∀ t p, ∃ q, s.to3d t p = some q ∧ len (vsub q p0) = |s.r| := by
  refine ⟨_, by unfold sphereInit; rw [if_neg (by exact hp)], rfl, rfl, rfl, ?_⟩
  intro t p
  have hu : len (unit (dirOf isVector p0 pole)) ≠ 0 := by
    rw [len_eq_one (unit_dot hp)]; exact one_ne_zero
  obtain ⟨R, hR, hrot⟩ := C59_rotation ![0, 0, 1] (unit (dirOf isVector p0 pole)) roll (by rw [ez_len]; exact one_ne_zero) hu
  refine ⟨_, by
    unfold Sphere.to3d
    have : a2bRot ![0, 0, 1] (unit (if isVector then pole else vsub pole p0)) roll = some R := hR
    rw [this]; rfl, ?_⟩
  rw [vsub_vadd, len_rot' hrot, sph_len]

/-- The rotation of a sphere. -/
theorem sphere_rot {s : Sphere} (hp : dot s.pole s.pole = 1) (hc : Clear s.pole) :
    ∃ R, a2bRot ![0, 0, 1] s.pole s.roll = some R ∧ IsRot R ∧ R *ᵥ ![0, 0, 1] = s.pole := by
  have hl : len s.pole ≠ 0 := by rw [len_eq_one hp]; exact one_ne_zero
  obtain ⟨R, hR, hm⟩ := C59_maps_partial ![0, 0, 1] s.pole s.roll (by rw [ez_len]; exact one_ne_zero) hl hc
  obtain ⟨R', hR', hrot⟩ := C59_rotation ![0, 0, 1] s.pole s.roll (by rw [ez_len]; exact one_ne_zero) hl
  rw [hR] at hR'
  cases hR'
  rw [ez_unit', unit_of_dot hp] at hm
  exact ⟨R, hR, hrot, hm⟩

/-- **C77, angle.** The angle from the pole is theta. -/
theorem C77_angle_partial (s : Sphere) (hp : dot s.pole s.pole = 1) (hc : Clear s.pole) (t p : ℝ) :
    ∃ q, s.to3d t p = some q ∧ dot (vsub q s.p0) s.pole = s.r * Real.cos t := by
  obtain ⟨R, hR, hrot, hm⟩ := sphere_rot hp hc
  refine ⟨_, by unfold Sphere.to3d; rw [hR]; rfl, ?_⟩
  rw [vsub_vadd, ← hm, IsRot_dot hrot]
  simp [dot]

/-! ### the axes -/

/-- Where the thetas are, as fractions of the range. -/
noncomputable def frac (e : Bool × Bool) (n i : Nat) : ℝ :=
  if e.1 && e.2 then i / ((n : ℝ) - 1)
  else if e.1 then i / (n : ℝ)
  else if e.2 then (i + 1) / (n : ℝ)
  else (i + 1 / 2) / (n : ℝ)

theorem thetaAxis_get (t0 t1 : ℝ) (n : Nat) (e : Bool × Bool) (i : Nat) (hi : i < n) :
    (thetaAxis t0 t1 n e)[i]? = some (t0 + frac e n i * (t1 - t0)) := by
  have hn : (n : ℝ) ≠ 0 := by
    have : 0 < n := by omega
    positivity
  obtain ⟨a, b⟩ := e
  cases a <;> cases b
  · simp only [thetaAxis, frac, Bool.and_self, Bool.false_eq_true, if_false, List.getElem?_map,
      List.getElem?_range hi, Option.map_some, List.getD_eq_getElem?_getD,
      linspace_get t0 t1 (n + 1) true (i + 1) (by omega), linspace_get t0 t1 (n + 1) true i (by omega),
      Option.getD_some]
    congr 1
    simp
    field_simp
    ring
  · simp only [thetaAxis, frac, Bool.false_and, Bool.false_eq_true, if_false, if_true]
    rw [List.getElem?_reverse (by rw [linspace_length]; exact hi), linspace_length, linspace_get _ _ _ _ _ (by omega)]
    congr 1
    have : ((n - 1 - i : Nat) : ℝ) = (n : ℝ) - 1 - i := by
      rw [Nat.cast_sub (by omega), Nat.cast_sub (by omega)]; simp
    rw [this]
    simp
    field_simp
    ring
  · simp only [thetaAxis, frac, Bool.and_false, Bool.false_eq_true, if_false, if_true]
    rw [linspace_get _ _ _ _ _ hi]
    congr 1
    simp
    field_simp
  · simp only [thetaAxis, frac, Bool.and_self, if_true]
    rw [linspace_get _ _ _ _ _ hi]
    congr 1
    simp
    ring

theorem frac_range (e : Bool × Bool) (n i : Nat) (hi : i < n) :
    0 ≤ frac e n i ∧ frac e n i ≤ 1 ∧ (e.1 = false → 0 < frac e n i) ∧ (e.2 = false → frac e n i < 1) := by
  have hn : (0:ℝ) < n := by
    have : 0 < n := by omega
    positivity
  have hi' : (i : ℝ) + 1 ≤ n := by exact_mod_cast hi
  have h0 : (0:ℝ) ≤ i := by positivity
  obtain ⟨a, b⟩ := e
  cases a <;> cases b <;> simp only [frac, Bool.and_self, Bool.and_false, Bool.false_and, Bool.false_eq_true, if_true, if_false]
  · refine ⟨by positivity, ?_, fun _ => by positivity, fun _ => ?_⟩
    · rw [div_le_one hn]; linarith
    · rw [div_lt_one hn]; linarith
  · refine ⟨by positivity, ?_, fun _ => by positivity, fun h => by cases h⟩
    rw [div_le_one hn]; exact hi'
  · refine ⟨by positivity, ?_, (fun h => by cases h), fun _ => ?_⟩
    · rw [div_le_one hn]; linarith
    · rw [div_lt_one hn]; linarith
  · refine ⟨?_, ?_, (fun h => by cases h), fun h => by cases h⟩
    · apply div_nonneg h0; linarith
    · by_cases hn1 : (n : ℝ) - 1 = 0
      · rw [hn1]; simp
      · rw [div_le_one (lt_of_le_of_ne (by linarith) (Ne.symm hn1))]; linarith

theorem frac_lt (e : Bool × Bool) (n i j : Nat) (hij : i < j) (hj : j < n) : frac e n i < frac e n j := by
  have hij' : (i : ℝ) < j := by exact_mod_cast hij
  have hj' : (j : ℝ) + 1 ≤ n := by exact_mod_cast hj
  have h0 : (0:ℝ) ≤ i := by positivity
  have hn : (0:ℝ) < n := by linarith
  have hn1 : (0:ℝ) < (n : ℝ) - 1 := by linarith
  obtain ⟨a, b⟩ := e
  cases a <;> cases b <;> simp only [frac, Bool.and_self, Bool.and_false, Bool.false_and, Bool.false_eq_true, if_true, if_false]
  all_goals gcongr

/-- **C77, thetas.** `ntheta` values, strictly increasing, within the limits, and for limits within [0, pi] never at a
    pole. -/
theorem C77_thetas (s : Sphere) (h : s.theta0 < s.theta1) :
    s.thetas.length = s.ntheta ∧
    (∀ i : Nat, i < s.ntheta → ∃ t : ℝ, s.thetas[i]? = some t ∧ s.theta0 ≤ t ∧ t ≤ s.theta1 ∧
      (0 ≤ s.theta0 → s.theta1 ≤ Real.pi → 0 < t ∧ t < Real.pi)) ∧
    (∀ (i j : Nat) (t u : ℝ), i < j → s.thetas[i]? = some t → s.thetas[j]? = some u → t < u) := by
  have hlen : s.thetas.length = s.ntheta := by
    unfold Sphere.thetas thetaAxis
    split
    · exact linspace_length _ _ _ _
    · split
      · exact linspace_length _ _ _ _
      · split
        · rw [List.length_reverse]; exact linspace_length _ _ _ _
        · simp
  have hd : 0 < s.theta1 - s.theta0 := by linarith
  refine ⟨hlen, ?_, ?_⟩
  · intro i hi
    obtain ⟨f0, f1, f2, f3⟩ := frac_range s.endpoints s.ntheta i hi
    refine ⟨_, thetaAxis_get _ _ _ _ _ hi, by nlinarith, by nlinarith, ?_⟩
    intro h0 hpi
    constructor
    · by_cases he : s.endpoints.1 = false
      · have := f2 he
        nlinarith
      · have hne : s.theta0 ≠ 0 := by
          intro e0
          apply he
          unfold Sphere.endpoints includesPole
          simp [e0, isClose]
        have : 0 < s.theta0 := lt_of_le_of_ne h0 (Ne.symm hne)
        nlinarith
    · by_cases he : s.endpoints.2 = false
      · have := f3 he
        nlinarith
      · have hne : s.theta1 ≠ Real.pi := by
          intro e0
          apply he
          unfold Sphere.endpoints includesPole
          simp only [e0, isClose, Bool.not_eq_false', decide_eq_true_eq]
          right
          rw [sub_self, abs_zero]; positivity
        have : s.theta1 < Real.pi := lt_of_le_of_ne hpi hne
        nlinarith
  · intro i j t u hij ht hu
    have hj : j < s.ntheta := by
      by_contra hge
      rw [List.getElem?_eq_none (by rw [hlen]; omega)] at hu
      cases hu
    have h1 := thetaAxis_get s.theta0 s.theta1 s.ntheta s.endpoints i (by omega)
    have h2 := thetaAxis_get s.theta0 s.theta1 s.ntheta s.endpoints j hj
    have h1 : s.thetas[i]? = _ := h1
    have h2 : s.thetas[j]? = _ := h2
    rw [ht] at h1
    rw [hu] at h2
    cases h1
    cases h2
    have := frac_lt s.endpoints s.ntheta i j hij hj
    nlinarith

theorem phi_range (s : Sphere) (h : s.phi0 < s.phi1) (h' : s.phi1 ≤ s.phi0 + 2 * Real.pi) (i j : Nat) (p q : ℝ)
    (hij : i < j) (hp : s.phiAxis[i]? = some p) (hq : s.phiAxis[j]? = some q) : p < q ∧ q < p + 2 * Real.pi := by
  have hj : j < s.nphi := by
    by_contra hge
    rw [List.getElem?_eq_none (by unfold Sphere.phiAxis; rw [linspace_length]; omega)] at hq
    cases hq
  have hd : 0 < s.phi1 - s.phi0 := by linarith
  have hpi := Real.pi_pos
  unfold Sphere.phiAxis at hp hq
  rw [linspace_get _ _ _ _ _ (by omega)] at hp
  rw [linspace_get _ _ _ _ _ hj] at hq
  cases hp
  cases hq
  have hij' : (i : ℝ) < j := by exact_mod_cast hij
  have hj' : (j : ℝ) + 1 ≤ s.nphi := by exact_mod_cast hj
  have h0 : (0:ℝ) ≤ i := by positivity
  by_cases hs : s.spansPhi = true
  · simp only [hs, Bool.not_true, Bool.false_eq_true, if_false]
    have hn : (0:ℝ) < s.nphi := by linarith
    have hd' : 0 < (s.phi1 - s.phi0) / s.nphi := by positivity
    constructor
    · nlinarith
    · have : ((j:ℝ) - i) * ((s.phi1 - s.phi0) / s.nphi) < s.phi1 - s.phi0 := by
        rw [mul_div_assoc', div_lt_iff₀ hn]
        nlinarith
      nlinarith
  · have hs' : s.spansPhi = false := by simpa using hs
    have hlt : s.phi1 - s.phi0 < 2 * Real.pi := by
      apply lt_of_le_of_ne (by linarith)
      intro e
      apply hs
      unfold Sphere.spansPhi
      simp only [e, isClose, decide_eq_true_eq]
      rw [sub_self, abs_zero]; positivity
    simp only [hs', Bool.not_false, if_true]
    have hn : (0:ℝ) < (s.nphi : ℝ) - 1 := by linarith
    have hd' : 0 < (s.phi1 - s.phi0) / ((s.nphi : ℝ) - 1) := by positivity
    constructor
    · nlinarith
    · have : ((j:ℝ) - i) * ((s.phi1 - s.phi0) / ((s.nphi : ℝ) - 1)) ≤ s.phi1 - s.phi0 := by
        rw [mul_div_assoc', div_le_iff₀ hn]
        nlinarith
      nlinarith

theorem angle_eq {p q : ℝ} (h : p < q) (h' : q < p + 2 * Real.pi) (hc : Real.cos p = Real.cos q)
    (hs : Real.sin p = Real.sin q) : False := by
  have := Real.Angle.cos_sin_inj hc hs
  rw [Real.Angle.angle_eq_iff_two_pi_dvd_sub] at this
  obtain ⟨k, hk⟩ := this
  have hpi := Real.pi_pos
  have h1 : (k : ℝ) < 0 := by
    by_contra hge
    have : 0 ≤ (k : ℝ) := not_lt.1 hge
    nlinarith
  have h2 : -1 < (k : ℝ) := by
    by_contra hge
    have : (k : ℝ) ≤ -1 := not_lt.1 hge
    nlinarith
  have h1' : k < 0 := by exact_mod_cast h1
  have h2' : -1 < k := by exact_mod_cast h2
  omega

/-- **C77, no duplicates.** With limits within [0, pi] and one turn, and a nonzero radius, seeds with different numbers
    are different points. -/
theorem C77_distinct (s : Sphere) (hp : dot s.pole s.pole = 1) (hr : s.r ≠ 0) (ht : s.theta0 < s.theta1)
    (ht0 : 0 ≤ s.theta0) (ht1 : s.theta1 ≤ Real.pi) (h : s.phi0 < s.phi1) (h' : s.phi1 ≤ s.phi0 + 2 * Real.pi)
    (i j k l : Nat) (t u p q : ℝ) (hi : s.thetas[i]? = some t) (hk : s.thetas[k]? = some u)
    (hj : s.phiAxis[j]? = some p) (hl : s.phiAxis[l]? = some q) (a : V3)
    (h1 : s.to3d t p = some a) (h2 : s.to3d u q = some a) : i = k ∧ j = l := by
  have hlp : len s.pole ≠ 0 := by rw [len_eq_one hp]; exact one_ne_zero
  obtain ⟨R, hR, hrot⟩ := C59_rotation ![0, 0, 1] s.pole s.roll (by rw [ez_len]; exact one_ne_zero) hlp
  unfold Sphere.to3d at h1 h2
  rw [hR] at h1 h2
  simp only [Option.map_some, Option.some.injEq] at h1 h2
  rw [← h2] at h1
  have h1 := IsRot_inj hrot (a := ![s.r * Real.sin t * Real.cos p, s.r * Real.sin t * Real.sin p, s.r * Real.cos t + 0 * p])
    (b := ![s.r * Real.sin u * Real.cos q, s.r * Real.sin u * Real.sin q, s.r * Real.cos u + 0 * q]) (by
      funext m
      have := congrFun h1 m
      simpa [vadd] using this)
  have e0 : s.r * Real.sin t * Real.cos p = s.r * Real.sin u * Real.cos q := congrFun h1 0
  have e1 : s.r * Real.sin t * Real.sin p = s.r * Real.sin u * Real.sin q := congrFun h1 1
  have e2 : s.r * Real.cos t + 0 * p = s.r * Real.cos u + 0 * q := congrFun h1 2
  obtain ⟨hlen, hrange, hmono⟩ := C77_thetas s ht
  have hi' : i < s.ntheta := by
    by_contra hge
    rw [List.getElem?_eq_none (by rw [hlen]; omega)] at hi; cases hi
  have hk' : k < s.ntheta := by
    by_contra hge
    rw [List.getElem?_eq_none (by rw [hlen]; omega)] at hk; cases hk
  obtain ⟨t', et, -, -, ht'⟩ := hrange i hi'
  obtain ⟨u', eu, -, -, hu'⟩ := hrange k hk'
  rw [hi] at et
  rw [hk] at eu
  cases et
  cases eu
  obtain ⟨ta, tb⟩ := ht' ht0 ht1
  obtain ⟨ua, ub⟩ := hu' ht0 ht1
  have ecos : Real.cos t = Real.cos u := by
    have : s.r * Real.cos t = s.r * Real.cos u := by linarith
    exact mul_left_cancel₀ hr this
  have etu : t = u := Real.injOn_cos ⟨ta.le, tb.le⟩ ⟨ua.le, ub.le⟩ ecos
  constructor
  · rcases Nat.lt_trichotomy i k with hlt | he | hlt
    · exact absurd etu (hmono i k t u hlt hi hk).ne
    · exact he
    · exact absurd etu (hmono k i u t hlt hk hi).ne'
  · rw [etu] at e0 e1
    have hsin : Real.sin u ≠ 0 := (Real.sin_pos_of_pos_of_lt_pi ua ub).ne'
    have c : Real.cos p = Real.cos q := mul_left_cancel₀ (mul_ne_zero hr hsin) e0
    have d : Real.sin p = Real.sin q := mul_left_cancel₀ (mul_ne_zero hr hsin) e1
    rcases Nat.lt_trichotomy j l with hlt | he | hlt
    · obtain ⟨x, y⟩ := phi_range s h h' j l p q hlt hj hl
      exact (angle_eq x y c d).elim
    · exact he
    · obtain ⟨x, y⟩ := phi_range s h h' l j q p hlt hl hj
      exact (angle_eq x y c.symm d.symm).elim

/-- **C77, circles.** Every point of a `Circle` is at the distance of the radius from the centre, in the plane
    perpendicular to the pole. -/
theorem C77_circle_partial (s : Sphere) (hp : dot s.pole s.pole = 1) (hc : Clear s.pole) (x : Option V3) (hx : x ∈ circlePoints s) :
    ∃ q, x = some q ∧ len (vsub q s.p0) = |s.r| ∧ dot (vsub q s.p0) s.pole = 0 := by
  unfold circlePoints at hx
  simp only [List.mem_flatMap, List.mem_map] at hx
  obtain ⟨t, ht, p, -, rfl⟩ := hx
  have ht : t = Real.pi / 2 := by
    simp [thetaAxis, linspace] at ht
    exact ht
  obtain ⟨R, hR, hrot, hm⟩ := sphere_rot hp hc
  obtain ⟨q, hq, hd⟩ := C77_angle_partial s hp hc t p
  refine ⟨q, hq, ?_, by rw [hd, ht, Real.cos_pi_div_two, mul_zero]⟩
  unfold Sphere.to3d at hq
  rw [hR] at hq
  simp only [Option.map_some, Option.some.injEq] at hq
  rw [← hq, vsub_vadd, len_rot' hrot, sph_len]

/-- The hypotheses can be met: the default sphere. -/
example : ∃ s, sphereInit 0 0 ![0, 0, 1] true 20 20 0 Real.pi 0 (2 * Real.pi) 0 = some s ∧ dot s.pole s.pole = 1 ∧
    Clear s.pole ∧ s.r ≠ 0 ∧ s.theta0 < s.theta1 ∧ 0 ≤ s.theta0 ∧ s.theta1 ≤ Real.pi ∧ s.phi0 < s.phi1 ∧
    s.phi1 ≤ s.phi0 + 2 * Real.pi := by
  have hpi := Real.pi_pos
  refine ⟨⟨0, 1, ![0, 0, 1], 20, 20, 0, Real.pi, 0, 2 * Real.pi, 0⟩, ?_, by simp [dot], ?_, by norm_num, hpi, le_refl _,
    le_refl _, by positivity, by simp⟩
  · unfold sphereInit
    simp [ez_len, ez_unit']
  · left
    rw [ez_unit']
    simp [len, cross]

/-! ### C78, poles -/

/-- **C78, poles.** Limits that start at 0 or end at pi: the point that is added to the mesh is the pole, i.e. the point
    of the sphere at the angle of the limit. -/
theorem C78_poles_partial (s : Sphere) (hp : dot s.pole s.pole = 1) (hc : Clear s.pole) (p : ℝ) :
    (s.theta0 = 0 → s.skippedPoles.1 = true ∧ s.to3d s.theta0 p = some (s.polePoint 0)) ∧
    (s.theta1 = Real.pi → s.skippedPoles.2 = true ∧ s.to3d s.theta1 p = some (s.polePoint 1)) := by
  obtain ⟨R, hR, hrot, hm⟩ := sphere_rot hp hc
  have hv : ∀ c : ℝ, R *ᵥ ![0, 0, c] = vsmul c s.pole := by
    intro c
    rw [← hm]
    apply ext3 <;> simp [mulVec3, vsmul] <;> ring
  constructor
  · intro h
    constructor
    · simp [Sphere.skippedPoles, Sphere.endpoints, includesPole, h, isClose]
    · unfold Sphere.to3d Sphere.polePoint
      rw [hR, h]
      simp only [Option.map_some, Real.sin_zero, Real.cos_zero, mul_zero, zero_mul, mul_one, add_zero, hv, if_true]
      congr 2
      funext i; simp [vsmul]
  · intro h
    constructor
    · have : isClose Real.pi Real.pi := by
        unfold isClose; rw [sub_self, abs_zero]; positivity
      simp [Sphere.skippedPoles, Sphere.endpoints, includesPole, h, this]
    · unfold Sphere.to3d Sphere.polePoint
      rw [hR, h]
      simp only [Option.map_some, Real.sin_pi, Real.cos_pi, mul_zero, zero_mul, add_zero, hv]
      congr 2
      funext i; simp [vsmul]

/-- **C78 fails** for limits in descending order, from pi: the added point is the opposite pole. -/
theorem C78_reversed_violated (s : Sphere) (hp : dot s.pole s.pole = 1) (hc : Clear s.pole) (hr : s.r ≠ 0)
    (h : s.theta0 = Real.pi) (p : ℝ) : s.skippedPoles.1 = true ∧ s.to3d s.theta0 p = some (s.polePoint 1) ∧
      s.polePoint 1 ≠ s.polePoint 0 := by
  obtain ⟨R, hR, hrot, hm⟩ := sphere_rot hp hc
  have hv : ∀ c : ℝ, R *ᵥ ![0, 0, c] = vsmul c s.pole := by
    intro c
    rw [← hm]
    apply ext3 <;> simp [mulVec3, vsmul] <;> ring
  refine ⟨?_, ?_, ?_⟩
  · have : isClose Real.pi Real.pi := by
      unfold isClose; rw [sub_self, abs_zero]; positivity
    simp [Sphere.skippedPoles, Sphere.endpoints, includesPole, h, this]
  · unfold Sphere.to3d Sphere.polePoint
    rw [hR, h]
    simp only [Option.map_some, Real.sin_pi, Real.cos_pi, mul_zero, zero_mul, add_zero, hv]
    congr 2
    funext i; simp [vsmul]
  · intro e
    have : ∀ i, s.pole i = 0 := by
      intro i
      have := congrFun e i
      simp [Sphere.polePoint, vadd, vsmul] at this
      have h2 : s.r * s.pole i = 0 := by linarith
      rcases mul_eq_zero.1 h2 with h3 | h3
      · exact absurd h3 hr
      · exact h3
    unfold dot at hp
    rw [this 0, this 1, this 2] at hp
    norm_num at hp

/-! ### C79 -/

theorem mem_linspace_sym {m x : ℝ} {n : Nat} (hm : 0 ≤ m) (h : x ∈ linspace (-m) m n) : |x| ≤ m := by
  unfold linspace at h
  simp only [List.mem_map, List.mem_range, if_true] at h
  obtain ⟨i, hi, rfl⟩ := h
  have hi' : (i : ℝ) + 1 ≤ n := by exact_mod_cast hi
  have h0 : (0:ℝ) ≤ i := by positivity
  by_cases hn1 : (n : ℝ) - 1 = 0
  · rw [hn1]; simp [abs_of_nonneg hm]
  · have hn : 0 < (n : ℝ) - 1 := lt_of_le_of_ne (by linarith) (Ne.symm hn1)
    have e : -m + i * ((m - -m) / ((n : ℝ) - 1)) = m * (2 * (i / ((n : ℝ) - 1)) - 1) := by field_simp; ring
    have f0 : 0 ≤ (i : ℝ) / ((n : ℝ) - 1) := by positivity
    have f1 : (i : ℝ) / ((n : ℝ) - 1) ≤ 1 := by rw [div_le_one hn]; linarith
    rw [e, abs_mul, abs_of_nonneg hm]
    have : |2 * ((i : ℝ) / ((n : ℝ) - 1)) - 1| ≤ 1 := by rw [abs_le]; constructor <;> linarith
    nlinarith

theorem sin_sq_mono {x m : ℝ} (hx : |x| ≤ m) (hm : m ≤ Real.pi / 2) : Real.sin x ^ 2 ≤ Real.sin m ^ 2 := by
  have h0 : 0 ≤ |x| := abs_nonneg x
  have hpi := Real.pi_pos
  rw [← sq_abs (Real.sin x)]
  have e : |Real.sin x| = Real.sin |x| := by
    rcases le_total 0 x with h | h
    · rw [abs_of_nonneg h] at hx ⊢
      exact abs_of_nonneg (Real.sin_nonneg_of_nonneg_of_le_pi h (by linarith))
    · rw [abs_of_nonpos h] at hx ⊢
      rw [Real.sin_neg]
      apply abs_of_nonpos
      apply Real.sin_nonpos_of_nonpos_of_neg_pi_le h; linarith
  rw [e]
  have h1 : Real.sin |x| ≤ Real.sin m := Real.sin_le_sin_of_le_of_le_pi_div_two (by linarith) hm hx
  have h2 : 0 ≤ Real.sin |x| := Real.sin_nonneg_of_nonneg_of_le_pi h0 (by linarith)
  nlinarith

/-- **C79, for angles up to 90 degrees.** A `SphericalPatch` is either refused, or all its seeds are at the distance of
    the radius from the centre, for every number of seeds. -/
theorem C79_patch_partial (p0 p1 : V3) (ma mb roll r : ℝ) (hp : len p1 ≠ 0) (ha0 : 0 ≤ ma) (ha : ma ≤ Real.pi / 2)
    (hb0 : 0 ≤ mb) (hb : mb ≤ Real.pi / 2) :
    patchInit p0 p1 ma mb roll r = .error .valueError ∨
    ∃ s, patchInit p0 p1 ma mb roll r = .ok s ∧ ∀ na nb a b, a ∈ (s.axes na nb).1 → b ∈ (s.axes na nb).2 →
      ∃ q, s.to3d a b = some q ∧ len (vsub q p0) = (if r = 0 then len p1 else |r|) := by
  by_cases hc : Real.sin ma ^ 2 + Real.sin mb ^ 2 > 1
  · left; unfold patchInit; simp only [if_pos hc]
  · right
    refine ⟨_, by unfold patchInit; simp only [if_neg hc]; rfl, ?_⟩
    intro na nb a b hia hib
    have h1 := sin_sq_mono (mem_linspace_sym ha0 hia) ha
    have h2 := sin_sq_mono (mem_linspace_sym hb0 hib) hb
    have hc : Real.sin ma ^ 2 + Real.sin mb ^ 2 ≤ 1 := not_lt.1 hc
    generalize hr' : (if r ≠ 0 then r else len p1) = r'
    have hp1 : len (if r ≠ 0 then vsmul (r / len p1) p1 else p1) ≠ 0 := by
      split
      · rename_i hr
        intro e
        rw [len_zero_iff] at e
        apply hp
        rw [len_zero_iff]
        funext i
        have := congrFun e i
        simp only [vsmul] at this
        rcases mul_eq_zero.1 this with h3 | h3
        · exact absurd h3 (div_ne_zero hr hp)
        · exact h3
      · exact hp
    obtain ⟨R, hR, hrot⟩ := C59_rotation ![0, 0, 1] _ roll (by rw [ez_len]; exact one_ne_zero) hp1
    have hnn : 0 ≤ r' ^ 2 - (r' * Real.sin a) ^ 2 - (r' * Real.sin b) ^ 2 := by
      have : 0 ≤ r' ^ 2 * (1 - Real.sin a ^ 2 - Real.sin b ^ 2) := mul_nonneg (sq_nonneg _) (by linarith)
      linarith
    have hs : sqrtNan (r' ^ 2 - (r' * Real.sin a) ^ 2 - (r' * Real.sin b) ^ 2) =
        some (√(r' ^ 2 - (r' * Real.sin a) ^ 2 - (r' * Real.sin b) ^ 2)) := by
      unfold sqrtNan; rw [if_neg (not_lt.2 hnn)]
    refine ⟨_, by
      unfold Patch.to3d
      simp only [hs, hR, Option.bind_some, Option.map_some]
      rfl, ?_⟩
    rw [vsub_vadd, len_rot' hrot]
    have : len ![r' * Real.sin a, r' * Real.sin b, √(r' ^ 2 - (r' * Real.sin a) ^ 2 - (r' * Real.sin b) ^ 2)] = |r'| := by
      unfold len
      simp only [Matrix.cons_val, Real.sq_sqrt hnn]
      rw [← Real.sqrt_sq_eq_abs]; congr 1; ring
    rw [this, ← hr']
    by_cases hr : r = 0
    · simp [hr, abs_of_nonneg (len_nonneg p1)]
    · simp [hr]

/-- **C79 fails** beyond 90 degrees: 180 and 45 degrees pass the check and seeds are nan. -/
theorem C79_range_violated : ∃ s, patchInit 0 ![0, 0, 1] Real.pi (Real.pi / 4) 0 1 = .ok s ∧
    ∃ a b, a ∈ (s.axes 5 2).1 ∧ b ∈ (s.axes 5 2).2 ∧ s.to3d a b = none := by
  have hs4 : Real.sin (Real.pi / 4) ^ 2 = 1 / 2 := by
    rw [Real.sin_pi_div_four, div_pow, Real.sq_sqrt (by norm_num)]; norm_num
  have hc : ¬ Real.sin Real.pi ^ 2 + Real.sin (Real.pi / 4) ^ 2 > 1 := by
    rw [Real.sin_pi, hs4]; norm_num
  refine ⟨_, by unfold patchInit; simp only [if_neg hc]; rfl, Real.pi / 2, Real.pi / 4, ?_, ?_, ?_⟩
  · unfold Patch.axes linspace
    simp only [List.mem_map, List.mem_range, if_true]
    exact ⟨3, by norm_num, by norm_num; ring⟩
  · unfold Patch.axes linspace
    simp only [List.mem_map, List.mem_range, if_true]
    exact ⟨1, by norm_num, by norm_num⟩
  · unfold Patch.to3d
    have : sqrtNan (1 ^ 2 - (1 * Real.sin (Real.pi / 2)) ^ 2 - (1 * Real.sin (Real.pi / 4)) ^ 2) = none := by
      unfold sqrtNan
      rw [if_pos]
      rw [Real.sin_pi_div_two, one_mul, one_mul, hs4]; norm_num
    simp only [ne_eq, one_ne_zero, not_false_eq_true, if_true, this, Option.bind_none]

example : len ![0, 0, 1] ≠ 0 ∧ (0:ℝ) ≤ Real.pi / 4 ∧ Real.pi / 4 ≤ Real.pi / 2 := by
  have := Real.pi_pos
  exact ⟨by rw [ez_len]; exact one_ne_zero, by positivity, by linarith⟩

end Viscid.Props
