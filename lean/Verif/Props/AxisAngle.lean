import Verif.Lemmas.Rodrigues
/-!
# C59: a rotation taking a to b
-/
namespace Viscid.Props
open Matrix Viscid.Rotation Viscid.Spec.Rotation

theorem isClose_zero {x : ℝ} (hx : 0 ≤ x) : isClose x 0 ↔ x ≤ 1 / 10 ^ 8 := by
  unfold isClose; rw [sub_zero, abs_of_nonneg hx, abs_zero, mul_zero, add_zero]

theorem a2bAxis_len {a b : V3} (ha : dot a a = 1) : len (a2bAxis a b) ≠ 0 := by
  unfold a2bAxis
  dsimp only
  split
  · next h =>
    split
    · next h1 =>
      rw [isClose_zero (len_nonneg _)] at h1
      have e := len_sq (cross a ex)
      have hl := len_nonneg (cross a ex)
      have hs : len (cross a ex) ^ 2 ≤ 1 / 10 := by nlinarith
      rw [e] at hs
      unfold dot at ha
      simp [cross, ex] at hs
      intro h0
      obtain ⟨z0, z1, z2⟩ := eq_zero_of_len h0
      simp [cross, ey] at z0 z2
      nlinarith
    · next h1 =>
      intro h0; apply h1; rw [h0]; norm_num [isClose]
  · next h =>
    intro h0; apply h; rw [h0]; norm_num [isClose]

theorem a2bAxis_perp (a b : V3) : dot (a2bAxis a b) a = 0 := by
  unfold a2bAxis
  dsimp only
  split
  · split <;> simp [dot, cross, ex, ey] <;> ring
  · simp [dot, cross]; ring

theorem cross_len_sq {a b : V3} (ha : dot a a = 1) (hb : dot b b = 1) :
    dot a b ^ 2 + len (cross a b) ^ 2 = 1 := by
  rw [len_sq]
  unfold dot at *
  simp only [cross, Matrix.cons_val]
  grind

theorem unit_perp {k a : V3} (h : dot k a = 0) : dot (unit k) a = 0 := by
  unfold dot at *
  have : dot (unit k) a = (k 0 * a 0 + k 1 * a 1 + k 2 * a 2) / len k := by
    unfold dot unit; ring
  unfold dot at this
  rw [this, h, zero_div]

theorem a2bUnit_eq {a b : V3} (ha : dot a a = 1) (hb : dot b b = 1) :
    a2bUnit a b = some (rodM (dot a b) (len (cross a b)) (unit (a2bAxis a b))) := by
  unfold a2bUnit wxyz2rot
  rw [if_neg (a2bAxis_len ha)]
  have e := rodrigues_eq (arctan2 (len (cross a b)) (dot a b)) (unit_dot (a2bAxis_len (b := b) ha))
  obtain ⟨hc, hs⟩ := arctan2_spec (cross_len_sq ha hb)
  rw [hc, hs] at e
  exact congrArg some e

theorem a2bUnit_isRot {a b : V3} (ha : dot a a = 1) (hb : dot b b = 1) :
    IsRot (rodM (dot a b) (len (cross a b)) (unit (a2bAxis a b))) :=
  rodM_isRot (unit_dot (a2bAxis_len ha)) (cross_len_sq ha hb)

theorem a2bUnit_maps {a b : V3} (ha : dot a a = 1) (hb : dot b b = 1)
    (h : len (cross a b) = 0 ∨ ¬ isClose (len (cross a b)) 0) :
    rodM (dot a b) (len (cross a b)) (unit (a2bAxis a b)) *ᵥ a = b := by
  rw [rodM_perp (unit_perp (a2bAxis_perp a b))]
  rcases h with h | h
  · have e := cross_len_sq ha hb
    rw [h] at e ⊢
    obtain ⟨z0, z1, z2⟩ := eq_zero_of_len h
    simp only [cross, Matrix.cons_val] at z0 z1 z2
    unfold dot at *
    apply ext3 <;> grind
  · have hl : len (cross a b) ≠ 0 := by intro h0; apply h; rw [h0]; norm_num [isClose]
    have hx : a2bAxis a b = cross a b := by unfold a2bAxis; dsimp only; rw [if_neg h]
    rw [hx]
    have k (i : Fin 3) : len (cross a b) * cross (unit (cross a b)) a i = cross (cross a b) a i := by
      generalize cross a b = m at hl
      match i with
      | 0 => simp only [cross, unit, Matrix.cons_val]; field_simp
      | 1 => simp only [cross, unit, Matrix.cons_val]; field_simp
      | 2 => simp only [cross, unit, Matrix.cons_val]; field_simp
    apply ext3 <;> rw [k] <;> unfold dot at * <;> simp only [cross, Matrix.cons_val] <;> grind

theorem applyRoll_spec {b : V3} (hb : dot b b = 1) (roll : ℝ) (R : M3) :
    ∃ S, applyRoll roll b R = some (S * R) ∧ IsRot S ∧ S *ᵥ b = b ∧ S = rodM (Real.cos roll) (Real.sin roll) b := by
  unfold applyRoll
  by_cases h : roll = 0
  · rw [if_pos h, h]
    refine ⟨1, by rw [Matrix.one_mul], IsRot.one, by simp, ?_⟩
    apply ext9 <;> simp [rodM]
  · rw [if_neg h]
    unfold wxyz2rot
    rw [if_neg (by rw [len_eq_one hb]; exact one_ne_zero)]
    have e : (fun i => b i / len b) = b := unit_of_dot hb
    rw [e]
    refine ⟨rodrigues roll b, rfl, rodrigues_isRot roll hb, ?_, rodrigues_eq roll hb⟩
    rw [rodrigues_eq roll hb, rodM_axis hb]

/-- C59: for every pair of nonzero vectors and every roll, `a2b_rot` is a proper rotation. -/
theorem C59_rotation (a b : V3) (roll : ℝ) (ha : len a ≠ 0) (hb : len b ≠ 0) :
    ∃ R, a2bRot a b roll = some R ∧ IsRot R := by
  have ua := unit_dot ha
  have ub := unit_dot hb
  unfold a2bRot
  rw [if_neg (by push Not; exact ⟨ha, hb⟩), a2bUnit_eq ua ub]
  obtain ⟨S, e, hS, -⟩ := applyRoll_spec ub roll _
  exact ⟨_, e, hS.mul (a2bUnit_isRot ua ub)⟩

/-- C59: it takes the direction of `a` exactly to the direction of `b`, parallel and antiparallel vectors
included, whatever the roll.  Missing from the full statement: pairs whose directions are within 1e-8 of
parallel or antiparallel without being so (see `C59_exact_violated` and `C59_close`). -/
theorem C59_maps_partial (a b : V3) (roll : ℝ) (ha : len a ≠ 0) (hb : len b ≠ 0)
    (h : len (cross (unit a) (unit b)) = 0 ∨ 1 / 10 ^ 8 < len (cross (unit a) (unit b))) :
    ∃ R, a2bRot a b roll = some R ∧ R *ᵥ unit a = unit b := by
  have ua := unit_dot ha
  have ub := unit_dot hb
  unfold a2bRot
  rw [if_neg (by push Not; exact ⟨ha, hb⟩), a2bUnit_eq ua ub]
  obtain ⟨S, e, hS, hSb, -⟩ := applyRoll_spec ub roll _
  refine ⟨_, e, ?_⟩
  rw [← Matrix.mulVec_mulVec, a2bUnit_maps ua ub, hSb]
  rcases h with h | h
  · exact .inl h
  · right; rw [isClose_zero (len_nonneg _)]; linarith

/-- An antiparallel pair meets the hypothesis. -/
example : len ![0, 0, 2] ≠ 0 ∧ len ![0, 0, -3] ≠ 0 ∧ len (cross (unit ![0, 0, 2]) (unit ![0, 0, -3])) = 0 := by
  have h1 : len ![0, 0, 2] ≠ 0 := by
    intro h; have := (eq_zero_of_len h).2.2; simp at this
  have h2 : len ![0, 0, -3] ≠ 0 := by
    intro h; have := (eq_zero_of_len h).2.2; simp at this
  refine ⟨h1, h2, ?_⟩
  simp [len, cross, unit]

theorem cauchy (a b : V3) : dot a b ^ 2 ≤ len a ^ 2 * len b ^ 2 := by
  rw [len_sq, len_sq]
  unfold dot
  nlinarith [sq_nonneg (a 0 * b 1 - a 1 * b 0), sq_nonneg (a 0 * b 2 - a 2 * b 0), sq_nonneg (a 1 * b 2 - a 2 * b 1)]

theorem len_rot {R : M3} (h : IsRot R) (v : V3) : len (R *ᵥ v) = len v := by
  have e := IsRot_dot h v v
  rw [dot_self, dot_self] at e
  have := len_nonneg v
  have := len_nonneg (R *ᵥ v)
  nlinarith

theorem a2bUnit_close {a b : V3} (ha : dot a a = 1) (hb : dot b b = 1) :
    len (vsub (rodM (dot a b) (len (cross a b)) (unit (a2bAxis a b)) *ᵥ a) b) ≤ 2 / 10 ^ 8 := by
  by_cases h : isClose (len (cross a b)) 0
  · rw [isClose_zero (len_nonneg _)] at h
    have hk := unit_dot (a2bAxis_len (b := b) ha)
    have hp := unit_perp (a2bAxis_perp a b)
    have hR := a2bUnit_isRot ha hb
    have hd := IsRot_dot hR a a
    have e := rodM_perp (c := dot a b) (s := len (cross a b)) hp
    have cs := cross_len_sq ha hb
    have ca := cauchy (unit (a2bAxis a b)) (cross a b)
    rw [← dot_self, hk, one_mul] at ca
    have hs := len_nonneg (cross a b)
    generalize rodM (dot a b) (len (cross a b)) (unit (a2bAxis a b)) *ᵥ a = w at *
    generalize unit (a2bAxis a b) = k at *
    have hl : len (vsub w b) ^ 2 = 2 - 2 * dot w b := by
      rw [len_sq]
      rw [ha] at hd
      unfold dot vsub at *
      linear_combination hd + hb
    have hw : dot w b = dot a b ^ 2 + len (cross a b) * dot k (cross a b) := by
      rw [e]
      generalize len (cross a b) = s
      unfold dot
      simp only [cross, Matrix.cons_val]
      ring
    have hm : -len (cross a b) ≤ dot k (cross a b) := by nlinarith
    have hn := len_nonneg (vsub w b)
    have : len (vsub w b) ^ 2 ≤ (2 * len (cross a b)) ^ 2 := by
      rw [hl, hw]; nlinarith
    have := abs_le_of_sq_le_sq' this (by linarith)
    linarith [this.2]
  · rw [a2bUnit_maps ha hb (.inr h)]
    have : len (vsub b b) = 0 := by simp [len, vsub]
    rw [this]; norm_num

/-- C59: in every case, and whatever the roll, the image of the direction of `a` is within 2e-8 of the
direction of `b`. -/
theorem C59_close (a b : V3) (roll : ℝ) (ha : len a ≠ 0) (hb : len b ≠ 0) :
    ∃ R, a2bRot a b roll = some R ∧ len (vsub (R *ᵥ unit a) (unit b)) ≤ 2 / 10 ^ 8 := by
  have ua := unit_dot ha
  have ub := unit_dot hb
  unfold a2bRot
  rw [if_neg (by push Not; exact ⟨ha, hb⟩), a2bUnit_eq ua ub]
  obtain ⟨S, e, hS, hSb, -⟩ := applyRoll_spec ub roll _
  refine ⟨_, e, ?_⟩
  have h := a2bUnit_close ua ub
  rw [← len_rot hS] at h
  rw [← Matrix.mulVec_mulVec]
  have k (x : V3) : S *ᵥ vsub x (unit b) = vsub (S *ᵥ x) (unit b) := by
    conv => rhs; rw [← hSb]
    ext i
    simp only [mulVec3, vsub]
    ring
  rwa [k] at h

/-- C59: but not exactly: for `b` a billionth of a degree off `a` the rotation is about another axis. -/
theorem C59_exact_violated : ∃ a b : V3, len a ≠ 0 ∧ len b ≠ 0 ∧
    ∃ R, a2bRot a b 0 = some R ∧ R *ᵥ unit a ≠ unit b := by
  have ua : dot ex ex = 1 := by simp [dot, ex]
  have la : len ex = 1 := len_eq_one ua
  have lb : 1 ≤ len ![1, 0, 1 / 10 ^ 9] := by
    unfold len; rw [Real.one_le_sqrt]; simp
  have lb0 : len ![1, 0, 1 / 10 ^ 9] ≠ 0 := by linarith
  refine ⟨ex, ![1, 0, 1 / 10 ^ 9], by rw [la]; exact one_ne_zero, lb0, ?_⟩
  have ub := unit_dot lb0
  unfold a2bRot
  rw [if_neg (by push Not; exact ⟨by rw [la]; exact one_ne_zero, lb0⟩), unit_of_dot ua, a2bUnit_eq ua ub]
  refine ⟨_, show applyRoll 0 _ _ = some _ by unfold applyRoll; rw [if_pos rfl], ?_⟩
  intro e
  have hc : len (cross ex (unit ![1, 0, 1 / 10 ^ 9])) ≤ 1 / 10 ^ 8 := by
    apply Real.sqrt_le_iff.2
    refine ⟨by positivity, ?_⟩
    have e : cross ex (unit ![1, 0, 1 / 10 ^ 9]) 1 = -(1 / 10 ^ 9 / len ![1, 0, 1 / 10 ^ 9]) := by
      simp [cross, ex, unit]
    have e0 : cross ex (unit ![1, 0, 1 / 10 ^ 9]) 0 = 0 := by simp [cross, ex, unit]
    have e2 : cross ex (unit ![1, 0, 1 / 10 ^ 9]) 2 = 0 := by simp [cross, ex, unit]
    rw [e, e0, e2]
    have h1 : 1 / 10 ^ 9 / len ![1, 0, 1 / 10 ^ 9] ≤ 1 / 10 ^ 9 := div_le_self (by positivity) lb
    have h2 : 0 ≤ 1 / 10 ^ 9 / len ![1, 0, 1 / 10 ^ 9] := by positivity
    nlinarith
  have hx : a2bAxis ex (unit ![1, 0, 1 / 10 ^ 9]) = ![0, 0, 1] := by
    unfold a2bAxis
    dsimp only
    rw [if_pos ((isClose_zero (len_nonneg _)).2 hc), if_pos]
    · simp [cross, ex, ey]
    · rw [isClose_zero (len_nonneg _)]; simp [len, cross, ex]
  rw [hx, rodM_perp (unit_perp (by simp [dot, ex]))] at e
  have := congrFun e 2
  simp [cross, unit, ex] at this
  rcases div_eq_zero_iff.1 this.symm with h | h
  · norm_num at h
  · apply lb0; rw [one_div]; exact h

/-! ## C69: axis and angle -/

/-- C69: `wxyz2rot(angle, axis)` is the proper rotation that keeps the axis and turns every perpendicular
vector by the angle, right handed. -/
theorem C69_wxyz2rot (θ : ℝ) (k : V3) (hk : len k ≠ 0) :
    ∃ R, wxyz2rot θ k = some R ∧ IsRot R ∧ R *ᵥ k = k ∧
      ∀ v, dot k v = 0 → R *ᵥ v = fun i => Real.cos θ * v i + Real.sin θ * cross (unit k) v i := by
  have hu := unit_dot hk
  have e := rodrigues_eq θ hu
  refine ⟨rodrigues θ (unit k), by unfold wxyz2rot; rw [if_neg hk]; rfl, rodrigues_isRot θ hu, ?_, ?_⟩
  · have h := rodM_axis (c := Real.cos θ) (s := Real.sin θ) hu
    rw [e]
    have hs : k = len k • unit k := by
      ext i; simp only [unit, Pi.smul_apply, smul_eq_mul]; field_simp
    conv => lhs; arg 2; rw [hs]
    rw [Matrix.mulVec_smul, h]
    exact hs.symm
  · intro v hv
    rw [e, rodM_perp (unit_perp hv)]

example : len ![1, 2, 2] ≠ 0 := by
  intro h; have := (eq_zero_of_len h).1; simp at this

/-- C69: the quaternion of an axis and angle is a unit quaternion with the same rotation. -/
theorem C69_wxyz2quat (θ : ℝ) (k : V3) (hk : len k ≠ 0) :
    ∃ q, wxyz2quat θ k = some q ∧ IsUnit4 q ∧ wxyz2rot θ k = some (quat2rot q) := by
  have hu := unit_dot hk
  refine ⟨_, by unfold wxyz2quat; rw [if_neg hk], ?_, ?_⟩
  · have := Real.cos_sq_add_sin_sq (θ / 2)
    have h := len_sq k
    unfold IsUnit4
    field_simp
    rw [h] at *
    nlinarith
  · have hq : IsUnit4 ⟨Real.cos (θ / 2), Real.sin (θ / 2) * k 0 / len k, Real.sin (θ / 2) * k 1 / len k,
        Real.sin (θ / 2) * k 2 / len k⟩ := by
      have := Real.cos_sq_add_sin_sq (θ / 2)
      have h := len_sq k
      unfold IsUnit4
      field_simp
      rw [h] at *
      nlinarith
    have e0 := quat2rot_unit hq
    have e1 := rodrigues_eq θ hu
    unfold wxyz2rot
    rw [if_neg hk, e0, show (fun i => k i / len k) = unit k from rfl, e1]
    congr 1
    have hc : Real.cos θ = Real.cos (θ / 2) ^ 2 - Real.sin (θ / 2) ^ 2 := by
      rw [← Real.cos_two_mul', mul_div_cancel₀ _ two_ne_zero]
    have hs : Real.sin θ = 2 * Real.sin (θ / 2) * Real.cos (θ / 2) := by
      rw [← Real.sin_two_mul, mul_div_cancel₀ _ two_ne_zero]
    have h1 := Real.cos_sq_add_sin_sq (θ / 2)
    have hk0 (i : Fin 3) : Real.sin (θ / 2) * k i / len k = Real.sin (θ / 2) * unit k i := by
      unfold unit; ring
    rw [hc, hs, hk0, hk0, hk0]
    unfold dot at hu
    generalize Real.cos (θ / 2) = c at *
    generalize Real.sin (θ / 2) = t at *
    generalize unit k = u at *
    apply ext9 <;> simp only [rodM, rotOf, Matrix.of_apply, Matrix.cons_val] <;> grind

theorem angleAbout_spec {R : M3} (hR : IsRot R) {u : V3} (hu : dot u u = 1) (hf : R *ᵥ u = u) :
    0 ≤ (angleAbout R u).1 ∧ (angleAbout R u).1 ≤ Real.pi ∧ dot (angleAbout R u).2 (angleAbout R u).2 = 1 ∧
    rodrigues (angleAbout R u).1 (angleAbout R u).2 = R := by
  unfold angleAbout
  generalize ha : (if len (vsub ex u) < 1 / 10 ∨ len (vsub ex u) > 19 / 10 then ey else ex) = a
  have hl : len (cross a u) ≠ 0 := by
    have e := len_sq (vsub ex u)
    have hn := len_nonneg (vsub ex u)
    have e' : len (vsub ex u) ^ 2 = 2 - 2 * u 0 := by
      rw [e]
      unfold dot at hu
      simp [vsub, ex]
      linear_combination hu
    intro h0
    obtain ⟨z0, z1, z2⟩ := eq_zero_of_len h0
    split at ha
    · next h =>
      subst ha
      simp [cross, ey] at z0 z2
      rw [z2] at e'
      rcases h with h | h <;> nlinarith
    · next h =>
      subst ha
      push Not at h
      simp [cross, ex] at z1 z2
      unfold dot at hu
      rw [z1, z2] at hu
      have hu' : (u 0 - 1) * (u 0 + 1) = 0 := by linear_combination hu
      rcases mul_eq_zero.1 hu' with h1 | h1
      · have : u 0 = 1 := by linarith
        rw [this] at e'; nlinarith
      · have : u 0 = -1 := by linarith
        rw [this] at e'; nlinarith
  have hb := unit_dot hl
  have hub : dot u (unit (cross a u)) = 0 := by
    have : dot (unit (cross a u)) u = 0 := unit_perp (by simp [dot, cross]; ring)
    unfold dot at *; linarith
  dsimp only
  generalize unit (cross a u) = b at *
  have hRb : unit (R *ᵥ b) = R *ᵥ b := unit_of_dot (by rw [IsRot_dot hR, hb])
  rw [hRb]
  obtain ⟨e, hcs⟩ := eq_rodM hR hu hb hub hf
  generalize dot b (R *ᵥ b) = c at *
  generalize dot (cross b (R *ᵥ b)) u = t at *
  have hc1 : -1 ≤ c := by nlinarith
  have hc2 : c ≤ 1 := by nlinarith
  have hclip : clip c = c := by unfold clip; rw [min_eq_left hc2, max_eq_right hc1]
  rw [hclip]
  have hsin : Real.sin (Real.arccos c) = |t| := by
    rw [Real.sin_arccos, show 1 - c ^ 2 = t ^ 2 by linarith, Real.sqrt_sq_eq_abs]
  refine ⟨Real.arccos_nonneg c, Real.arccos_le_pi c, ?_, ?_⟩
  · split
    · unfold dot vsmul at *; linarith
    · exact hu
  · split
    · next h =>
      have hu' : dot (vsmul (-1) u) (vsmul (-1) u) = 1 := by unfold dot vsmul at *; linarith
      rw [rodrigues_eq _ hu', rodM_neg, Real.cos_arccos hc1 hc2, hsin, abs_of_neg h, neg_neg]
      exact e.symm
    · next h =>
      rw [rodrigues_eq _ hu, Real.cos_arccos hc1 hc2, hsin, abs_of_nonneg (by linarith)]
      exact e.symm

theorem rotOf_axis {q : Quat} (h : IsUnit4 q) : rotOf q *ᵥ ![q.x, q.y, q.z] = ![q.x, q.y, q.z] := by
  unfold IsUnit4 at h
  apply ext3 <;> rw [mulVec3] <;> simp [rotOf] <;> grind

/-- The quick axis is fixed by the rotation. -/
theorem quickAxis_fixed {R : M3} (hR : IsRot R) : R *ᵥ quickAxis R = quickAxis R := by
  obtain ⟨q, hq, rfl⟩ := exists_quat hR
  have e : quickAxis (rotOf q) = (4 * q.w) • ![q.x, q.y, q.z] := by
    apply ext3 <;> simp [quickAxis, rotOf] <;> ring
  rw [e, Matrix.mulVec_smul, rotOf_axis hq]

theorem fixed_unit {R : M3} {v : V3} (h : R *ᵥ v = v) : R *ᵥ unit v = unit v := by
  have e : unit v = (1 / len v) • v := by ext i; simp only [unit, Pi.smul_apply, smul_eq_mul]; ring
  rw [e, Matrix.mulVec_smul, h]

theorem len_ne_zero {v : V3} (h : v ≠ 0) : len v ≠ 0 := by
  intro e
  obtain ⟨a, b, c⟩ := eq_zero_of_len e
  exact h (ext3 a b c)

/-- Every rotation fixes some nonzero vector. -/
theorem exists_fixed {R : M3} (hR : IsRot R) : ∃ v : V3, v ≠ 0 ∧ R *ᵥ v = v := by
  obtain ⟨q, hq, rfl⟩ := exists_quat hR
  by_cases h : (![q.x, q.y, q.z] : V3) = 0
  · have h0 := congrFun h 0
    have h1 := congrFun h 1
    have h2 := congrFun h 2
    simp at h0 h1 h2
    have : rotOf q = 1 := by apply ext9 <;> simp [rotOf, h0, h1, h2]
    rw [this]
    exact ⟨ex, fun e => by have := congrFun e 0; simp [ex] at this, by simp⟩
  · exact ⟨_, h, rotOf_axis hq⟩

/-- C69: for every rotation matrix (whose antisymmetric part is zero or above the comparison tolerance)
`rot2wxyz` with the default quick method returns an angle between 0 and pi and a unit axis that give back the
matrix, whichever eigenvectors the solver returns. -/
theorem C69_rot2wxyz (R : M3) (hR : IsRot R)
    (h : len (quickAxis R) = 0 ∨ 1 / 10 ^ 8 < len (quickAxis R)) (r : ℝ × V3) (hr : Rot2Wxyz true R r) :
    0 ≤ r.1 ∧ r.1 ≤ Real.pi ∧ len r.2 = 1 ∧ wxyz2rot r.1 r.2 = some R := by
  have key : ∃ u, dot u u = 1 ∧ R *ᵥ u = u ∧ r = angleAbout R u := by
    unfold Rot2Wxyz at hr
    simp only [if_true] at hr
    rcases hr with ⟨hc, e⟩ | ⟨hc, lam, e, he, heig, hmin, hre⟩
    · have hl : len (quickAxis R) ≠ 0 := by
        intro h0; apply hc; rw [h0]; norm_num [isClose]
      exact ⟨_, unit_dot hl, fixed_unit (quickAxis_fixed hR), e⟩
    · rw [isClose_zero (len_nonneg _)] at hc
      have h0 : len (quickAxis R) = 0 := by
        rcases h with h | h
        · exact h
        · linarith
      obtain ⟨z0, z1, z2⟩ := eq_zero_of_len h0
      simp [quickAxis] at z0 z1 z2
      have hsym : symLower R = R := by
        apply ext9 <;> simp [symLower] <;> linarith
      rw [hsym] at heig hmin
      obtain ⟨v, hv, hfv⟩ := exists_fixed hR
      have := hmin 1 v hv (by rw [hfv, one_smul])
      simp at this
      have hl : lam = 1 := by linarith
      rw [hl, one_smul] at heig
      exact ⟨_, unit_dot (len_ne_zero he), fixed_unit heig, hre⟩
  obtain ⟨u, hu, hf, rfl⟩ := key
  obtain ⟨h1, h2, h3, h4⟩ := angleAbout_spec hR hu hf
  refine ⟨h1, h2, len_eq_one h3, ?_⟩
  unfold wxyz2rot
  rw [if_neg (by rw [len_eq_one h3]; exact one_ne_zero), show (fun i => (angleAbout R u).2 i / len (angleAbout R u).2) =
    unit (angleAbout R u).2 from rfl, unit_of_dot h3, h4]

/-- A half turn about z (zero antisymmetric part) and a quarter turn about z meet the hypotheses. -/
example : IsRot !![-1, 0, 0; 0, -1, 0; 0, 0, 1] ∧ len (quickAxis !![-1, 0, 0; 0, -1, 0; 0, 0, 1]) = 0 := by
  refine ⟨by apply isRot_of_entries <;> simp [Matrix.det_fin_three], by simp [len, quickAxis]⟩

example : IsRot !![0, -1, 0; 1, 0, 0; 0, 0, 1] ∧ 1 / 10 ^ 8 < len (quickAxis !![0, -1, 0; 1, 0, 0; 0, 0, 1]) := by
  refine ⟨by apply isRot_of_entries <;> simp [Matrix.det_fin_three], ?_⟩
  have : quickAxis !![0, -1, 0; 1, 0, 0; 0, 0, 1] = ![0, 0, 2] := by
    apply ext3 <;> simp [quickAxis]; norm_num
  rw [this]
  unfold len
  apply Real.lt_sqrt_of_sq_lt
  simp; norm_num

/-- C69: with `quick=False` the eigenvectors of the wrong matrix are used (`eigh` reads the lower triangle of
a matrix that is not symmetric): for the cyclic permutation of the axes, a rotation by 120 degrees, no result
it may return is the rotation. -/
theorem C69_not_quick_violated : ∃ R : M3, IsRot R ∧ (∃ r, Rot2Wxyz false R r) ∧
    ∀ r, Rot2Wxyz false R r → wxyz2rot r.1 r.2 ≠ some R := by
  have h2 : √(2 : ℝ) * √2 = 2 := Real.mul_self_sqrt (by norm_num)
  have h2a : 1 < √(2 : ℝ) := by
    have := Real.sqrt_nonneg (2 : ℝ); nlinarith
  have h2b : √(2 : ℝ) < 3 / 2 := by
    have := Real.sqrt_nonneg (2 : ℝ); nlinarith
  let R : M3 := !![0, 0, 1; 1, 0, 0; 0, 1, 0]
  have hS : symLower R = !![0, 1, 0; 1, 0, 1; 0, 1, 0] := by
    apply ext9 <;> simp [symLower, R]
  have eig (mu : ℝ) (e : V3) (he : e ≠ 0) (h : symLower R *ᵥ e = mu • e) :
      mu = 0 ∨ mu = -√2 ∨ (mu = √2 ∧ e 1 = √2 * e 0 ∧ e 2 = e 0 ∧ e 0 ≠ 0) := by
    rw [hS] at h
    have e0 := congrFun h 0
    have e1 := congrFun h 1
    have e2 := congrFun h 2
    rw [mulVec3] at e0 e1 e2
    simp at e0 e1 e2
    by_cases hm : mu = 0
    · exact .inl hm
    · right
      have e02 : e 2 = e 0 := by
        have : mu * (e 2 - e 0) = 0 := by linarith
        rcases mul_eq_zero.1 this with h | h
        · exact absurd h hm
        · linarith
      have hne : e 0 ≠ 0 := by
        intro h0
        apply he
        rw [h0, mul_zero] at e0
        exact ext3 h0 e0 (by rw [e02, h0]; rfl)
      have hm2 : (mu - √2) * (mu + √2) = 0 := by
        have : e 0 * ((mu - √2) * (mu + √2)) = 0 := by
          rw [e02, e0] at e1
          linear_combination -e1 - e 0 * h2
        rcases mul_eq_zero.1 this with h | h
        · exact absurd h hne
        · exact h
      rcases mul_eq_zero.1 hm2 with h | h
      · right
        have : mu = √2 := by linarith
        exact ⟨this, by rw [← this]; exact e0, e02, hne⟩
      · left; linarith
  have top : symLower R *ᵥ ![1, √2, 1] = √2 • ![1, √2, 1] := by
    rw [hS]
    apply ext3 <;> rw [mulVec3] <;> simp
    norm_num
  have topne : (![1, √2, 1] : V3) ≠ 0 := fun e => by have := congrFun e 0; simp at this
  have cl : isClose (len fun _ => 0) 0 := by
    rw [isClose_zero (len_nonneg _)]; simp [len]
  refine ⟨R, ?_, ⟨angleAbout R (unit ![1, √2, 1]), .inr ⟨?_, √2, _, topne, top, ?_, rfl⟩⟩, ?_⟩
  · apply isRot_of_entries <;> simp [Matrix.det_fin_three, R]
  · simpa using cl
  · intro mu e' he' h'
    rw [abs_of_pos (by linarith)]
    rcases eig mu e' he' h' with rfl | rfl | ⟨rfl, -⟩
    · norm_num
    · rw [abs_of_neg (by linarith)]; linarith
    · exact le_abs_self _
  · intro r hr hw
    unfold Rot2Wxyz at hr
    simp only [Bool.false_eq_true, if_false] at hr
    rcases hr with ⟨hc, -⟩ | ⟨-, lam, e, he, heig, hmin, rfl⟩
    · exact hc cl
    · have hm := hmin _ _ topne top
      rw [abs_of_pos (a := √2 - 1) (by linarith)] at hm
      have hl := eig lam e he heig
      have hl : e 1 = √2 * e 0 ∧ e 2 = e 0 ∧ e 0 ≠ 0 := by
        rcases hl with rfl | rfl | ⟨-, h⟩
        · norm_num at hm; linarith
        · rw [abs_of_neg (by linarith)] at hm; linarith
        · exact h
      obtain ⟨k1, k2, k3⟩ := hl
      have hax : (angleAbout R (unit e)).2 = unit e ∨ (angleAbout R (unit e)).2 = vsmul (-1) (unit e) := by
        unfold angleAbout; exact (ite_eq_or_eq _ _ _).symm
      have hle := len_ne_zero he
      have fix : R *ᵥ e = e := by
        have key : ∀ c : ℝ, c ≠ 0 → (angleAbout R (unit e)).2 = (c • e : V3) → R *ᵥ e = e := by
          intro c hc hx
          have hne : len (c • e) ≠ 0 := len_ne_zero (smul_ne_zero hc he)
          obtain ⟨R', h1, -, h3, -⟩ := C69_wxyz2rot (angleAbout R (unit e)).1 (c • e) hne
          rw [hx, h1] at hw
          have : R' = R := Option.some.inj hw
          rw [this, Matrix.mulVec_smul] at h3
          exact smul_right_injective _ hc h3
        rcases hax with hx | hx
        · apply key (1 / len e) (by positivity)
          rw [hx]; ext i; simp only [unit, Pi.smul_apply, smul_eq_mul]; ring
        · apply key (-(1 / len e)) (by simpa using hle)
          rw [hx]; ext i; simp only [unit, vsmul, Pi.smul_apply, smul_eq_mul]; ring
      have := congrFun fix 1
      rw [mulVec3] at this
      simp [R] at this
      rw [k1] at this
      have : (√2 - 1) * e 0 = 0 := by linarith
      rcases mul_eq_zero.1 this with h | h
      · linarith
      · exact k3 h

/-! ## C70: choosing the image of the x axis -/

theorem sgn_mul_abs (x : ℝ) : sgn x * |x| = x := by
  unfold sgn
  split
  · next h => rw [abs_of_pos h, one_mul]
  · split
    · next h => rw [abs_of_neg h]; ring
    · next h1 h2 =>
      have : x = 0 := by linarith
      rw [this]; simp

theorem perp_cross {b c n : V3} (hb : dot b b = 1) (hc : dot b c = 0) (hn : dot b n = 0) :
    len (cross c n) = |dot (cross c n) b| := by
  rw [← Real.sqrt_sq_eq_abs]
  unfold len
  congr 1
  unfold dot at *
  simp only [cross, Matrix.cons_val]
  grind

/-- The roll turns the current x axis onto the new one, unless they are opposite. -/
theorem newXRoll_spec {b newx : V3} (hb : dot b b = 1) {R : M3} (hR : IsRot R) (hcx : dot b (R *ᵥ ex) = 0)
    (hl : 1 / 10 ^ 8 < len (vsub newx (vsmul (dot newx b) b))) :
    (rodM (Real.cos (newXRoll b newx R)) (Real.sin (newXRoll b newx R)) b *ᵥ (R *ᵥ ex)
      = unit (vsub newx (vsmul (dot newx b) b))) ∨
    (newXRoll b newx R = 0 ∧ R *ᵥ ex = vsmul (-1) (unit (vsub newx (vsmul (dot newx b) b)))) := by
  have hxx : dot (R *ᵥ ex) (R *ᵥ ex) = 1 := by rw [IsRot_dot hR]; simp [dot, ex]
  unfold newXRoll
  dsimp only
  rw [if_neg (by rw [isClose_zero (len_nonneg _)]; linarith), unit_of_dot hxx]
  have hnb : dot b (unit (vsub newx (vsmul (dot newx b) b))) = 0 := by
    have : dot (unit (vsub newx (vsmul (dot newx b) b))) b = 0 := by
      apply unit_perp
      unfold dot vsub vsmul at *
      linear_combination (-(newx 0 * b 0 + newx 1 * b 1 + newx 2 * b 2)) * hb
    unfold dot at *; linarith
  have hnn := unit_dot (v := vsub newx (vsmul (dot newx b) b)) (by linarith [len_nonneg (vsub newx (vsmul (dot newx b) b))])
  generalize unit (vsub newx (vsmul (dot newx b) b)) = n at *
  generalize R *ᵥ ex = c at *
  have e := perp_expand hb hxx hcx hnb
  have hlen := perp_cross hb hcx hnb
  have cs := cross_len_sq hxx hnn
  obtain ⟨h1, h2⟩ := arctan2_spec cs
  generalize hθ : arctan2 (len (cross c n)) (dot c n) = θ at *
  rw [hlen] at h2 cs
  generalize ht : dot (cross c n) b = t at *
  by_cases h0 : t = 0
  · have hs : sgn t = 0 := by rw [h0]; simp [sgn]
    rw [hs, mul_zero]
    rw [h0] at cs e
    have : (dot c n - 1) * (dot c n + 1) = 0 := by rw [abs_zero] at cs; linear_combination cs
    rcases mul_eq_zero.1 this with h | h
    · left
      have h : dot c n = 1 := by linarith
      rw [h] at e
      rw [Real.cos_zero, Real.sin_zero, rodM_perp hcx]
      exact e.symm
    · right
      have h : dot c n = -1 := by linarith
      rw [h] at e
      refine ⟨rfl, ?_⟩
      have hn (i : Fin 3) : n i = -c i := by rw [e]; ring
      ext i; unfold vsmul; rw [hn]; ring
  · left
    have hcos : Real.cos (θ * sgn t) = dot c n := by
      unfold sgn
      split
      · rw [mul_one, h1]
      · split
        · rw [mul_neg, mul_one, Real.cos_neg, h1]
        · exact absurd (by linarith) h0
    have hsin : Real.sin (θ * sgn t) = t := by
      unfold sgn
      split
      · next h => rw [mul_one, h2, abs_of_pos h]
      · split
        · next h => rw [mul_neg, mul_one, Real.sin_neg, h2, abs_of_neg h, neg_neg]
        · exact absurd (by linarith) h0
    rw [hcos, hsin, rodM_perp hcx]
    exact e.symm

/-- C70: `a2b_rot(a, b, new_x=n)`, for `a` perpendicular to the x axis, is a rotation that takes `a` to `b`
and the x axis to the direction of the part of `n` perpendicular to `b`.  Missing from the full statement: when
the rotation without roll takes the x axis exactly opposite to that direction, no roll is done at all (see
`C70_opposite_violated`). -/
theorem C70_new_x_partial (a b n : V3) (ha : len a ≠ 0) (hb : len b ≠ 0) (hx : a 0 = 0)
    (h : len (cross (unit a) (unit b)) = 0 ∨ 1 / 10 ^ 8 < len (cross (unit a) (unit b)))
    (hn : 1 / 10 ^ 8 < len (vsub n (vsmul (dot n (unit b)) (unit b)))) :
    ∃ R, a2bRotNewX a b n = some R ∧ IsRot R ∧ R *ᵥ unit a = unit b ∧
      (R *ᵥ ex = unit (vsub n (vsmul (dot n (unit b)) (unit b))) ∨
        (a2bRot a b 0 = some R ∧ R *ᵥ ex = vsmul (-1) (unit (vsub n (vsmul (dot n (unit b)) (unit b)))))) := by
  have ua := unit_dot ha
  have ub := unit_dot hb
  have h' : len (cross (unit a) (unit b)) = 0 ∨ ¬ isClose (len (cross (unit a) (unit b))) 0 := by
    rcases h with h | h
    · exact .inl h
    · right; rw [isClose_zero (len_nonneg _)]; linarith
  have hm := a2bUnit_maps ua ub h'
  have hR := a2bUnit_isRot ua ub
  have e0 : a2bRot a b 0 = some (rodM (dot (unit a) (unit b)) (len (cross (unit a) (unit b)))
      (unit (a2bAxis (unit a) (unit b)))) := by
    unfold a2bRot
    rw [if_neg (by push Not; exact ⟨ha, hb⟩), a2bUnit_eq ua ub]
    show applyRoll 0 _ _ = _
    unfold applyRoll; rw [if_pos rfl]
  rw [e0]
  unfold a2bRotNewX
  rw [if_neg (by push Not; exact ⟨ha, hb⟩), a2bUnit_eq ua ub]
  generalize rodM (dot (unit a) (unit b)) (len (cross (unit a) (unit b)))
      (unit (a2bAxis (unit a) (unit b))) = R at *
  have hcx : dot (unit b) (R *ᵥ ex) = 0 := by
    rw [← hm, IsRot_dot hR]
    simp [dot, ex, unit, hx]
  obtain ⟨S, e, hS, hSb, hSe⟩ := applyRoll_spec ub (newXRoll (unit b) n R) R
  refine ⟨S * R, e, hS.mul hR, by rw [← Matrix.mulVec_mulVec, hm, hSb], ?_⟩
  rcases newXRoll_spec ub hR hcx hn with g | ⟨g1, g2⟩
  · left
    rw [← Matrix.mulVec_mulVec, hSe, g]
  · right
    have : S = 1 := by
      rw [hSe, g1]
      apply ext9 <;> simp [rodM]
    rw [this, Matrix.one_mul]
    exact ⟨rfl, g2⟩

def ez : V3 := ![0, 0, 1]

theorem ez_unit : dot ez ez = 1 := by simp [dot, ez]

/-- Turning z onto itself and x onto y meets the hypotheses. -/
example : len ez ≠ 0 ∧ ez 0 = 0 ∧ len (cross (unit ez) (unit ez)) = 0 ∧
    1 / 10 ^ 8 < len (vsub ey (vsmul (dot ey (unit ez)) (unit ez))) := by
  rw [unit_of_dot ez_unit]
  refine ⟨by rw [len_eq_one ez_unit]; exact one_ne_zero, rfl, by simp [len, cross, ez], ?_⟩
  have : vsub ey (vsmul (dot ey ez) ez) = ey := by apply ext3 <;> simp [vsub, vsmul, dot, ey, ez]
  rw [this, len_eq_one (by simp [dot, ey])]
  norm_num

/-- C70: asked to keep z and to turn x onto -x, `a2b_rot` returns a rotation that keeps x. -/
theorem C70_opposite_violated : ∃ R, a2bRotNewX ez ez ![-1, 0, 0] = some R ∧ R *ᵥ ex = ex := by
  have hl : len ez ≠ 0 := by rw [len_eq_one ez_unit]; exact one_ne_zero
  unfold a2bRotNewX
  rw [if_neg (by push Not; exact ⟨hl, hl⟩), unit_of_dot ez_unit, a2bUnit_eq ez_unit ez_unit]
  have hR : rodM (dot ez ez) (len (cross ez ez)) (unit (a2bAxis ez ez)) = 1 := by
    have h1 : len (cross ez ez) = 0 := by simp [len, cross, ez]
    rw [ez_unit, h1]
    apply ext9 <;> simp [rodM]
  rw [hR]
  have e : newXRoll ez ![-1, 0, 0] 1 = 0 := by
    have hp : vsub ![-1, 0, 0] (vsmul (dot ![-1, 0, 0] ez) ez) = ![-1, 0, 0] := by
      apply ext3 <;> simp [vsub, vsmul, dot, ez]
    have hu : dot ![-1, 0, 0] ![-1, 0, 0] = 1 := by simp [dot]
    unfold newXRoll
    dsimp only
    rw [hp, if_neg (by rw [isClose_zero (len_nonneg _), len_eq_one hu]; norm_num), unit_of_dot hu]
    have : dot (cross (unit (1 *ᵥ ex)) ![-1, 0, 0]) ez = 0 := by
      rw [Matrix.one_mulVec, unit_of_dot (by simp [dot, ex])]
      simp [dot, cross, ex, ez]
    rw [this]
    simp [sgn]
  refine ⟨1, ?_, by simp⟩
  show applyRoll _ _ _ = _
  rw [e]
  unfold applyRoll
  rw [if_pos rfl]

end Viscid.Props
