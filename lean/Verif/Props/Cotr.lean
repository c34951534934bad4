import Verif.Lemmas.Cotr
import Verif.Lemmas.Rodrigues
import Mathlib.Tactic.NormNum
import Mathlib.Analysis.SpecialFunctions.Trigonometric.Inverse
/-!
# C45, C46, C47: coordinate transforms between geophysical systems

`after p h` is an object constructed with `p`, after the history of calls `h`.
-/
namespace Viscid.Props
open Matrix Viscid.Rotation Viscid.Spec.Rotation Viscid.Cotr

theorem mat_ok {p : Params} {a b : Sys} {M : M3} (h : matR p a b = .ok M) :
    a ∈ geocentric ∧ b ∈ geocentric ∧ magBlocked p a b = false ∧ M = F p b * (F p a)ᵀ := by
  unfold matR at h
  split at h
  · rename_i hg
    split at h
    · cases h
    · rename_i hm
      refine ⟨hg.1, hg.2, by simpa using hm, ?_⟩
      simpa using h.symm
  · split at h
    · cases h
    · split at h <;> cases h

theorem matR_ok (p : Params) {a b : Sys} (ha : a ∈ geocentric) (hb : b ∈ geocentric)
    (hm : magBlocked p a b = false) : matR p a b = .ok (F p b * (F p a)ᵀ) := by
  unfold matR
  rw [if_pos ⟨ha, hb⟩, hm]
  rfl

theorem not_helio {a : Sys} (ha : a ∈ geocentric) : a ∉ heliocentric := by
  simp only [geocentric, List.mem_cons, List.not_mem_nil, or_false] at ha
  rcases ha with rfl | rfl | rfl | rfl | rfl | rfl | rfl <;> simp [heliocentric]

theorem transformR_ok (p : Params) {a b : Sys} (ha : a ∈ geocentric) (hb : b ∈ geocentric)
    (hm : magBlocked p a b = false) (v : V3) :
    transformR p a b v = .ok ((F p b * (F p a)ᵀ) *ᵥ v) := by
  unfold transformR
  rw [if_neg (fun h => not_helio ha h.1), if_neg (fun h => not_helio hb h.2), matR_ok p ha hb hm]
  rfl

theorem transform_ok {p : Params} {a b : Sys} {v w : V3} (h : transformR p a b v = .ok w) :
    a ∈ geocentric ∧ b ∈ geocentric ∧ magBlocked p a b = false ∧ w = (F p b * (F p a)ᵀ) *ᵥ v := by
  unfold transformR at h
  split at h
  · cases h
  · split at h
    · cases h
    · cases hm : matR p a b with
      | error e => rw [hm] at h; cases h
      | ok M =>
        rw [hm] at h
        have := mat_ok hm
        refine ⟨this.1, this.2.1, this.2.2.1, ?_⟩
        rw [← this.2.2.2]
        have h : Except.ok (M *ᵥ v) = (Except.ok w : Except Cotr.Err V3) := h
        simpa using h.symm

/-- **C45, histories.** A transform has the same outcome, value or exception, whatever was computed
    before. -/
theorem C45_history_independent (p : Params) (h : List Call) (a b : Sys) (v : V3) :
    (transformMatrix p a b (after p h)).1 = (transformMatrix p a b (init p)).1 ∧
    (transform p a b v (after p h)).1 = (transform p a b v (init p)).1 := by
  rw [(transformMatrix_tri p a b _ (after_inv p h)).1, (transformMatrix_tri p a b _ (init_inv p)).1,
    (transform_tri p a b v _ (after_inv p h)).1, (transform_tri p a b v _ (init_inv p)).1]
  exact ⟨rfl, rfl⟩

/-- **C45, composition.** a to b to c is a to c, for all names of systems and all histories. -/
theorem C45_compose (p : Params) (h₁ h₂ h₃ : List Call) (a b c : Sys) (u v w : V3)
    (hab : (transform p a b u (after p h₁)).1 = .ok v) (hbc : (transform p b c v (after p h₂)).1 = .ok w) :
    (transform p a c u (after p h₃)).1 = .ok w := by
  rw [(transform_tri p _ _ _ _ (after_inv p _)).1] at hab hbc ⊢
  obtain ⟨ha, hb, m1, rfl⟩ := transform_ok hab
  obtain ⟨-, hc, m2, rfl⟩ := transform_ok hbc
  have m3 : magBlocked p a c = false := by
    unfold magBlocked at *
    revert m1 m2
    cases noMag p <;> cases decide (a = Sys.mag) <;> cases decide (b = Sys.mag) <;> cases decide (c = Sys.mag) <;> simp
  rw [transformR_ok p ha hc m3]
  congr 1
  rw [Matrix.mulVec_mulVec, Matrix.mul_assoc, cancelT' (F_isRot p b).1]

/-- **C45, identity.** -/
theorem C45_identity (p : Params) (h : List Call) (a : Sys) (ha : a ∈ geocentric) (v : V3) :
    (transform p a a v (after p h)).1 = .ok v := by
  rw [(transform_tri p _ _ _ _ (after_inv p _)).1,
    transformR_ok p ha ha (by unfold magBlocked; cases noMag p <;> simp), (F_isRot p a).1, Matrix.one_mulVec]

example (p : Params) : (transform p .sm .sm ![1, 2, 3] (after p [])).1 = .ok ![1, 2, 3] :=
  C45_identity p [] .sm (by decide) _

/-- **C45, inverse.** -/
theorem C45_inverse (p : Params) (h₁ h₂ : List Call) (a b : Sys) (v w : V3)
    (hab : (transform p a b v (after p h₁)).1 = .ok w) : (transform p b a w (after p h₂)).1 = .ok v := by
  rw [(transform_tri p _ _ _ _ (after_inv p _)).1] at hab ⊢
  obtain ⟨ha, hb, m1, rfl⟩ := transform_ok hab
  rw [transformR_ok p hb ha (magBlocked_symm p a b ▸ m1), Matrix.mulVec_mulVec]
  congr 1
  rw [Matrix.mul_assoc, cancelT' (F_isRot p b).1, (F_isRot p a).1, Matrix.one_mulVec]

/-- **C45, rotations.** The matrices are rotations, and `transform` applies them. -/
theorem C45_rotation (p : Params) (h₁ h₂ : List Call) (a b : Sys) (M : M3)
    (hM : (transformMatrix p a b (after p h₁)).1 = .ok M) :
    IsRot M ∧ ∀ v, (transform p a b v (after p h₂)).1 = .ok (M *ᵥ v) := by
  rw [(transformMatrix_tri p _ _ _ (after_inv p _)).1] at hM
  obtain ⟨ha, hb, m, rfl⟩ := mat_ok hM
  refine ⟨(F_isRot p b).mul (F_isRot p a).transpose, fun v => ?_⟩
  rw [(transform_tri p _ _ _ _ (after_inv p _)).1, transformR_ok p ha hb m]

/-- **C45, when a transform exists.** Between geocentric systems always, unless the dipole angles were
    given by hand (not on the special day) and exactly one of the two systems is mag. -/
theorem C45_defined (p : Params) (h : List Call) (a b : Sys) (ha : a ∈ geocentric) (hb : b ∈ geocentric) (v : V3) :
    if (p.dipTilt.isSome = true ∨ p.dipGsm.isSome = true) ∧ p.notilt = false ∧ ((a = .mag) ≠ (b = .mag))
    then (transform p a b v (after p h)).1 = .error .runtimeError
    else ∃ w, (transform p a b v (after p h)).1 = .ok w := by
  rw [(transform_tri p _ _ _ _ (after_inv p _)).1]
  have key : ((p.dipTilt.isSome = true ∨ p.dipGsm.isSome = true) ∧ p.notilt = false ∧ ((a = .mag) ≠ (b = .mag))) ↔
      magBlocked p a b = true := by
    unfold magBlocked noMag Params.disabled
    by_cases h1 : a = .mag <;> by_cases h2 : b = .mag <;> simp [h1, h2]
  by_cases hm : magBlocked p a b = true
  · rw [if_pos (key.2 hm)]
    unfold transformR
    rw [if_neg (fun h => not_helio ha h.1), if_neg (fun h => not_helio hb h.2)]
    unfold matR
    rw [if_pos ⟨ha, hb⟩, if_pos hm]
    rfl
  · rw [if_neg (fun h => hm (key.1 h))]
    exact ⟨_, transformR_ok p ha hb (by simpa using hm) v⟩

/-- **C45, other names** are refused: no transform to or from anything but the seven systems. -/
theorem C45_refused (p : Params) (h : List Call) (a b : Sys) (hn : ¬ (a ∈ geocentric ∧ b ∈ geocentric)) (v : V3) :
    ∃ e, (transform p a b v (after p h)).1 = .error e := by
  rw [(transform_tri p _ _ _ _ (after_inv p _)).1]
  cases hr : transformR p a b v with
  | error e => exact ⟨e, rfl⟩
  | ok w => have := transform_ok hr; exact absurd ⟨this.1, this.2.1⟩ hn

/-- The hypotheses of C45 are met: with the default parameters, three transformations after one another and back. -/
example : ∃ v w : V3, (transform { days := 10957 } .gse .gsm ![1, 2, 3] (after { days := 10957 } [])).1 = .ok v ∧
    (transform { days := 10957 } .gsm .sm v (after { days := 10957 } [])).1 = .ok w ∧
    (transform { days := 10957 } .gse .sm ![1, 2, 3] (after { days := 10957 } [])).1 = .ok w ∧
    (transform { days := 10957 } .sm .gse w (after { days := 10957 } [])).1 = .ok ![1, 2, 3] := by
  have d1 := C45_defined { days := 10957 } [] .gse .gsm (by decide) (by decide) ![1, 2, 3]
  rw [if_neg (by rintro ⟨h | h, -⟩ <;> cases h)] at d1
  obtain ⟨v, hv⟩ := d1
  have d2 := C45_defined { days := 10957 } [] .gsm .sm (by decide) (by decide) v
  rw [if_neg (by rintro ⟨h | h, -⟩ <;> cases h)] at d2
  obtain ⟨w, hw⟩ := d2
  have h3 := C45_compose { days := 10957 } [] [] [] .gse .gsm .sm _ v w hv hw
  exact ⟨v, w, hv, hw, h3, C45_inverse { days := 10957 } [] [] .gse .sm _ _ h3⟩

/-! ### Angles -/

theorem makeRotation_eq (t : ℝ) (ax : Ax) : makeRotation t ax = match ax with
    | .x => !![1, 0, 0; 0, Real.cos (deg2rad t), Real.sin (deg2rad t); 0, -Real.sin (deg2rad t), Real.cos (deg2rad t)]
    | .y => !![Real.cos (deg2rad t), 0, Real.sin (deg2rad t); 0, 1, 0; -Real.sin (deg2rad t), 0, Real.cos (deg2rad t)]
    | .z => !![Real.cos (deg2rad t), Real.sin (deg2rad t), 0; -Real.sin (deg2rad t), Real.cos (deg2rad t), 0; 0, 0, 1] := by
  unfold makeRotation
  dsimp only
  split
  · rename_i h
    have hd : deg2rad t = 0 := by rw [h]; simp [deg2rad]
    rw [hd]
    cases ax <;> apply ext9 <;> simp
  · rfl

theorem deg_rad (x : ℝ) : deg2rad (rad2deg x) = x := by
  unfold deg2rad rad2deg
  have := Real.pi_pos.ne'
  field_simp

theorem deg_rad_neg (x : ℝ) : deg2rad (-rad2deg x) = -x := by
  have : deg2rad (-rad2deg x) = -deg2rad (rad2deg x) := by unfold deg2rad; ring
  rw [this, deg_rad]

theorem deg_rad_sub (x : ℝ) : deg2rad (rad2deg x - 90) = x - Real.pi / 2 := by
  have : deg2rad (rad2deg x - 90) = deg2rad (rad2deg x) - Real.pi / 2 := by unfold deg2rad; ring
  rw [this, deg_rad]

theorem arctan2_polar (y x : ℝ) : √(x ^ 2 + y ^ 2) * Real.cos (arctan2 y x) = x ∧
    √(x ^ 2 + y ^ 2) * Real.sin (arctan2 y x) = y := by
  have hn : ‖(⟨x, y⟩ : ℂ)‖ = √(x ^ 2 + y ^ 2) := by
    rw [Complex.norm_def, Complex.normSq_mk]; congr 1; ring
  have h1 := Complex.norm_mul_cos_arg (⟨x, y⟩ : ℂ)
  have h2 := Complex.norm_mul_sin_arg (⟨x, y⟩ : ℂ)
  rw [hn] at h1 h2
  exact ⟨h1, h2⟩

/-- The two rotations by the dipole angles of a vector bring it to the z axis. -/
theorem tilt_rot (v : V3) :
    makeRotation (-rad2deg (arctan2 (v 1) (v 2))) .x *ᵥ v = ![v 0, 0, √(v 2 ^ 2 + v 1 ^ 2)] ∧
    makeRotation (-rad2deg (arctan2 (v 0) (√(v 1 ^ 2 + v 2 ^ 2)))) .y *ᵥ ![v 0, 0, √(v 2 ^ 2 + v 1 ^ 2)]
      = ![0, 0, len v] := by
  obtain ⟨a1, a2⟩ := arctan2_polar (v 1) (v 2)
  have hr : √(v 1 ^ 2 + v 2 ^ 2) = √(v 2 ^ 2 + v 1 ^ 2) := by rw [add_comm]
  rw [hr]
  set r := √(v 2 ^ 2 + v 1 ^ 2) with hrd
  have hr0 : 0 ≤ r := Real.sqrt_nonneg _
  have hr2 : r ^ 2 = v 2 ^ 2 + v 1 ^ 2 := Real.sq_sqrt (by positivity)
  obtain ⟨b1, b2⟩ := arctan2_polar (v 0) r
  have hl : √(r ^ 2 + v 0 ^ 2) = len v := by
    unfold len; rw [hr2]; congr 1; ring
  rw [hl] at b1 b2
  rw [makeRotation_eq, makeRotation_eq, deg_rad_neg, deg_rad_neg, Real.cos_neg, Real.sin_neg, Real.cos_neg, Real.sin_neg]
  have c1 := Real.sin_sq_add_cos_sq (arctan2 (v 1) (v 2))
  have c2 := Real.sin_sq_add_cos_sq (arctan2 (v 0) r)
  generalize arctan2 (v 1) (v 2) = ψ at *
  generalize arctan2 (v 0) r = μ at *
  generalize Real.cos ψ = cp at *
  generalize Real.sin ψ = sp at *
  generalize Real.cos μ = cm at *
  generalize Real.sin μ = sm at *
  constructor <;> apply ext3 <;> simp [mulVec3] <;> grind

theorem len_neg (v : V3) : len (vsmul (-1) v) = len v := by
  unfold len vsmul; congr 1; ring

theorem sphere_len (a b : ℝ) :
    len ![Real.cos a * Real.cos b, Real.cos a * Real.sin b, Real.sin a] = 1 := by
  apply len_eq_one
  have h1 := Real.sin_sq_add_cos_sq a
  have h2 := Real.sin_sq_add_cos_sq b
  simp [dot]
  grind

theorem qgP_len (p : Params) : len (qgP p) = 1 := sphere_len _ _

theorem isRot_len {R : M3} (h : IsRot R) (v : V3) : len (R *ᵥ v) = len v := by
  have := IsRot_dot h v v
  rw [dot_self, dot_self] at this
  have h1 := len_nonneg v
  have h2 := len_nonneg (R *ᵥ v)
  nlinarith

theorem qeP_len (p : Params) : len (qeP p) = 1 := by
  unfold qeP
  rw [isRot_len ((B2_isRot p).mul (B1_isRot p).transpose), qgP_len]

theorem disabled_none {p : Params} (hd : p.disabled = false) : p.dipTilt = none ∧ p.dipGsm = none := by
  unfold Params.disabled at hd
  simpa using hd

/-- On the special day the dipole is along the axis of the Earth. -/
theorem qgP_notilt {p : Params} (hn : p.notilt = true) : qgP p = ![0, 0, 1] := by
  have hc : p.coefs = (-30554, 0, 0) := by unfold Params.coefs; rw [hn]; rfl
  have hlat : latP p = Real.pi / 2 := by unfold latP; rw [hc]; simp
  unfold qgP
  rw [hlat]
  simp

theorem makeRotation_zero (ax : Ax) : makeRotation 0 ax = 1 := by
  unfold makeRotation; dsimp only; rw [if_pos rfl]

theorem notilt_B {p : Params} (hn : p.notilt = true) : B1 p = 1 ∧ B2 p = 1 ∧ B5 p = 1 := by
  simp [B1, B2, B5, hn]

theorem notilt_angles {p : Params} (hn : p.notilt = true) (hd : p.disabled = false) : B3 p = 1 ∧ B4 p = 1 := by
  obtain ⟨h1, h2⟩ := disabled_none hd
  have e1 : gsmP p = 0 := by simp [gsmP, Params.fillAngle, hn, h2]
  have e2 : tiltP p = 0 := by simp [tiltP, Params.fillAngle, hn, h1]
  unfold B3 B4
  rw [e1, e2, neg_zero]
  exact ⟨makeRotation_zero _, makeRotation_zero _⟩

theorem dipole_angles {p : Params} (hd : p.disabled = false) :
    B3 p *ᵥ qeP p = ![qeP p 0, 0, √(qeP p 2 ^ 2 + qeP p 1 ^ 2)] ∧
    B4 p *ᵥ ![qeP p 0, 0, √(qeP p 2 ^ 2 + qeP p 1 ^ 2)] = ![0, 0, 1] := by
  obtain ⟨h1, h2⟩ := disabled_none hd
  cases hn : p.notilt with
  | true =>
    obtain ⟨b3, b4⟩ := notilt_angles hn hd
    obtain ⟨b1, b2, -⟩ := notilt_B hn
    have hq : qeP p = ![0, 0, 1] := by
      unfold qeP; rw [b1, b2, qgP_notilt hn]; simp
    rw [b3, b4, hq]
    constructor <;> apply ext3 <;> simp
  | false =>
    have e1 : gsmP p = rad2deg (arctan2 (qeP p 1) (qeP p 2)) := by
      simp [gsmP, Params.fillAngle, hn, hd, h2]
    have e2 : tiltP p = rad2deg (arctan2 (qeP p 0) (√(qeP p 1 ^ 2 + qeP p 2 ^ 2))) := by
      simp [tiltP, Params.fillAngle, hn, hd, h1]
    have ht := tilt_rot (qeP p)
    rw [qeP_len] at ht
    unfold B3 B4
    rw [e1, e2]
    exact ht

theorem geo_gsm_vec (p : Params) : (F p .gsm * (F p .geo)ᵀ) *ᵥ qgP p = B3 p *ᵥ qeP p := by
  unfold qeP F
  rw [Matrix.mulVec_mulVec, Matrix.mul_assoc]

theorem geo_sm_vec (p : Params) : (F p .sm * (F p .geo)ᵀ) *ᵥ qgP p = B4 p *ᵥ (B3 p *ᵥ qeP p) := by
  show (B4 p * (B3 p * B2 p) * (B1 p)ᵀ) *ᵥ qgP p = _
  unfold qeP
  rw [Matrix.mulVec_mulVec, Matrix.mulVec_mulVec]
  simp only [Matrix.mul_assoc]

theorem mag_rot (a b : ℝ) :
    (makeRotation (rad2deg a - 90) .y * makeRotation (rad2deg b) .z) *ᵥ
      ![Real.cos a * Real.cos b, Real.cos a * Real.sin b, Real.sin a] = ![0, 0, 1] := by
  rw [← Matrix.mulVec_mulVec, makeRotation_eq, makeRotation_eq, deg_rad_sub, deg_rad, Real.cos_sub_pi_div_two,
    Real.sin_sub_pi_div_two]
  have h1 := Real.sin_sq_add_cos_sq a
  have h2 := Real.sin_sq_add_cos_sq b
  apply ext3 <;> simp [mulVec3] <;> grind

theorem B5_vec (p : Params) : B5 p *ᵥ qgP p = ![0, 0, 1] := by
  unfold B5
  split
  · rename_i hn
    rw [qgP_notilt (by simpa using hn)]; simp
  · exact mag_rot _ _

theorem geo_mag_vec (p : Params) : (F p .mag * (F p .geo)ᵀ) *ᵥ qgP p = ![0, 0, 1] := by
  unfold F
  rw [Matrix.mul_assoc, (B1_isRot p).1, Matrix.mul_one, B5_vec]

theorem not_blocked {p : Params} (hd : p.disabled = false) (a b : Sys) : magBlocked p a b = false := by
  simp [magBlocked, noMag, hd]

/-- **C46.** When the angles follow from the time, the dipole axis (a unit vector in geo) is the z axis of
    sm and of mag, and its gsm y component vanishes (its gsm z component is not negative). -/
theorem C46_axis (p : Params) (hd : p.dipTilt = none ∧ p.dipGsm = none) (h₀ h₁ h₂ h₃ : List Call) :
    ∃ q : V3, (dipGeo p (after p h₀)).1 = .ok q ∧ len q = 1 ∧
      (transform p .geo .sm q (after p h₁)).1 = .ok ![0, 0, 1] ∧
      (transform p .geo .mag q (after p h₂)).1 = .ok ![0, 0, 1] ∧
      ∃ g : V3, (transform p .geo .gsm q (after p h₃)).1 = .ok g ∧ g 1 = 0 ∧ 0 ≤ g 2 := by
  have hd : p.disabled = false := by simp [Params.disabled, hd.1, hd.2]
  obtain ⟨d1, d2⟩ := dipole_angles hd
  refine ⟨qgP p, (dipGeo_tri p _ (after_inv p _)).1, qgP_len p, ?_, ?_, ![qeP p 0, 0, √(qeP p 2 ^ 2 + qeP p 1 ^ 2)],
    ?_, by simp, by simp⟩
  · rw [(transform_tri p _ _ _ _ (after_inv p _)).1,
      transformR_ok p (by simp [geocentric]) (by simp [geocentric]) (not_blocked hd _ _), geo_sm_vec, d1, d2]
  · rw [(transform_tri p _ _ _ _ (after_inv p _)).1,
      transformR_ok p (by simp [geocentric]) (by simp [geocentric]) (not_blocked hd _ _), geo_mag_vec]
  · rw [(transform_tri p _ _ _ _ (after_inv p _)).1,
      transformR_ok p (by simp [geocentric]) (by simp [geocentric]) (not_blocked hd _ _), geo_gsm_vec, d1]

/-- **C46, the moment.** The moment is along -z in sm, and opposite to the dipole axis in geo. -/
theorem C46_moment (p : Params) (h₁ h₂ : List Call) (s : ℝ) :
    (dipoleMoment p .sm s (after p h₁)).1 = .ok ![0, 0, -s] ∧
    (p.dipTilt = none ∧ p.dipGsm = none → ∀ h₃ q, (dipGeo p (after p h₃)).1 = .ok q →
      (dipoleMoment p .geo s (after p h₂)).1 = .ok (vsmul (-s) q)) := by
  constructor
  · exact C45_identity p h₁ .sm (by simp [geocentric]) _
  · intro hd h₃ q hq
    obtain ⟨q', e, -, hsm, -⟩ := C46_axis p hd h₃ h₁ [] []
    rw [(dipGeo_tri p _ (after_inv p _)).1] at hq e
    obtain rfl : qgP p = q := by simpa using hq
    obtain rfl : qgP p = q' := by simpa using e
    have hd' : p.disabled = false := by simp [Params.disabled, hd.1, hd.2]
    have hinv := C45_inverse p h₁ h₂ .geo .sm _ _ hsm
    unfold dipoleMoment
    rw [(transform_tri p _ _ _ _ (after_inv p _)).1,
      transformR_ok p (by simp [geocentric]) (by simp [geocentric]) (not_blocked hd' _ _)] at hinv ⊢
    have hv : (![0, 0, -s] : V3) = (-s) • ![0, 0, 1] := by apply ext3 <;> simp
    rw [hv, Matrix.mulVec_smul]
    congr 1
    have : (F p .geo * (F p .sm)ᵀ) *ᵥ ![0, 0, 1] = qgP p := by simpa using hinv
    rw [this]
    rfl

/-- Satisfiable: the transforms at the turn of the year 2000, the dipole angles unknown. -/
example : ∃ q : V3, (dipGeo { days := 10957 } (init { days := 10957 })).1 = .ok q ∧ len q = 1 := by
  obtain ⟨q, h, hl, -⟩ := C46_axis { days := 10957 } ⟨rfl, rfl⟩ [] [] [] []
  exact ⟨q, h, hl⟩

/-! ### C47 -/

theorem byHand (tilt gsm : ℝ) (days : ℝ) :
    let p : Params := { days := days, dipTilt := some tilt, dipGsm := some gsm }
    B3 p = makeRotation (-gsm) .x ∧ B4 p = makeRotation (-tilt) .y := by
  constructor <;> simp [B3, B4, gsmP, tiltP, Params.fillAngle, Params.disabled]

theorem gse_sm_byHand (p : Params) : F p .gse * (F p .sm)ᵀ = (B4 p * B3 p)ᵀ := by
  unfold F
  rw [← Matrix.mul_assoc, Matrix.transpose_mul, ← Matrix.mul_assoc, (B2_isRot p).1, Matrix.one_mul]

theorem toGse (m : V3) : ∀ p : Params,
    transformR p .gse .gse m = .ok m ∧ transformR p .mhd .gse m = .ok (B6 *ᵥ m) := by
  intro p
  constructor
  · rw [transformR_ok p (by simp [geocentric]) (by simp [geocentric]) (by simp [magBlocked]), (F_isRot p .gse).1,
      Matrix.one_mulVec]
  · rw [transformR_ok p (by simp [geocentric]) (by simp [geocentric]) (by simp [magBlocked])]
    congr 2
    unfold F
    rw [Matrix.transpose_mul, B6_symm, ← Matrix.mul_assoc, (B2_isRot p).1, Matrix.one_mul]

theorem moment_byHand (g : V3) (days : ℝ) (h : List Call) :
    let p : Params := { days := days, dipTilt := some (rad2deg (arctan2 (g 0) (√(g 1 ^ 2 + g 2 ^ 2)))),
                        dipGsm := some (rad2deg (arctan2 (g 1) (g 2))) }
    (dipoleMoment p .gse (len g) (after p h)).1 = .ok (vsmul (-1) g) := by
  intro p
  obtain ⟨b3, b4⟩ := byHand (rad2deg (arctan2 (g 0) (√(g 1 ^ 2 + g 2 ^ 2)))) (rad2deg (arctan2 (g 1) (g 2))) days
  obtain ⟨t1, t2⟩ := tilt_rot g
  unfold dipoleMoment
  rw [(transform_tri p _ _ _ _ (after_inv p _)).1,
    transformR_ok p (by simp [geocentric]) (by simp [geocentric]) (by simp [magBlocked]), gse_sm_byHand]
  congr 1
  have e : (B4 p * B3 p) *ᵥ g = ![0, 0, len g] := by
    rw [← Matrix.mulVec_mulVec, b3, b4, t1, t2]
  have hv : (![0, 0, -len g] : V3) = (-1 : ℝ) • ![0, 0, len g] := by apply ext3 <;> simp
  have hR : IsRot (B4 p * B3 p) := by
    refine IsRot.mul ?_ ?_
    · exact makeRotation_isRot _ _
    · exact makeRotation_isRot _ _
  rw [hv, Matrix.mulVec_smul, ← e, Matrix.mulVec_mulVec, mul_eq_one_comm.1 hR.1, Matrix.one_mulVec]
  rfl

/-- **C47, what is true.** The object built from a moment gives the opposite moment back, for every moment,
    in either of the systems accepted. -/
theorem C47_opposite_partial (m : V3) (s : Sys) (hs : s = .gse ∨ s = .mhd) (h : List Call) :
    ∃ p, dipoleMoment2cotr m s = .ok p ∧
      (dipoleMoment p s (len m) (after p h)).1 = .ok (vsmul (-1) m) := by
  rcases hs with rfl | rfl
  · refine ⟨_, ?_, moment_byHand m day1967 h⟩
    unfold dipoleMoment2cotr
    rw [if_pos (Or.inl rfl)]
    dsimp only
    rw [(transform_tri _ _ _ _ _ (init_inv _)).1, (toGse m _).1]
  · have hl : len (B6 *ᵥ m) = len m := isRot_len B6_isRot m
    refine ⟨{ days := day1967,
              dipTilt := some (rad2deg (arctan2 ((B6 *ᵥ m) 0) (√((B6 *ᵥ m) 1 ^ 2 + (B6 *ᵥ m) 2 ^ 2)))),
              dipGsm := some (rad2deg (arctan2 ((B6 *ᵥ m) 1) ((B6 *ᵥ m) 2))) }, ?_, ?_⟩
    · unfold dipoleMoment2cotr
      rw [if_pos (Or.inr rfl)]
      dsimp only
      rw [(transform_tri _ _ _ _ _ (init_inv _)).1, (toGse m _).2]
    · have hm := moment_byHand (B6 *ᵥ m) day1967 h
      rw [hl] at hm
      unfold dipoleMoment at hm ⊢
      refine C45_compose _ h h h .sm .gse .mhd _ _ _ hm ?_
      refine C45_inverse _ h h .mhd .gse _ _ ?_
      rw [(transform_tri _ _ _ _ _ (after_inv _ _)).1, (toGse _ _).2]
      congr 1
      apply ext3 <;> simp [mulVec3, vsmul] <;> ring

/-- **C47 fails**, for every nonzero moment: the moment comes back with the opposite sign. -/
theorem C47_violated (m : V3) (hm : m ≠ 0) :
    ∃ p, dipoleMoment2cotr m .gse = .ok p ∧ (dipoleMoment p .gse (len m) (init p)).1 ≠ .ok m := by
  obtain ⟨p, h1, h2⟩ := C47_opposite_partial m .gse (Or.inl rfl) []
  refine ⟨p, h1, fun e => hm ?_⟩
  rw [show init p = after p [] from rfl, h2] at e
  have e : vsmul (-1) m = m := by simpa using e
  ext i
  have := congrFun e i
  simp only [vsmul] at this
  show m i = 0
  linarith

/-- Other systems are refused. -/
theorem C47_refused (m : V3) (s : Sys) (hs : s ≠ .gse) (hs' : s ≠ .mhd) :
    dipoleMoment2cotr m s = .error .valueError := by
  unfold dipoleMoment2cotr
  rw [if_neg (by simp [hs, hs'])]

example : (![3, -4, 12] : V3) ≠ 0 := by
  intro h; have := congrFun h 0; simp at this

end Viscid.Props
