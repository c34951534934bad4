import Verif.Model.Dipole
import Verif.Spec.Dipole
import Verif.Props.SphCart
/-!
# C48, C52: mapping along the field lines of a dipole, and the field of a dipole
-/
namespace Viscid.Props
open Matrix Viscid.Rotation Viscid.Cotr Viscid.Dipole Viscid.Spec.Dipole

theorem sph_eq (v : V3) : sph v = ![len v, Real.arccos (v 2 / len v), arctan2 (v 1) (v 0)] := by
  simp [sph, SphCart.cart2sph, SphCart.store, len]

theorem cart_eq (a : V3) : cart a = ![a 0 * Real.sin (a 1) * Real.cos (a 2), a 0 * Real.sin (a 1) * Real.sin (a 2),
    a 0 * Real.cos (a 1)] := by
  simp [cart, SphCart.sph2cart, SphCart.store]

/-- `xyz2lsrlp` once the point is in SM. -/
noncomputable def lsrlpR (v : V3) : Lsrlp :=
  ⟨sph v 0 / Real.cos (0.5 * Real.pi - sph v 1) ^ 2, sph v 0, 0.5 * Real.pi - sph v 1, sph v 2⟩

theorem xyz2lsrlp_tri {p : Params} {s : Sys} {pt v : V3} (h : transformR p s .sm pt = .ok v) :
    Tri p (xyz2lsrlp p s pt) (.ok (lsrlpR v)) := by
  unfold xyz2lsrlp
  have ht := transform_tri p s .sm pt
  rw [h] at ht
  exact ht.bind (Tri.pure _)

theorem dipoleMap_tri {p : Params} {s : Sys} {pt v : V3} (h : transformR p s .sm pt = .ok v) (r : ℝ) :
    Tri p (dipoleMap p s r pt) (transformR p .sm s (cart (mapped (lsrlpR v) r))) := by
  unfold dipoleMap
  exact (xyz2lsrlp_tri h).bind (transform_tri p .sm s _)

/-! ### the map, in SM -/

section
variable {v : V3}

theorem rho_pos_len (h : 0 < rho v) : 0 < len v := by
  have h1 := len_sq v
  have h2 : rho v ^ 2 = v 0 ^ 2 + v 1 ^ 2 := Real.sq_sqrt (by positivity)
  have := len_nonneg v
  rcases this.lt_or_eq with h' | h'
  · exact h'
  · exfalso
    rw [← h'] at h1
    nlinarith [sq_nonneg (v 2)]

theorem half_pi (x : ℝ) : 0.5 * Real.pi - x = Real.pi / 2 - x := by ring

theorem lsrlp_r : (lsrlpR v).r = len v := by unfold lsrlpR; rw [sph_eq]; rfl
theorem lsrlp_phi : (lsrlpR v).phi = arctan2 (v 1) (v 0) := by unfold lsrlpR; rw [sph_eq]; rfl
theorem lsrlp_lam : (lsrlpR v).lam = Real.pi / 2 - Real.arccos (v 2 / len v) := by
  unfold lsrlpR; rw [sph_eq]; exact half_pi _

theorem cos_lam (h : 0 < rho v) : Real.cos (lsrlpR v).lam = rho v / len v := by
  have hl := rho_pos_len h
  rw [lsrlp_lam, Real.cos_pi_div_two_sub]
  have := (sph_value v hl.ne').2
  rw [eq_div_iff hl.ne', mul_comm]
  exact this

theorem sin_lam (h : 0 < rho v) : Real.sin (lsrlpR v).lam = v 2 / len v := by
  have hl := rho_pos_len h
  rw [lsrlp_lam, Real.sin_pi_div_two_sub]
  have := (sph_value v hl.ne').1
  rw [eq_div_iff hl.ne', mul_comm]
  exact this

theorem lsrlp_lshell (h : 0 < rho v) : (lsrlpR v).lshell = Spec.Dipole.lshell v := by
  have hl := rho_pos_len h
  have : (lsrlpR v).lshell = (lsrlpR v).r / Real.cos (lsrlpR v).lam ^ 2 := rfl
  rw [this, cos_lam h, lsrlp_r]
  unfold Spec.Dipole.lshell
  field_simp

theorem sgn_lam (h : 0 < rho v) : (0 < v 2 → sgn (lsrlpR v).lam = 1) ∧ (v 2 < 0 → sgn (lsrlpR v).lam = -1) ∧
    (v 2 = 0 → (lsrlpR v).lam = 0) := by
  have hl := rho_pos_len h
  have hlam : (lsrlpR v).lam = Real.arcsin (v 2 / len v) := by
    rw [lsrlp_lam, Real.arccos]; ring
  rw [hlam]
  refine ⟨fun hz => ?_, fun hz => ?_, fun hz => ?_⟩
  · have : 0 < Real.arcsin (v 2 / len v) := Real.arcsin_pos.2 (by positivity)
    simp [sgn, this]
  · have : Real.arcsin (v 2 / len v) < 0 := Real.arcsin_lt_zero.2 (div_neg_of_neg_of_pos hz hl)
    simp [sgn, this, not_lt.2 this.le]
  · rw [hz]; simp

/-- The mapped point. -/
theorem mapped_eq (h : 0 < rho v) {r e : ℝ} (hs : sgn (lsrlpR v).lam = e) (he : e = 1 ∨ e = -1) (hr : 0 < r)
    (hL : r ≤ Spec.Dipole.lshell v) :
    cart (mapped (lsrlpR v) r) = ![r * √(r / Spec.Dipole.lshell v) / rho v * v 0, r * √(r / Spec.Dipole.lshell v) / rho v * v 1,
      e * (r * √(1 - r / Spec.Dipole.lshell v))] := by
  have hLp : 0 < Spec.Dipole.lshell v := lt_of_lt_of_le hr hL
  have hq : 0 ≤ r / Spec.Dipole.lshell v := by positivity
  have hq1 : r / Spec.Dipole.lshell v ≤ 1 := by rw [div_le_one hLp]; exact hL
  have hsq0 : 0 ≤ √(r / Spec.Dipole.lshell v) := Real.sqrt_nonneg _
  have hsq1 : √(r / Spec.Dipole.lshell v) ≤ 1 := Real.sqrt_le_one.2 hq1
  have hcos := Real.cos_arccos (by linarith : -1 ≤ √(r / Spec.Dipole.lshell v)) hsq1
  have hsin := Real.sin_arccos (√(r / Spec.Dipole.lshell v))
  rw [Real.sq_sqrt hq] at hsin
  obtain ⟨p1, p2⟩ := arctan2_polar (v 1) (v 0)
  have p1 : rho v * Real.cos (arctan2 (v 1) (v 0)) = v 0 := p1
  have p2 : rho v * Real.sin (arctan2 (v 1) (v 0)) = v 1 := p2
  have c1 : Real.sin (Real.pi / 2 - e * Real.arccos (√(r / Spec.Dipole.lshell v))) = √(r / Spec.Dipole.lshell v) := by
    rw [Real.sin_pi_div_two_sub]
    rcases he with rfl | rfl
    · rw [one_mul, hcos]
    · rw [neg_one_mul, Real.cos_neg, hcos]
  have c2 : Real.cos (Real.pi / 2 - e * Real.arccos (√(r / Spec.Dipole.lshell v))) = e * √(1 - r / Spec.Dipole.lshell v) := by
    rw [Real.cos_pi_div_two_sub]
    rcases he with rfl | rfl
    · rw [one_mul, hsin, one_mul]
    · rw [neg_one_mul, Real.sin_neg, hsin, neg_one_mul]
  rw [cart_eq]
  unfold mapped
  rw [lsrlp_lshell h, lsrlp_phi, hs]
  apply ext3
  · show r * Real.sin (0.5 * Real.pi - e * _) * Real.cos (arctan2 (v 1) (v 0)) = r * √(r / Spec.Dipole.lshell v) / rho v * v 0
    rw [half_pi, c1]; conv_rhs => rw [← p1]
    field_simp
  · show r * Real.sin (0.5 * Real.pi - e * _) * Real.sin (arctan2 (v 1) (v 0)) = r * √(r / Spec.Dipole.lshell v) / rho v * v 1
    rw [half_pi, c1]; conv_rhs => rw [← p2]
    field_simp
  · show r * Real.cos (0.5 * Real.pi - e * _) = e * (r * √(1 - r / Spec.Dipole.lshell v))
    rw [half_pi, c2]; ring

theorem rho_sq (v : V3) : rho v ^ 2 = v 0 ^ 2 + v 1 ^ 2 := Real.sq_sqrt (by positivity)

/-- In SM: the mapped point is at the given distance, on the same field line. -/
theorem mapped_spec (h : 0 < rho v) {r e : ℝ} (hs : sgn (lsrlpR v).lam = e) (he : e = 1 ∨ e = -1) (hr : 0 < r)
    (hL : r ≤ Spec.Dipole.lshell v) :
    len (cart (mapped (lsrlpR v) r)) = r ∧ Spec.Dipole.lshell (cart (mapped (lsrlpR v) r)) = Spec.Dipole.lshell v ∧
    SameLongitude v (cart (mapped (lsrlpR v) r)) := by
  have hLp : 0 < Spec.Dipole.lshell v := lt_of_lt_of_le hr hL
  have hq : 0 < r / Spec.Dipole.lshell v := by positivity
  have hq1 : r / Spec.Dipole.lshell v ≤ 1 := by rw [div_le_one hLp]; exact hL
  have s1 := Real.sq_sqrt hq.le
  have s2 := Real.sq_sqrt (by linarith : 0 ≤ 1 - r / Spec.Dipole.lshell v)
  have hp := Real.sqrt_pos.2 hq
  have hrs := rho_sq v
  rw [mapped_eq h hs he hr hL]
  set w : V3 := ![r * √(r / Spec.Dipole.lshell v) / rho v * v 0, r * √(r / Spec.Dipole.lshell v) / rho v * v 1,
      e * (r * √(1 - r / Spec.Dipole.lshell v))] with hw
  have w0 : w 0 = r * √(r / Spec.Dipole.lshell v) / rho v * v 0 := rfl
  have w1 : w 1 = r * √(r / Spec.Dipole.lshell v) / rho v * v 1 := rfl
  have w2 : w 2 = e * (r * √(1 - r / Spec.Dipole.lshell v)) := rfl
  have he2 : e ^ 2 = 1 := by rcases he with rfl | rfl <;> norm_num
  have hrw : rho w ^ 2 = r ^ 2 * (r / Spec.Dipole.lshell v) := by
    rw [rho_sq, w0, w1, mul_pow, mul_pow, ← mul_add, ← hrs, div_pow, mul_pow, s1]
    field_simp
  have hlen : len w = r := by
    have : len w ^ 2 = r ^ 2 := by
      rw [len_sq, ← rho_sq w, hrw, w2, mul_pow, mul_pow, he2, s2]; ring
    exact (pow_left_inj₀ (len_nonneg _) hr.le (by norm_num)).1 this
  refine ⟨hlen, ?_, r * √(r / Spec.Dipole.lshell v) / rho v, by positivity, w0, w1⟩
  rw [show Spec.Dipole.lshell w = len w ^ 3 / rho w ^ 2 from rfl, hlen, hrw]
  field_simp

end

/-- **C48.** For a point off the equator and off the axis, and a distance within its field line, the result of
    `dipole_map` is at that distance, on the same field line, in the same half plane and hemisphere, whatever the
    time or orientation, the system of coordinates and the earlier calls. -/
theorem C48_same_field_line_partial (p : Params) (h h' h'' : List Call) (s : Sys) (pt v : V3) (r : ℝ)
    (hv : (transform p s .sm pt (after p h)).1 = .ok v) (hrho : 0 < rho v) (hz : v 2 ≠ 0)
    (hr : 0 < r) (hL : r ≤ lshell v) :
    ∃ q w, (dipoleMap p s r pt (after p h')).1 = .ok q ∧ (transform p s .sm q (after p h'')).1 = .ok w ∧
      len q = r ∧ lshell w = lshell v ∧ SameLongitude v w ∧
      (0 < v 2 → 0 ≤ w 2 ∧ (r < lshell v → 0 < w 2)) ∧ (v 2 < 0 → w 2 ≤ 0 ∧ (r < lshell v → w 2 < 0)) := by
  rw [(transform_tri p s .sm pt _ (after_inv p h)).1] at hv
  obtain ⟨hs, hsm, hm, -⟩ := transform_ok hv
  obtain ⟨e, hse, he, hpos, hneg⟩ : ∃ e, sgn (lsrlpR v).lam = e ∧ (e = 1 ∨ e = -1) ∧ (0 < v 2 → e = 1) ∧
      (v 2 < 0 → e = -1) := by
    obtain ⟨a, b, -⟩ := sgn_lam hrho
    rcases lt_or_gt_of_ne hz with hz | hz
    · exact ⟨-1, b hz, Or.inr rfl, fun h => absurd h hz.not_gt, fun _ => rfl⟩
    · exact ⟨1, a hz, Or.inl rfl, fun _ => rfl, fun h => absurd h hz.not_gt⟩
  obtain ⟨m1, m2, m3⟩ := mapped_spec hrho hse he hr hL
  have hback := transformR_ok p hsm hs (by rw [magBlocked_symm]; exact hm) (cart (mapped (lsrlpR v) r))
  refine ⟨_, cart (mapped (lsrlpR v) r), (dipoleMap_tri hv r _ (after_inv p h')).1.trans hback, ?_, ?_, m2, m3, ?_, ?_⟩
  · rw [(transform_tri p s .sm _ _ (after_inv p h'')).1, transformR_ok p hs hsm hm, Matrix.mulVec_mulVec]
    congr 1
    rw [Matrix.mul_assoc, cancelT' (F_isRot p s).1, (F_isRot p .sm).1, Matrix.one_mulVec]
  · rw [isRot_len ((F_isRot p s).mul (F_isRot p .sm).transpose), m1]
  · intro hz
    rw [mapped_eq hrho hse he hr hL, hpos hz]
    have : (0:ℝ) < lshell v := lt_of_lt_of_le hr hL
    constructor
    · show 0 ≤ 1 * (r * √(1 - r / lshell v)); positivity
    · intro hlt
      have : 0 < 1 - r / lshell v := by rw [sub_pos, div_lt_one this]; exact hlt
      show 0 < 1 * (r * √(1 - r / lshell v)); positivity
  · intro hz
    rw [mapped_eq hrho hse he hr hL, hneg hz]
    have : (0:ℝ) < lshell v := lt_of_lt_of_le hr hL
    constructor
    · show -1 * (r * √(1 - r / lshell v)) ≤ 0
      have : 0 ≤ r * √(1 - r / lshell v) := by positivity
      linarith
    · intro hlt
      have : 0 < 1 - r / lshell v := by rw [sub_pos, div_lt_one this]; exact hlt
      show -1 * (r * √(1 - r / lshell v)) < 0
      have : 0 < r * √(1 - r / lshell v) := by positivity
      linarith

/-- **C48, own distance.** Mapping a point off the equator to its own distance gives it back. -/
theorem C48_identity_partial (p : Params) (h h' : List Call) (s : Sys) (pt v : V3)
    (hv : (transform p s .sm pt (after p h)).1 = .ok v) (hrho : 0 < rho v) (hz : v 2 ≠ 0) :
    (dipoleMap p s (len pt) pt (after p h')).1 = .ok pt := by
  rw [(transform_tri p s .sm pt _ (after_inv p h)).1] at hv
  obtain ⟨hs, hsm, hm, hvp⟩ := transform_ok hv
  have hlen : len v = len pt := by rw [hvp]; exact isRot_len ((F_isRot p .sm).mul (F_isRot p s).transpose) pt
  have hl := rho_pos_len hrho
  have hsq := len_sq v
  have hrs := rho_sq v
  have hle : rho v ≤ len v := by
    apply le_of_sq_le_sq _ hl.le
    nlinarith [sq_nonneg (v 2)]
  have hratio : len v / lshell v = (rho v / len v) ^ 2 := by
    unfold lshell; field_simp
  have hL : len v ≤ lshell v := by
    unfold lshell
    rw [le_div_iff₀ (by positivity)]
    nlinarith [mul_nonneg hl.le (sq_nonneg (v 2))]
  have key : cart (mapped (lsrlpR v) (len v)) = v := by
    have hsq2 : √(1 - len v / lshell v) = |v 2| / len v := by
      rw [hratio, show 1 - (rho v / len v) ^ 2 = (|v 2| / len v) ^ 2 by
        rw [div_pow, div_pow, sq_abs]; field_simp; linarith]
      exact Real.sqrt_sq (by positivity)
    have hsq1 : √(len v / lshell v) = rho v / len v := by
      rw [hratio]; exact Real.sqrt_sq (by positivity)
    obtain ⟨a, b, -⟩ := sgn_lam hrho
    rcases lt_or_gt_of_ne hz with hz | hz
    · rw [mapped_eq hrho (b hz) (Or.inr rfl) hl hL, hsq1, hsq2, abs_of_neg hz]
      apply ext3
      · show len v * (rho v / len v) / rho v * v 0 = v 0; field_simp
      · show len v * (rho v / len v) / rho v * v 1 = v 1; field_simp
      · show -1 * (len v * (-v 2 / len v)) = v 2; field_simp
    · rw [mapped_eq hrho (a hz) (Or.inl rfl) hl hL, hsq1, hsq2, abs_of_pos hz]
      apply ext3
      · show len v * (rho v / len v) / rho v * v 0 = v 0; field_simp
      · show len v * (rho v / len v) / rho v * v 1 = v 1; field_simp
      · show 1 * (len v * (v 2 / len v)) = v 2; field_simp
  rw [(dipoleMap_tri hv (len pt) _ (after_inv p h')).1, ← hlen, key,
    transformR_ok p hsm hs (by rw [magBlocked_symm]; exact hm), hvp, Matrix.mulVec_mulVec]
  congr 1
  rw [Matrix.mul_assoc, cancelT' (F_isRot p .sm).1, (F_isRot p s).1, Matrix.one_mulVec]

/-- **C48 fails on the equator.** There the sign of the latitude is zero and the point is just moved along its
    radius: its L-shell becomes the requested distance. -/
theorem C48_equator_violated (p : Params) (h h' : List Call) (v : V3) (r : ℝ) (hrho : 0 < rho v) (hz : v 2 = 0)
    (hr : 0 < r) (hL : r < lshell v) :
    ∃ w, (transform p .sm .sm v (after p h)).1 = .ok v ∧ (dipoleMap p .sm r v (after p h')).1 = .ok w ∧
      w = vsmul (r / rho v) v ∧ lshell w = r ∧ lshell w ≠ lshell v := by
  have hsm : Sys.sm ∈ geocentric := by simp [geocentric]
  have hid : ∀ u, transformR p .sm .sm u = .ok u := by
    intro u
    rw [transformR_ok p hsm hsm (by simp [magBlocked]), (F_isRot p .sm).1, Matrix.one_mulVec]
  have hw : cart (mapped (lsrlpR v) r) = vsmul (r / rho v) v := by
    have hlam := (sgn_lam hrho).2.2 hz
    obtain ⟨p1, p2⟩ := arctan2_polar (v 1) (v 0)
    have p1 : rho v * Real.cos (arctan2 (v 1) (v 0)) = v 0 := p1
    have p2 : rho v * Real.sin (arctan2 (v 1) (v 0)) = v 1 := p2
    have hs0 : sgn (0:ℝ) = 0 := by simp [sgn]
    rw [cart_eq]
    unfold mapped
    rw [hlam, hs0, lsrlp_phi]
    apply ext3
    · show r * Real.sin (0.5 * Real.pi - 0 * _) * Real.cos (arctan2 (v 1) (v 0)) = r / rho v * v 0
      rw [half_pi, zero_mul, sub_zero, Real.sin_pi_div_two]; conv_rhs => rw [← p1]
      field_simp
    · show r * Real.sin (0.5 * Real.pi - 0 * _) * Real.sin (arctan2 (v 1) (v 0)) = r / rho v * v 1
      rw [half_pi, zero_mul, sub_zero, Real.sin_pi_div_two]; conv_rhs => rw [← p2]
      field_simp
    · show r * Real.cos (0.5 * Real.pi - 0 * _) = r / rho v * v 2
      rw [half_pi, zero_mul, sub_zero, Real.cos_pi_div_two, hz]; ring
  have hlenrho : ∀ u : V3, u 2 = 0 → len u = rho u := by
    intro u hu
    unfold len rho
    rw [hu]; congr 1; ring
  have hrw : rho (vsmul (r / rho v) v) = r := by
    have : rho (vsmul (r / rho v) v) ^ 2 = r ^ 2 := by
      rw [rho_sq]
      show (r / rho v * v 0) ^ 2 + (r / rho v * v 1) ^ 2 = r ^ 2
      rw [mul_pow, mul_pow, ← mul_add, ← rho_sq v]; field_simp
    exact (pow_left_inj₀ (Real.sqrt_nonneg _) hr.le (by norm_num)).1 this
  have hls : lshell (vsmul (r / rho v) v) = r := by
    have h2 : (vsmul (r / rho v) v) 2 = 0 := by
      show r / rho v * v 2 = 0
      rw [hz]; ring
    unfold lshell
    rw [hlenrho _ h2, hrw]; field_simp
  refine ⟨vsmul (r / rho v) v, ?_, ?_, rfl, hls, by rw [hls]; exact hL.ne⟩
  · rw [(transform_tri p .sm .sm v _ (after_inv p h)).1, hid]
  · rw [(dipoleMap_tri (hid v) r _ (after_inv p h')).1, hw, hid]

/-- **C48, spherical.** With `as_spherical=True` the result is the same point: its distance, and the colatitude and
    longitude in degrees in [0, 180] and [0, 360). -/
theorem C48_spherical (p : Params) (h h' h'' : List Call) (s : Sys) (pt q : V3) (r : ℝ)
    (hq : (dipoleMap p s r pt (after p h)).1 = .ok q) :
    ∃ a w, (dipoleMapSph p s r pt (after p h')).1 = .ok a ∧ (transform p s .sm q (after p h'')).1 = .ok w ∧
      SphCart.sph2cart .float true a = .ok w ∧ 0 ≤ a 1 ∧ a 1 ≤ 180 ∧ 0 ≤ a 2 ∧ a 2 < 360 := by
  cases hv : transformR p s .sm pt with
  | error e =>
    exfalso
    have ht := transform_tri p s .sm pt
    rw [hv] at ht
    have hl : Tri p (xyz2lsrlp p s pt) (.error e) := by unfold xyz2lsrlp; exact ht.bind_err
    have : Tri p (dipoleMap p s r pt) (.error e) := by unfold dipoleMap; exact hl.bind_err
    rw [(this _ (after_inv p h)).1] at hq
    cases hq
  | ok v =>
    obtain ⟨hs, hsm, hm, hvp⟩ := transform_ok hv
    have hs' : Tri p (dipoleMapSph p s r pt) (.ok ![mapped (lsrlpR v) r 0, rad2deg (mapped (lsrlpR v) r 1),
        rad2deg (mapped (lsrlpR v) r 2) - 360 * (⌊rad2deg (mapped (lsrlpR v) r 2) / 360⌋ : ℤ)]) := by
      unfold dipoleMapSph; exact (xyz2lsrlp_tri hv).bind (Tri.pure _)
    rw [(dipoleMap_tri hv r _ (after_inv p h)).1, transformR_ok p hsm hs (by rw [magBlocked_symm]; exact hm)] at hq
    have hq : (F p s * (F p .sm)ᵀ) *ᵥ cart (mapped (lsrlpR v) r) = q := by simpa using hq
    refine ⟨_, cart (mapped (lsrlpR v) r), (hs' _ (after_inv p h')).1, ?_, ?_, ?_, ?_, ?_, ?_⟩
    · rw [(transform_tri p s .sm _ _ (after_inv p h'')).1, transformR_ok p hs hsm hm, ← hq, Matrix.mulVec_mulVec]
      congr 1
      rw [Matrix.mul_assoc, cancelT' (F_isRot p s).1, (F_isRot p .sm).1, Matrix.one_mulVec]
    · generalize mapped (lsrlpR v) r = m
      have e1 : rad2deg (m 1) * (Real.pi / 180) = m 1 := by unfold rad2deg; field_simp
      have e2 : (rad2deg (m 2) - 360 * (⌊rad2deg (m 2) / 360⌋ : ℤ)) * (Real.pi / 180) =
          m 2 - (⌊rad2deg (m 2) / 360⌋ : ℤ) * (2 * Real.pi) := by
        generalize ⌊rad2deg (m 2) / 360⌋ = k
        unfold rad2deg; field_simp; ring
      rw [C49_sph2cart_deg, e1, e2, cart_eq]
      simp [SphCart.sph2cart, SphCart.store]
    · have hA := Real.arccos_le_pi_div_two.2 (Real.sqrt_nonneg (r / (lsrlpR v).lshell))
      have hA0 := Real.arccos_nonneg (√(r / (lsrlpR v).lshell))
      have hb : 0 ≤ mapped (lsrlpR v) r 1 := by
        show 0 ≤ 0.5 * Real.pi - sgn (lsrlpR v).lam * Real.arccos (√(r / (lsrlpR v).lshell))
        rw [half_pi]; unfold sgn
        split
        · linarith
        · split <;> linarith
      show 0 ≤ rad2deg (mapped (lsrlpR v) r 1)
      unfold rad2deg; positivity
    · have hA := Real.arccos_le_pi_div_two.2 (Real.sqrt_nonneg (r / (lsrlpR v).lshell))
      have hA0 := Real.arccos_nonneg (√(r / (lsrlpR v).lshell))
      have hb : mapped (lsrlpR v) r 1 ≤ Real.pi := by
        show 0.5 * Real.pi - sgn (lsrlpR v).lam * Real.arccos (√(r / (lsrlpR v).lshell)) ≤ Real.pi
        rw [half_pi]; unfold sgn
        split
        · linarith
        · split <;> linarith
      show rad2deg (mapped (lsrlpR v) r 1) ≤ 180
      have : rad2deg Real.pi = 180 := by unfold rad2deg; field_simp
      rw [← this]
      unfold rad2deg
      gcongr
    · show 0 ≤ rad2deg (mapped (lsrlpR v) r 2) - 360 * (⌊rad2deg (mapped (lsrlpR v) r 2) / 360⌋ : ℤ)
      have := Int.floor_le (rad2deg (mapped (lsrlpR v) r 2) / 360)
      linarith
    · show rad2deg (mapped (lsrlpR v) r 2) - 360 * (⌊rad2deg (mapped (lsrlpR v) r 2) / 360⌋ : ℤ) < 360
      have := Int.lt_floor_add_one (rad2deg (mapped (lsrlpR v) r 2) / 360)
      linarith

/-- The hypotheses can be met: in SM itself the transform is the identity, and (1, 0, 1) is off the axis and off the
    equator, with a field line that reaches the distance 1. -/
example (p : Params) (h : List Call) : (transform p .sm .sm ![1, 0, 1] (after p h)).1 = .ok ![1, 0, 1] ∧
    0 < rho ![1, 0, 1] ∧ (![1, 0, 1] : V3) 2 ≠ 0 ∧ (1:ℝ) ≤ lshell ![1, 0, 1] := by
  have hsm : Sys.sm ∈ geocentric := by simp [geocentric]
  have hr : rho ![1, 0, 1] = 1 := by simp [rho]
  refine ⟨?_, by rw [hr]; norm_num, by simp, ?_⟩
  · rw [(transform_tri p .sm .sm _ _ (after_inv p h)).1, transformR_ok p hsm hsm (by simp [magBlocked]),
      (F_isRot p .sm).1, Matrix.one_mulVec]
  · unfold lshell
    rw [hr]
    have : (1:ℝ) ≤ len ![1, 0, 1] := by
      unfold len
      rw [Real.one_le_sqrt]
      simp
    have := one_le_pow₀ this (n := 3)
    simpa using this

/-! ### C52 -/

theorem len_rsq (v : V3) : v 0 ^ 2 + v 1 ^ 2 + v 2 ^ 2 = len v ^ 2 := (len_sq v).symm

/-- **C52, one point.** A (1, 3) array, or a single point: the field of the dipole. -/
theorem C52_one_partial (m v : V3) (hv : v ≠ 0) :
    calcDip [v] m = .ok [field m v] ∧ calcDipOne v m = .ok (field m v) := by
  have hl : len v ≠ 0 := by
    intro h
    obtain ⟨h0, h1, h2⟩ := eq_zero_of_len h
    exact hv (ext3 h0 h1 h2)
  have key : calcDip [v] m = .ok [field m v] := by
    unfold calcDip
    simp only [bcast, List.map_cons, List.map_nil, List.length_cons, List.length_nil, Nat.zero_add, if_true,
      List.getD_cons_zero, len_rsq, Real.sqrt_sq (len_nonneg v)]
    congr 2
    funext j
    have hd : dot m v = m 0 * v 0 + m 1 * v 1 + m 2 * v 2 := rfl
    unfold field
    rw [hd]
    field_simp
  refine ⟨key, ?_⟩
  unfold calcDipOne
  rw [key]

example := C52_one_partial ![0, 0, -7] ![3, -4, 12] (fun h => by simpa using congrFun h 0)

/-- **C52 fails**: for every number of points but 1 and 3 the call raises. -/
theorem C52_raises_violated (pts : List V3) (m : V3) (h1 : pts.length ≠ 1) (h3 : pts.length ≠ 3) :
    calcDip pts m = .error .valueError := by
  simp [calcDip, bcast, h1, h3]

example := C52_raises_violated [![1, 0, 0], ![2, 0, 0]] ![0, 0, 1] (by simp) (by simp)

/-- **C52 fails**: for three points the values are wrong. -/
theorem C52_three_violated :
    ∃ l, calcDip [![1, 0, 0], ![2, 0, 0], ![1, 0, 0]] ![1, 0, 0] = .ok l ∧
      (l.map fun v => v 0) = [2, 5, 2] ∧
      ([![1, 0, 0], ![2, 0, 0], ![1, 0, 0]].map fun v => field ![1, 0, 0] v 0) = [2, 1 / 4, 2] := by
  refine ⟨_, rfl, ?_, ?_⟩
  · simp
    norm_num
  · have l1 : len ![1, 0, 0] = 1 := by simp [len]
    have l2 : len ![2, 0, 0] = 2 := by
      simp [len]
    simp [field, l1, l2, dot]
    norm_num

end Viscid.Props
