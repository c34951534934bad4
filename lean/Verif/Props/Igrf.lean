import Verif.Props.Cotr
import Mathlib.Tactic.Positivity
/-!
# C72, C73: the dipole axis of `Cotr`, and the special day without tilt
-/
namespace Viscid.Props
open Matrix Viscid.Rotation Viscid.Spec.Rotation Viscid.Cotr

theorem lerp_mem {x0 x1 y0 y1 x lo hi : ℝ} (h0 : x0 ≤ x) (h1 : x ≤ x1) (hx : x0 < x1)
    (a0 : lo ≤ y0) (a1 : y0 ≤ hi) (b0 : lo ≤ y1) (b1 : y1 ≤ hi) :
    lo ≤ (y1 - y0) / (x1 - x0) * (x - x0) + y0 ∧ (y1 - y0) / (x1 - x0) * (x - x0) + y0 ≤ hi := by
  have hd : 0 < x1 - x0 := by linarith
  obtain ⟨t, ht⟩ : ∃ t, t = (x - x0) / (x1 - x0) := ⟨_, rfl⟩
  have t0 : 0 ≤ t := by rw [ht]; exact div_nonneg (by linarith) hd.le
  have t1 : t ≤ 1 := by rw [ht, div_le_one hd]; linarith
  have e : (y1 - y0) / (x1 - x0) * (x - x0) + y0 = (1 - t) * y0 + t * y1 := by
    rw [ht]; field_simp; ring
  rw [e]
  constructor <;> nlinarith

/-- Years increase along the table. -/
def Increasing : List (ℝ × ℝ) → Prop
  | [] => True
  | [_] => True
  | a :: b :: r => a.1 < b.1 ∧ Increasing (b :: r)

theorem interp_mem {lo hi : ℝ} (x : ℝ) : ∀ l : List (ℝ × ℝ), l ≠ [] → Increasing l →
    (∀ e ∈ l, lo ≤ e.2 ∧ e.2 ≤ hi) → lo ≤ interp x l ∧ interp x l ≤ hi
  | [], h, _, _ => absurd rfl h
  | [(x0, y)], _, _, h => h (x0, y) (by simp)
  | (x0, y0) :: (x1, y1) :: r, _, hi', h => by
    have e0 := h (x0, y0) (by simp)
    have e1 := h (x1, y1) (by simp)
    unfold interp
    split
    · exact e0
    · rename_i n0
      split
      · rename_i n1
        exact lerp_mem (le_of_not_ge n0) n1 hi'.1 e0.1 e0.2 e1.1 e1.2
      · exact interp_mem x ((x1, y1) :: r) (by simp) hi'.2 (fun e he => h e (List.mem_cons_of_mem _ he))

theorem table_ok (f : Row → ℝ) : Increasing (igrf.map fun r => (r.year, f r)) := by
  simp [igrf, Increasing]
  norm_num

theorem coefs_range (p : Params) (hn : p.notilt = false) :
    (-30554 ≤ p.coefs.1 ∧ p.coefs.1 ≤ -29442) ∧ (-2250 ≤ p.coefs.2.1 ∧ p.coefs.2.1 ≤ -1501) ∧
    (4797 ≤ p.coefs.2.2 ∧ p.coefs.2.2 ≤ 5820) := by
  unfold Params.coefs
  rw [if_neg (by simp [hn])]
  refine ⟨?_, ?_, ?_⟩
  · apply interp_mem _ _ (by simp [igrf]) (table_ok _)
    intro e he
    simp only [igrf, List.map_cons, List.map_nil, List.mem_cons, List.not_mem_nil, or_false] at he
    rcases he with rfl | rfl | rfl | rfl | rfl | rfl | rfl | rfl | rfl | rfl | rfl | rfl | rfl | rfl <;> norm_num
  · apply interp_mem _ _ (by simp [igrf]) (table_ok _)
    intro e he
    simp only [igrf, List.map_cons, List.map_nil, List.mem_cons, List.not_mem_nil, or_false] at he
    rcases he with rfl | rfl | rfl | rfl | rfl | rfl | rfl | rfl | rfl | rfl | rfl | rfl | rfl | rfl <;> norm_num
  · apply interp_mem _ _ (by simp [igrf]) (table_ok _)
    intro e he
    simp only [igrf, List.map_cons, List.map_nil, List.mem_cons, List.not_mem_nil, or_false] at he
    rcases he with rfl | rfl | rfl | rfl | rfl | rfl | rfl | rfl | rfl | rfl | rfl | rfl | rfl | rfl <;> norm_num

theorem interp_before (x x0 y0 : ℝ) (l : List (ℝ × ℝ)) (h : x ≤ x0) : interp x ((x0, y0) :: l) = y0 := by
  cases l with
  | nil => rfl
  | cons b r => obtain ⟨x1, y1⟩ := b; unfold interp; rw [if_pos h]

theorem interp_between {x0 y0 x1 y1 x : ℝ} (h0 : x0 ≤ x) (h1 : x ≤ x1) (post : List (ℝ × ℝ)) :
    ∀ pre : List (ℝ × ℝ), Increasing (pre ++ (x0, y0) :: (x1, y1) :: post) →
      interp x (pre ++ (x0, y0) :: (x1, y1) :: post) = (y1 - y0) / (x1 - x0) * (x - x0) + y0 := by
  intro pre
  induction pre with
  | nil =>
    intro hi
    show interp x ((x0, y0) :: (x1, y1) :: post) = _
    unfold interp
    by_cases h : x ≤ x0
    · have : x = x0 := le_antisymm h h0
      rw [if_pos h, this]; ring
    · rw [if_neg h, if_pos h1]
  | cons a r ih =>
    intro hi
    obtain ⟨xa, ya⟩ := a
    cases r with
    | nil =>
      have hlt : xa < x0 := hi.1
      show interp x ((xa, ya) :: (x0, y0) :: (x1, y1) :: post) = _
      unfold interp
      rw [if_neg (by linarith)]
      split
      · rename_i h
        have : x = x0 := le_antisymm h h0
        rw [this]
        have hd : x0 - xa ≠ 0 := by linarith
        field_simp
        ring
      · exact ih hi.2
    | cons b r' =>
      obtain ⟨xb, yb⟩ := b
      have hlt : xa < xb := hi.1
      have hb : xb < x0 := by
        have hi2 : Increasing ((xb, yb) :: (r' ++ (x0, y0) :: (x1, y1) :: post)) := hi.2
        clear ih hi
        induction r' generalizing xb yb xa with
        | nil => exact hi2.1
        | cons c r'' ih2 =>
          obtain ⟨xc, yc⟩ := c
          exact lt_trans hi2.1 (ih2 xb xc yc hi2.1 hi2.2)
      show interp x ((xa, ya) :: (xb, yb) :: (r' ++ (x0, y0) :: (x1, y1) :: post)) = _
      unfold interp
      rw [if_neg (by linarith), if_neg (by linarith)]
      exact ih hi.2

theorem interp_after {x : ℝ} (xn yn : ℝ) (h : xn ≤ x) :
    ∀ pre : List (ℝ × ℝ), Increasing (pre ++ [(xn, yn)]) → interp x (pre ++ [(xn, yn)]) = yn := by
  intro pre
  induction pre with
  | nil => intro _; rfl
  | cons a r ih =>
    intro hi
    obtain ⟨xa, ya⟩ := a
    have key : ∀ (r : List (ℝ × ℝ)) (xa ya : ℝ), Increasing ((xa, ya) :: (r ++ [(xn, yn)])) → xa < xn := by
      intro r
      induction r with
      | nil => intro xa ya h; exact h.1
      | cons c r ih => intro xa ya h; exact lt_trans h.1 (ih c.1 c.2 h.2)
    cases r with
    | nil =>
      have hlt : xa < xn := hi.1
      show interp x ((xa, ya) :: (xn, yn) :: []) = _
      unfold interp
      rw [if_neg (by linarith)]
      split
      · rename_i h'
        have : x = xn := le_antisymm h' h
        rw [this]
        have hd : xn - xa ≠ 0 := by linarith
        field_simp; ring
      · rfl
    | cons b r' =>
      obtain ⟨xb, yb⟩ := b
      have hlt : xa < xb := hi.1
      have hb : xb < xn := key r' xb yb hi.2
      show interp x ((xa, ya) :: (xb, yb) :: (r' ++ [(xn, yn)])) = _
      unfold interp
      rw [if_neg (by linarith), if_neg (by linarith)]
      exact ih hi.2

/-- **C72, the coefficients** between two consecutive rows of the table are interpolated linearly, and
    before the first and after the last they are constant. -/
theorem C72_coefficients (p : Params) (hn : p.notilt = false) :
    (∀ pre r r' post, igrf = pre ++ r :: r' :: post → ∀ t : ℝ, 0 ≤ t → t ≤ 1 →
      asYears p.days = (1 - t) * r.year + t * r'.year →
      p.coefs = ((1 - t) * r.g10 + t * r'.g10, (1 - t) * r.g11 + t * r'.g11, (1 - t) * r.h11 + t * r'.h11)) ∧
    (asYears p.days ≤ 1950 → p.coefs = (-30554, -2250, 5815)) ∧
    (2015 ≤ asYears p.days → p.coefs = (-29442, -1501, 4797.10)) := by
  unfold Params.coefs
  rw [if_neg (by simp [hn])]
  refine ⟨?_, ?_, ?_⟩
  · intro pre r r' post e t t0 t1 hy
    have aux : ∀ f : Row → ℝ, interp (asYears p.days) (igrf.map fun r => (r.year, f r)) =
        (1 - t) * f r + t * f r' := by
      intro f
      have hinc := table_ok f
      rw [e] at hinc ⊢
      rw [List.map_append, List.map_cons, List.map_cons] at hinc ⊢
      have hlt : r.year < r'.year := by
        have : ∀ pre : List (ℝ × ℝ), Increasing (pre ++ (r.year, f r) :: (r'.year, f r') :: post.map fun r => (r.year, f r)) →
            r.year < r'.year := by
          intro pre
          induction pre with
          | nil => intro h; exact h.1
          | cons a q ih =>
            intro h
            apply ih
            cases q with
            | nil => exact h.2
            | cons b q => exact h.2
        exact this _ hinc
      rw [interp_between (by rw [hy]; nlinarith) (by rw [hy]; nlinarith) _ _ hinc, hy]
      have hd : r'.year - r.year ≠ 0 := by linarith
      field_simp
      ring
    rw [aux, aux, aux]
  · intro h
    rw [show igrf = ⟨1950, -30554, -2250, 5815⟩ :: igrf.tail from rfl]
    simp only [List.map_cons]
    rw [interp_before _ _ _ _ h, interp_before _ _ _ _ h, interp_before _ _ _ _ h]
  · intro h
    have hlast : igrf = igrf.dropLast ++ [⟨2015, -29442, -1501, 4797.10⟩] := rfl
    have aux : ∀ f : Row → ℝ, interp (asYears p.days) (igrf.map fun r => (r.year, f r)) =
        f ⟨2015, -29442, -1501, 4797.10⟩ := by
      intro f
      have hinc := table_ok f
      rw [hlast, List.map_append] at hinc ⊢
      exact interp_after 2015 _ h _ hinc
    rw [aux, aux, aux]

theorem lon_cos_sin (p : Params) :
    √(p.coefs.2.1 ^ 2 + p.coefs.2.2 ^ 2) * Real.cos (lonP p) = -p.coefs.2.1 ∧
    √(p.coefs.2.1 ^ 2 + p.coefs.2.2 ^ 2) * Real.sin (lonP p) = -p.coefs.2.2 := by
  obtain ⟨h1, h2⟩ := arctan2_polar p.coefs.2.2 p.coefs.2.1
  unfold lonP
  rw [Real.cos_add_pi, Real.sin_add_pi]
  constructor <;> linarith

theorem qg_value (p : Params) (hn : p.notilt = false) :
    qgP p 0 = 1 / p.coefs.1 * p.coefs.2.1 ∧ qgP p 1 = 1 / p.coefs.1 * p.coefs.2.2 ∧ 0 < qgP p 2 := by
  obtain ⟨⟨a1, a2⟩, ⟨b1, b2⟩, c1, c2⟩ := coefs_range p hn
  obtain ⟨k1, k2⟩ := lon_cos_sin p
  unfold qgP latP
  generalize lonP p = lam at *
  generalize p.coefs.1 = g at *
  generalize p.coefs.2.1 = u at *
  generalize p.coefs.2.2 = w at *
  have hR2 : √(u ^ 2 + w ^ 2) ^ 2 = u ^ 2 + w ^ 2 := Real.sq_sqrt (by positivity)
  have hR0 := Real.sqrt_nonneg (u ^ 2 + w ^ 2)
  have hRp : 4000 < √(u ^ 2 + w ^ 2) := by
    apply Real.lt_sqrt_of_sq_lt; nlinarith
  have hRl : √(u ^ 2 + w ^ 2) < 20000 := by
    rw [Real.sqrt_lt' (by norm_num)]; nlinarith
  have hcs := Real.sin_sq_add_cos_sq lam
  set R := √(u ^ 2 + w ^ 2) with hRd
  have htop : u * Real.cos lam + w * Real.sin lam = -R := by
    have e1 : u = -(R * Real.cos lam) := by linarith
    have e2 : w = -(R * Real.sin lam) := by linarith
    rw [e1, e2]; linear_combination -R * hcs
  rw [htop]
  have hx : -R / g = R / (-g) := by rw [neg_div, div_neg]
  have hg : 0 < -g := by linarith
  have x0 : -1 < -R / g := by rw [hx]; have := div_pos (by linarith : 0 < R) hg; linarith
  have x1 : -R / g < 1 := by rw [hx, div_lt_one hg]; linarith
  rw [Real.cos_pi_div_two_sub, Real.sin_pi_div_two_sub, Real.sin_arcsin x0.le x1.le, Real.cos_arcsin]
  have hgne : g ≠ 0 := by linarith
  refine ⟨?_, ?_, ?_⟩
  · show -R / g * Real.cos lam = _
    have : u = -(R * Real.cos lam) := by linarith
    rw [this]; field_simp
  · show -R / g * Real.sin lam = _
    have : w = -(R * Real.sin lam) := by linarith
    rw [this]; field_simp
  · show 0 < √(1 - (-R / g) ^ 2)
    apply Real.sqrt_pos.2
    nlinarith

/-- **C72, what is true.** The dipole axis lies in the northern hemisphere, at the longitude of minus the
    first order terms, `-(g11, h11)`, at every time but the special one. -/
theorem C72_axis_partial (p : Params) (hn : p.notilt = false) (h : List Call) :
    ∃ q : V3, (dipGeo p (after p h)).1 = .ok q ∧ len q = 1 ∧ 0 < q 2 ∧
      ∃ r : ℝ, 0 < r ∧ q 0 = -r * p.coefs.2.1 ∧ q 1 = -r * p.coefs.2.2 := by
  obtain ⟨h0, h1, h2⟩ := qg_value p hn
  have hg := (coefs_range p hn).1.2
  refine ⟨qgP p, (dipGeo_tri p _ (after_inv p _)).1, qgP_len p, h2, -(1 / p.coefs.1), ?_, ?_, ?_⟩
  · have := one_div_neg.2 (by linarith : p.coefs.1 < 0); linarith
  · rw [h0]; ring
  · rw [h1]; ring

/-- **C72 fails** at every time but the special one: the axis is not along minus the first order terms
    (the latitude is computed with `arcsin` of the ratio whose tangent is meant). -/
theorem C72_direction_violated (p : Params) (hn : p.notilt = false) (h : List Call) :
    ∃ q : V3, (dipGeo p (after p h)).1 = .ok q ∧
      ¬ ∃ r : ℝ, 0 < r ∧ q = vsmul (-r) ![p.coefs.2.1, p.coefs.2.2, p.coefs.1] := by
  obtain ⟨h0, h1, h2⟩ := qg_value p hn
  obtain ⟨⟨a1, a2⟩, ⟨b1, b2⟩, c1, c2⟩ := coefs_range p hn
  refine ⟨qgP p, (dipGeo_tri p _ (after_inv p _)).1, ?_⟩
  rintro ⟨r, hr, e⟩
  have e1 := congrFun e 1
  have e2 := congrFun e 2
  simp [vsmul] at e1 e2
  rw [h1] at e1
  have hr' : r = -(1 / p.coefs.1) := by
    have hne : p.coefs.2.2 ≠ 0 := by linarith
    apply mul_right_cancel₀ hne
    linarith
  have hq2 : qgP p 2 = 1 := by
    rw [e2, hr']
    have hne : p.coefs.1 ≠ 0 := by linarith
    field_simp
  have hl := qgP_len p
  have hl2 : len (qgP p) ^ 2 = qgP p 0 ^ 2 + qgP p 1 ^ 2 + qgP p 2 ^ 2 := len_sq _
  rw [hl, hq2] at hl2
  have : qgP p 1 = 0 := by nlinarith [sq_nonneg (qgP p 0), sq_nonneg (qgP p 1)]
  rw [h1] at this
  have hne : p.coefs.2.2 ≠ 0 := by linarith
  have hne' : (1 / p.coefs.1) ≠ 0 := one_div_ne_zero (by linarith)
  exact absurd this (mul_ne_zero hne' hne)

theorem notilt_iff (p : Params) :
    p.notilt = true ↔ p.notilt1967 = true ∧ |asYears p.days - 1967| < 0.0006 := by
  unfold Params.notilt
  rw [Bool.and_eq_true, decide_eq_true_iff]

theorem notilt_false_of {p : Params} (h : 0.0006 ≤ |asYears p.days - 1967|) : p.notilt = false := by
  cases e : p.notilt with
  | false => rfl
  | true => have := ((notilt_iff p).1 e).2; linarith

/-- The year 2000 is an ordinary time. -/
theorem y2000 : ({ days := 10957 } : Params).notilt = false := by
  apply notilt_false_of
  unfold asYears
  rw [abs_of_nonneg (by norm_num)]
  norm_num

example : ∃ q : V3, (dipGeo { days := 10957 } (after { days := 10957 } [])).1 = .ok q ∧ 0 < q 2 := by
  obtain ⟨q, h, -, h2, -⟩ := C72_axis_partial _ y2000 []
  exact ⟨q, h, h2⟩

/-! ### C73 -/

/-- **C73, what is true.** In a window of about 10 hours within 1967-01-01 (from about 01:19 to 11:50), with the
    flag and without angles given, every transform between systems other than mhd is the identity. -/
theorem C73_window_partial (d : ℝ) (hd : |d + 1095.726| < 0.2191452) (h : List Call) (a b : Sys)
    (ha : a ∈ geocentric) (hb : b ∈ geocentric) (ha' : a ≠ .mhd) (hb' : b ≠ .mhd) (v : V3) :
    (transform { days := d } a b v (after { days := d } h)).1 = .ok v := by
  have hn : ({ days := d } : Params).notilt = true := by
    rw [notilt_iff]
    refine ⟨rfl, ?_⟩
    unfold asYears
    have e : d / 365.242 + 1970 - 1967 = (d + 1095.726) / 365.242 := by field_simp; ring
    rw [e, abs_div, abs_of_pos (by norm_num : (0:ℝ) < 365.242), div_lt_iff₀ (by norm_num)]
    norm_num at hd ⊢
    linarith
  have hdis : ({ days := d } : Params).disabled = false := rfl
  obtain ⟨b1, b2, b5⟩ := notilt_B hn
  obtain ⟨b3, b4⟩ := notilt_angles hn hdis
  have hF : ∀ s ∈ geocentric, s ≠ .mhd → F { days := d } s = 1 := by
    intro s hs hs'
    simp only [geocentric, List.mem_cons, List.not_mem_nil, or_false] at hs
    rcases hs with rfl | rfl | rfl | rfl | rfl | rfl | rfl <;> simp [F, b1, b2, b3, b4, b5] at *
  rw [(transform_tri _ _ _ _ _ (after_inv _ _)).1, transformR_ok _ ha hb (not_blocked hdis _ _), hF a ha ha', hF b hb hb']
  simp

/-- **C73 fails** at 1967-01-01T00:00, the default time of the class: the transform from geo to mag is not
    the identity. -/
theorem C73_midnight_violated :
    ∃ v, (transform { days := day1967 } .geo .mag v (init { days := day1967 })).1 ≠ .ok v := by
  have hn : ({ days := day1967 } : Params).notilt = false := by
    apply notilt_false_of
    unfold asYears day1967
    rw [abs_of_neg (by norm_num)]
    norm_num
  obtain ⟨h0, h1, h2⟩ := qg_value _ hn
  obtain ⟨⟨a1, a2⟩, ⟨b1, b2⟩, c1, c2⟩ := coefs_range _ hn
  refine ⟨qgP { days := day1967 }, fun e => ?_⟩
  rw [(transform_tri _ _ _ _ _ (init_inv _)).1,
    transformR_ok _ (by simp [geocentric]) (by simp [geocentric]) (not_blocked rfl _ _), geo_mag_vec] at e
  have e : (![0, 0, 1] : V3) = qgP { days := day1967 } := by simpa using e
  have e1 := congrFun e 1
  rw [h1] at e1
  have hne : (1 / ({ days := day1967 } : Params).coefs.1) ≠ 0 := one_div_ne_zero (by linarith)
  exact absurd e1.symm (mul_ne_zero hne (by linarith))

example : |(-1095.7 : ℝ) + 1095.726| < 0.2191452 := by
  rw [abs_of_pos (by norm_num)]; norm_num

end Viscid.Props
