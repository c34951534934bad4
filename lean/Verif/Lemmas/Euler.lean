import Verif.Model.Euler
import Verif.Lemmas.Rodrigues
/-!
# Lemmas on Euler angles
-/
namespace Viscid.Euler
open Matrix Viscid.Rotation Viscid.Spec.Rotation

theorem arctan2_sin_cos {a : ℝ} (h1 : -Real.pi < a) (h2 : a ≤ Real.pi) : arctan2 (Real.sin a) (Real.cos a) = a := by
  have h := Complex.arg_cos_add_sin_mul_I (θ := a) ⟨h1, h2⟩
  unfold arctan2
  convert h using 2
  apply Complex.ext
  · simp [Complex.cos_ofReal_re, Complex.sin_ofReal_im]
  · simp [Complex.sin_ofReal_re, Complex.cos_ofReal_im]

/-- The argument only depends on the direction. -/
theorem arctan2_scale {c y x : ℝ} (hc : 0 < c) : arctan2 (c * y) (c * x) = arctan2 y x := by
  unfold arctan2
  have : (⟨c * x, c * y⟩ : ℂ) = (c : ℂ) * ⟨x, y⟩ := by
    apply Complex.ext <;> simp
  rw [this, Complex.arg_real_mul _ hc]

theorem clip_id {a : ℝ} (h1 : -1 ≤ a) (h2 : a ≤ 1) : clip a = a := by
  unfold clip; rw [min_eq_left h2, max_eq_right h1]

theorem clip_sq {a b : ℝ} (h : a ^ 2 + b ^ 2 ≤ 1) : clip a = a ∧ clip b = b := by
  constructor <;> apply clip_id <;> nlinarith [sq_nonneg a, sq_nonneg b]

theorem sq_add_zero {a b : ℝ} (h : a ^ 2 + b ^ 2 = 0) : a = 0 ∧ b = 0 := by
  constructor <;> nlinarith [sq_nonneg a, sq_nonneg b]

theorem sq_le_one {a b c : ℝ} (h : a ^ 2 + b ^ 2 + c ^ 2 = 1) : a ^ 2 + b ^ 2 ≤ 1 ∧ -1 ≤ c ∧ c ≤ 1 := by
  refine ⟨?_, ?_, ?_⟩ <;> nlinarith [sq_nonneg a, sq_nonneg b, sq_nonneg c]

theorem eRot_isRot (θ : ℝ) (ax : Ax) : IsRot (eRot θ ax) := by
  have h := Real.cos_sq_add_sin_sq θ
  cases ax <;> apply isRot_of_entries <;> simp [eRot, Matrix.det_fin_three] <;> grind

theorem angle2rotRad_isRot (a : Ang) (i j k : Ax) : IsRot (angle2rotRad a i j k) :=
  (eRot_isRot _ _).mul ((eRot_isRot _ _).mul (eRot_isRot _ _))

theorem eRot_transpose (θ : ℝ) (ax : Ax) : (eRot θ ax)ᵀ = eRot (-θ) ax := by
  cases ax <;> apply ext9 <;> simp [eRot]

/-- What the table holds for the matrix made from three angles about different axes. -/
structure TBOf (t : TB) (a : Ang) : Prop where
  s1 : t.s1 = Real.sin a.a1
  c0c1 : t.c0c1 = Real.cos a.a0 * Real.cos a.a1
  s0c1 : t.s0c1 = Real.sin a.a0 * Real.cos a.a1
  s2c1 : t.s2c1 = Real.sin a.a2 * Real.cos a.a1
  c2c1 : t.c2c1 = Real.cos a.a2 * Real.cos a.a1
  s0p2 : a.a0 = 0 → t.s0p2 = Real.sin a.a2
  c0p2 : a.a0 = 0 → t.c0p2 = Real.cos a.a2

structure PEOf (t : PE) (a : Ang) : Prop where
  c1 : t.c1 = Real.cos a.a1
  s0s1 : t.s0s1 = Real.sin a.a0 * Real.sin a.a1
  c0s1 : t.c0s1 = Real.cos a.a0 * Real.sin a.a1
  s1s2 : t.s1s2 = Real.sin a.a1 * Real.sin a.a2
  s1c2 : t.s1c2 = Real.sin a.a1 * Real.cos a.a2
  s0p2 : a.a0 = 0 → t.s0p2 = Real.sin a.a2
  c0p2 : a.a0 = 0 → t.c0p2 = Real.cos a.a2

theorem tbTable_none {R : M3} {i j k : Ax} : tbTable R i j k = none ↔ i = j ∨ j = k ∨ i = k := by
  cases i <;> cases j <;> cases k <;> simp [tbTable]

theorem peTable_none {R : M3} {i j k : Ax} : peTable R i j k = none ↔ i = j ∨ i ≠ k := by
  cases i <;> cases j <;> cases k <;> simp [peTable]

theorem tb_of (a : Ang) {i j k : Ax} {t : TB} (h : tbTable (angle2rotRad a i j k) i j k = some t) : TBOf t a := by
  cases i <;> cases j <;> cases k <;> simp only [tbTable, reduceCtorEq, Option.some.injEq] at h <;> subst h <;>
    constructor <;> (try intro h0) <;> simp only [angle2rotRad, mul9] <;> (try rw [h0]) <;> simp [eRot] <;> ring

theorem pe_of (a : Ang) {i j k : Ax} {t : PE} (h : peTable (angle2rotRad a i j k) i j k = some t) : PEOf t a := by
  cases i <;> cases j <;> cases k <;> simp only [peTable, reduceCtorEq, Option.some.injEq] at h <;> subst h <;>
    constructor <;> (try intro h0) <;> simp only [angle2rotRad, mul9] <;> (try rw [h0]) <;> simp [eRot] <;> ring

def E : Fin 3 → V3
  | 0 => ![1, 0, 0]
  | 1 => ![0, 1, 0]
  | 2 => ![0, 0, 1]

theorem mulVec_E (R : M3) (i k : Fin 3) : (R *ᵥ E i) k = R k i := by
  match i with
  | 0 => simp [mulVec3, E]
  | 1 => simp [mulVec3, E]
  | 2 => simp [mulVec3, E]

theorem dot_E (v : V3) (i : Fin 3) : dot (E i) v = v i := by
  match i with
  | 0 => simp [dot, E]
  | 1 => simp [dot, E]
  | 2 => simp [dot, E]

theorem E_unit (i : Fin 3) : dot (E i) (E i) = 1 := by
  match i with
  | 0 => simp [dot, E]
  | 1 => simp [dot, E]
  | 2 => simp [dot, E]

/-- Two rotations with one row and one column in common, not meeting in plus or minus one, are equal. -/
theorem row_col {R S : M3} (hR : IsRot R) (hS : IsRot S) (i j : Fin 3) (hc : ∀ k, R k j = S k j)
    (hr : ∀ k, R i k = S i k) (hn : R i j ^ 2 ≠ 1) : R = S := by
  have hRt : R * Rᵀ = 1 := hR.1
  have hSt : S * Sᵀ = 1 := hS.1
  let w : V3 := Rᵀ *ᵥ E i
  have hw : w = Sᵀ *ᵥ E i := by
    ext k; show (Rᵀ *ᵥ E i) k = _; rw [mulVec_E, mulVec_E]; exact hr k
  have hRw : R *ᵥ w = E i := by
    show R *ᵥ (Rᵀ *ᵥ E i) = _; rw [Matrix.mulVec_mulVec, hRt, Matrix.one_mulVec]
  have hSw : S *ᵥ w = E i := by
    rw [hw, Matrix.mulVec_mulVec, hSt, Matrix.one_mulVec]
  have hcol : R *ᵥ E j = S *ᵥ E j := by
    ext k; rw [mulVec_E, mulVec_E]; exact hc k
  have hww : dot w w = 1 := by rw [← IsRot_dot hR, hRw, E_unit]
  have hwj : w j = R i j := by show (Rᵀ *ᵥ E i) j = _; rw [mulVec_E]; rfl
  let p : V3 := w - (w j) • E j
  have hpp : dot p p = 1 - R i j ^ 2 := by
    have h1 : dot p p = dot w w - 2 * w j * dot (E j) w + w j ^ 2 * dot (E j) (E j) := by
      simp only [p, dot, Pi.sub_apply, Pi.smul_apply, smul_eq_mul]; ring
    rw [h1, hww, E_unit, dot_E, hwj]; ring
  have hpl : len p ≠ 0 := by
    intro h
    rw [dot_self, h] at hpp
    exact hn (by linarith)
  have hjp : dot (E j) p = 0 := by
    rw [dot_E]
    simp only [p, Pi.sub_apply, Pi.smul_apply, smul_eq_mul]
    have : E j j = 1 := by have := dot_E (E j) j; rw [E_unit] at this; exact this.symm
    rw [this]; ring
  have hu : unit p = (1 / len p) • p := by ext k; simp only [unit, Pi.smul_apply, smul_eq_mul]; ring
  have hRp : R *ᵥ p = S *ᵥ p := by
    show R *ᵥ (w - (w j) • E j) = S *ᵥ (w - (w j) • E j)
    rw [Matrix.mulVec_sub, Matrix.mulVec_sub, Matrix.mulVec_smul, Matrix.mulVec_smul, hRw, hSw, hcol]
  refine eq_of_frame hR hS (E_unit j) (unit_dot hpl) ?_ hcol ?_
  · have := unit_dot hpl
    have h2 : dot (E j) (unit p) = dot (E j) p / len p := by
      simp only [dot, unit]; ring
    rw [h2, hjp, zero_div]
  · rw [hu, Matrix.mulVec_smul, Matrix.mulVec_smul, hRp]

/-- Two rotations with two columns in common are equal. -/
theorem two_cols {R S : M3} (hR : IsRot R) (hS : IsRot S) (i j : Fin 3) (hij : i ≠ j) (hi : ∀ k, R k i = S k i)
    (hj : ∀ k, R k j = S k j) : R = S := by
  refine eq_of_frame hR hS (E_unit i) (E_unit j) ?_ ?_ ?_
  · rw [dot_E]
    revert hij
    match i, j with
    | 0, 0 => simp
    | 0, 1 => simp [E]
    | 0, 2 => simp [E]
    | 1, 0 => simp [E]
    | 1, 1 => simp
    | 1, 2 => simp [E]
    | 2, 0 => simp [E]
    | 2, 1 => simp [E]
    | 2, 2 => simp
  · ext k; rw [mulVec_E, mulVec_E]; exact hi k
  · ext k; rw [mulVec_E, mulVec_E]; exact hj k


def idx : Ax → Fin 3
  | .x => 0
  | .y => 1
  | .z => 2

/-- The five main entries are the row of the last axis and the column of the first. -/
theorem tb_five {R S : M3} {i j k : Ax} {t t' : TB} (h : tbTable R i j k = some t) (h' : tbTable S i j k = some t')
    (e1 : t.s1 = t'.s1) (e2 : t.c0c1 = t'.c0c1) (e3 : t.s0c1 = t'.s0c1) (e4 : t.s2c1 = t'.s2c1)
    (e5 : t.c2c1 = t'.c2c1) : ∀ m, R m (idx i) = S m (idx i) ∧ R (idx k) m = S (idx k) m := by
  intro m
  cases i <;> cases j <;> cases k <;> simp only [tbTable, reduceCtorEq, Option.some.injEq] at h h' <;>
    subst h <;> subst h' <;> dsimp only at e1 e2 e3 e4 e5 <;>
    (match m with
      | 0 => simp only [idx]; constructor <;> linarith
      | 1 => simp only [idx]; constructor <;> linarith
      | 2 => simp only [idx]; constructor <;> linarith)

theorem tb_two {R S : M3} {i j k : Ax} {t t' : TB} (h : tbTable R i j k = some t) (h' : tbTable S i j k = some t')
    (e3 : t.s0c1 = t'.s0c1) (e6 : t.s0p2 = t'.s0p2)
    (e7 : t.c0p2 = t'.c0p2) : i ≠ j ∧ ∀ m, R m (idx j) = S m (idx j) := by
  cases i <;> cases j <;> cases k <;> simp only [tbTable, reduceCtorEq, Option.some.injEq] at h h' <;>
    subst h <;> subst h' <;> dsimp only at e3 e6 e7 <;> refine ⟨by decide, fun m => ?_⟩ <;>
    (match m with
      | 0 => simp only [idx]; linarith
      | 1 => simp only [idx]; linarith
      | 2 => simp only [idx]; linarith)

theorem tb_norm {R : M3} (hR : IsRot R) {i j k : Ax} {t : TB} (h : tbTable R i j k = some t) :
    t.c0c1 ^ 2 + t.s0c1 ^ 2 + t.s1 ^ 2 = 1 ∧ t.s2c1 ^ 2 + t.c2c1 ^ 2 + t.s1 ^ 2 = 1 ∧
    t.s0c1 ^ 2 + t.s0p2 ^ 2 + t.c0p2 ^ 2 = 1 ∧ R (idx k) (idx i) ^ 2 = t.s1 ^ 2 := by
  obtain ⟨h00, h11, h22, -⟩ := hR.entries
  obtain ⟨k00, k11, k22, -⟩ := hR.transpose.entries
  simp only [Matrix.transpose_apply] at k00 k11 k22
  cases i <;> cases j <;> cases k <;> simp only [tbTable, reduceCtorEq, Option.some.injEq] at h <;>
    subst h <;> refine ⟨?_, ?_, ?_, ?_⟩ <;> simp only [idx] <;> linarith

theorem pe_five {R S : M3} {i j k : Ax} {t t' : PE} (h : peTable R i j k = some t) (h' : peTable S i j k = some t')
    (e1 : t.c1 = t'.c1) (e2 : t.s0s1 = t'.s0s1) (e3 : t.c0s1 = t'.c0s1) (e4 : t.s1s2 = t'.s1s2)
    (e5 : t.s1c2 = t'.s1c2) : ∀ m, R m (idx i) = S m (idx i) ∧ R (idx k) m = S (idx k) m := by
  intro m
  cases i <;> cases j <;> cases k <;> simp only [peTable, reduceCtorEq, Option.some.injEq] at h h' <;>
    subst h <;> subst h' <;> dsimp only at e1 e2 e3 e4 e5 <;>
    (match m with
      | 0 => simp only [idx]; constructor <;> linarith
      | 1 => simp only [idx]; constructor <;> linarith
      | 2 => simp only [idx]; constructor <;> linarith)

theorem pe_two {R S : M3} {i j k : Ax} {t t' : PE} (h : peTable R i j k = some t) (h' : peTable S i j k = some t')
    (e3 : t.s0s1 = t'.s0s1) (e6 : t.s0p2 = t'.s0p2)
    (e7 : t.c0p2 = t'.c0p2) : i ≠ j ∧ ∀ m, R m (idx j) = S m (idx j) := by
  cases i <;> cases j <;> cases k <;> simp only [peTable, reduceCtorEq, Option.some.injEq] at h h' <;>
    subst h <;> subst h' <;> dsimp only at e3 e6 e7 <;> refine ⟨by decide, fun m => ?_⟩ <;>
    (match m with
      | 0 => simp only [idx]; linarith
      | 1 => simp only [idx]; linarith
      | 2 => simp only [idx]; linarith)

theorem pe_norm {R : M3} (hR : IsRot R) {i j k : Ax} {t : PE} (h : peTable R i j k = some t) :
    t.s0s1 ^ 2 + t.c0s1 ^ 2 + t.c1 ^ 2 = 1 ∧ t.s1s2 ^ 2 + t.s1c2 ^ 2 + t.c1 ^ 2 = 1 ∧
    t.s0s1 ^ 2 + t.s0p2 ^ 2 + t.c0p2 ^ 2 = 1 ∧ R (idx k) (idx i) ^ 2 = t.c1 ^ 2 := by
  obtain ⟨h00, h11, h22, -⟩ := hR.entries
  obtain ⟨k00, k11, k22, -⟩ := hR.transpose.entries
  simp only [Matrix.transpose_apply] at k00 k11 k22
  cases i <;> cases j <;> cases k <;> simp only [peTable, reduceCtorEq, Option.some.injEq] at h <;>
    subst h <;> refine ⟨?_, ?_, ?_, ?_⟩ <;> simp only [idx] <;> linarith

theorem idx_inj {i j : Ax} (h : i ≠ j) : idx i ≠ idx j := by
  revert h; cases i <;> cases j <;> decide

theorem thr_pos : 0 < singularThreshold := by unfold singularThreshold; positivity

theorem tbAngles_of {t : TB} {a : Ang} (h : TBOf t a) (h0 : -Real.pi < a.a0) (h0' : a.a0 ≤ Real.pi)
    (h2 : -Real.pi < a.a2) (h2' : a.a2 ≤ Real.pi) (h1 : -Real.pi < a.a1) (h1' : a.a1 ≤ Real.pi)
    (hc : singularThreshold ≤ Real.cos a.a1) : tbAngles t = a := by
  have hp := thr_pos
  have s0 := Real.cos_sq_add_sin_sq a.a0
  have s1 := Real.cos_sq_add_sin_sq a.a1
  have s2 := Real.cos_sq_add_sin_sq a.a2
  have hsq : √(t.c0c1 ^ 2 + t.s0c1 ^ 2) = Real.cos a.a1 := by
    rw [h.c0c1, h.s0c1, show (Real.cos a.a0 * Real.cos a.a1) ^ 2 + (Real.sin a.a0 * Real.cos a.a1) ^ 2
      = (Real.cos a.a1) ^ 2 by linear_combination (Real.cos a.a1) ^ 2 * s0]
    exact Real.sqrt_sq (by linarith)
  have hcl : clip (Real.cos a.a1) = Real.cos a.a1 := clip_id (Real.neg_one_le_cos _) (Real.cos_le_one _)
  have b0 : (Real.cos a.a0 * Real.cos a.a1) ^ 2 + (Real.sin a.a0 * Real.cos a.a1) ^ 2 ≤ 1 := by
    nlinarith [sq_nonneg (Real.sin a.a1)]
  have b2 : (Real.cos a.a2 * Real.cos a.a1) ^ 2 + (Real.sin a.a2 * Real.cos a.a1) ^ 2 ≤ 1 := by
    nlinarith [sq_nonneg (Real.sin a.a1)]
  unfold tbAngles
  dsimp only
  rw [hsq, hcl, if_neg (by rw [abs_of_pos (by linarith)]; linarith), h.s0c1, h.c0c1, h.s1, h.s2c1, h.c2c1,
    (clip_sq b0).1, (clip_sq b0).2, (clip_sq b2).1, (clip_sq b2).2,
    clip_id (Real.neg_one_le_sin _) (Real.sin_le_one _)]
  have hne : Real.cos a.a1 ≠ 0 := by linarith
  rw [mul_div_cancel_right₀ _ hne, mul_div_cancel_right₀ _ hne, mul_div_cancel_right₀ _ hne,
    mul_div_cancel_right₀ _ hne, arctan2_sin_cos h0 h0', arctan2_sin_cos h1 h1', arctan2_sin_cos h2 h2']

theorem peAngles_of {t : PE} {a : Ang} (h : PEOf t a) (h0 : -Real.pi < a.a0) (h0' : a.a0 ≤ Real.pi)
    (h2 : -Real.pi < a.a2) (h2' : a.a2 ≤ Real.pi) (h1 : -Real.pi < a.a1) (h1' : a.a1 ≤ Real.pi)
    (hc : singularThreshold ≤ Real.sin a.a1) : peAngles t = a := by
  have hp := thr_pos
  have s0 := Real.cos_sq_add_sin_sq a.a0
  have s1 := Real.cos_sq_add_sin_sq a.a1
  have s2 := Real.cos_sq_add_sin_sq a.a2
  have hsq : √(t.s0s1 ^ 2 + t.c0s1 ^ 2) = Real.sin a.a1 := by
    rw [h.s0s1, h.c0s1, show (Real.sin a.a0 * Real.sin a.a1) ^ 2 + (Real.cos a.a0 * Real.sin a.a1) ^ 2
      = (Real.sin a.a1) ^ 2 by linear_combination (Real.sin a.a1) ^ 2 * s0]
    exact Real.sqrt_sq (by linarith)
  have hcl : clip (Real.sin a.a1) = Real.sin a.a1 := clip_id (Real.neg_one_le_sin _) (Real.sin_le_one _)
  have b0 : (Real.sin a.a0 * Real.sin a.a1) ^ 2 + (Real.cos a.a0 * Real.sin a.a1) ^ 2 ≤ 1 := by
    nlinarith [sq_nonneg (Real.cos a.a1)]
  have b2 : (Real.sin a.a1 * Real.sin a.a2) ^ 2 + (Real.sin a.a1 * Real.cos a.a2) ^ 2 ≤ 1 := by
    nlinarith [sq_nonneg (Real.cos a.a1)]
  unfold peAngles
  dsimp only
  rw [hsq, hcl, if_neg (by rw [abs_of_pos (by linarith)]; linarith), h.s0s1, h.c0s1, h.c1, h.s1s2, h.s1c2,
    (clip_sq b0).1, (clip_sq b0).2, (clip_sq b2).1, (clip_sq b2).2,
    clip_id (Real.neg_one_le_cos _) (Real.cos_le_one _)]
  have hpos : 0 < Real.sin a.a1 := by linarith
  rw [arctan2_scale hpos, mul_comm (Real.sin a.a0), mul_comm (Real.cos a.a0), arctan2_scale hpos,
    arctan2_sin_cos h0 h0', arctan2_sin_cos h1 h1', arctan2_sin_cos h2 h2']

/-- The angles read from a rotation give it back. -/
theorem tb_repro {R : M3} (hR : IsRot R) {i j k : Ax} {t : TB} (h : tbTable R i j k = some t)
    (hc : Real.cos (tbAngles t).a1 = 0 ∨ singularThreshold ≤ |Real.cos (tbAngles t).a1|) :
    angle2rotRad (tbAngles t) i j k = R := by
  obtain ⟨n1, n2, n3, n4⟩ := tb_norm hR h
  have hS := angle2rotRad_isRot (tbAngles t) i j k
  obtain ⟨t', h'⟩ : ∃ t', tbTable (angle2rotRad (tbAngles t) i j k) i j k = some t' := by
    cases e : tbTable (angle2rotRad (tbAngles t) i j k) i j k with
    | some t' => exact ⟨t', rfl⟩
    | none =>
      rw [tbTable_none] at e
      rw [tbTable_none.2 e] at h
      cases h
  have o := tb_of _ h'
  have hs1 : clip t.s1 = t.s1 := clip_id (sq_le_one n1).2.1 (sq_le_one n1).2.2
  have hc1 : √(t.c0c1 ^ 2 + t.s0c1 ^ 2) ^ 2 = t.c0c1 ^ 2 + t.s0c1 ^ 2 := Real.sq_sqrt (by positivity)
  have hc0 : 0 ≤ √(t.c0c1 ^ 2 + t.s0c1 ^ 2) := Real.sqrt_nonneg _
  have hcl : clip √(t.c0c1 ^ 2 + t.s0c1 ^ 2) = √(t.c0c1 ^ 2 + t.s0c1 ^ 2) := by
    exact clip_id (by linarith) (by rw [Real.sqrt_le_one]; exact (sq_le_one n1).1)
  have k0 := clip_sq (a := t.c0c1) (b := t.s0c1) (sq_le_one n1).1
  have k2 := clip_sq (a := t.s2c1) (b := t.c2c1) (sq_le_one n2).1
  have kp := clip_sq (a := t.s0p2) (b := t.c0p2) (by have := sq_nonneg t.s0c1; linarith)
  have ha1 : (tbAngles t).a1 = arctan2 t.s1 √(t.c0c1 ^ 2 + t.s0c1 ^ 2) := by
    unfold tbAngles; dsimp only; split <;> rw [hs1, hcl]
  obtain ⟨q1, q2⟩ := arctan2_spec (s := t.s1) (c := √(t.c0c1 ^ 2 + t.s0c1 ^ 2)) (by rw [hc1]; linarith)
  rw [← ha1] at q1 q2
  rw [q1, abs_of_nonneg hc0] at hc
  have os := o.s1
  have oa := o.c0c1
  have ob := o.s0c1
  have oc := o.s2c1
  have od := o.c2c1
  rw [q2] at os
  rw [q1] at oa ob oc od
  generalize hr : √(t.c0c1 ^ 2 + t.s0c1 ^ 2) = c at *
  rcases hc with hc | hc
  · -- singular
    rw [hc] at hc1 oa ob oc od
    obtain ⟨z1, z2⟩ := sq_add_zero (a := t.c0c1) (b := t.s0c1) (by linarith)
    obtain ⟨z3, z4⟩ := sq_add_zero (a := t.s2c1) (b := t.c2c1) (by linarith)
    have ha : tbAngles t = ⟨0, (tbAngles t).a1, arctan2 t.s0p2 t.c0p2⟩ := by
      have : |clip √(t.c0c1 ^ 2 + t.s0c1 ^ 2)| < singularThreshold := by
        rw [hr, hcl, hc, abs_zero]; exact thr_pos
      unfold tbAngles; dsimp only; rw [if_pos this, kp.1, kp.2]
    have a0 : (tbAngles t).a0 = 0 := by rw [ha]
    have a2 : (tbAngles t).a2 = arctan2 t.s0p2 t.c0p2 := by rw [ha]
    have op := o.s0p2 a0
    have oq := o.c0p2 a0
    obtain ⟨r1, r2⟩ := arctan2_spec (s := t.s0p2) (c := t.c0p2) (by rw [z2] at n3; linarith)
    rw [a2, r2] at op
    rw [a2, r1] at oq
    have five := tb_five h' h os (by rw [oa, z1]; ring) (by rw [ob, z2]; ring) (by rw [oc, z3]; ring)
      (by rw [od, z4]; ring)
    obtain ⟨hij, two⟩ := tb_two h' h (by rw [ob, z2]; ring) op oq
    exact two_cols hS hR (idx i) (idx j) (idx_inj hij) (fun m => (five m).1) two
  · have hpos : 0 < c := lt_of_lt_of_le thr_pos hc
    have hne : c ≠ 0 := hpos.ne'
    have ha : tbAngles t = ⟨arctan2 (t.s0c1 / c) (t.c0c1 / c), (tbAngles t).a1, arctan2 (t.s2c1 / c) (t.c2c1 / c)⟩ := by
      have : ¬ |clip √(t.c0c1 ^ 2 + t.s0c1 ^ 2)| < singularThreshold := by
        rw [hr, hcl, abs_of_pos hpos]; linarith
      unfold tbAngles; dsimp only; rw [if_neg this, hr, hcl, k0.1, k0.2, k2.1, k2.2]
    have a0 : (tbAngles t).a0 = arctan2 (t.s0c1 / c) (t.c0c1 / c) := by rw [ha]
    have a2 : (tbAngles t).a2 = arctan2 (t.s2c1 / c) (t.c2c1 / c) := by rw [ha]
    obtain ⟨r1, r2⟩ := arctan2_spec (s := t.s0c1 / c) (c := t.c0c1 / c) (by field_simp; linarith)
    obtain ⟨r3, r4⟩ := arctan2_spec (s := t.s2c1 / c) (c := t.c2c1 / c) (by field_simp; linarith)
    rw [a0] at oa ob
    rw [a2] at oc od
    rw [r1, div_mul_cancel₀ _ hne] at oa
    rw [r2, div_mul_cancel₀ _ hne] at ob
    rw [r4, div_mul_cancel₀ _ hne] at oc
    rw [r3, div_mul_cancel₀ _ hne] at od
    have five := tb_five h' h os oa ob oc od
    refine row_col hS hR (idx k) (idx i) (fun m => (five m).1) (fun m => (five m).2) ?_
    rw [(five (idx i)).2, n4]
    have := pow_pos hpos 2
    linarith

theorem pe_repro {R : M3} (hR : IsRot R) {i j k : Ax} {t : PE} (h : peTable R i j k = some t)
    (hc : Real.sin (peAngles t).a1 = 0 ∨ singularThreshold ≤ |Real.sin (peAngles t).a1|) :
    angle2rotRad (peAngles t) i j k = R := by
  obtain ⟨n1, n2, n3, n4⟩ := pe_norm hR h
  have hS := angle2rotRad_isRot (peAngles t) i j k
  obtain ⟨t', h'⟩ : ∃ t', peTable (angle2rotRad (peAngles t) i j k) i j k = some t' := by
    cases e : peTable (angle2rotRad (peAngles t) i j k) i j k with
    | some t' => exact ⟨t', rfl⟩
    | none =>
      rw [peTable_none] at e
      rw [peTable_none.2 e] at h
      cases h
  have o := pe_of _ h'
  have hs1 : clip t.c1 = t.c1 := clip_id (sq_le_one n1).2.1 (sq_le_one n1).2.2
  have hc1 : √(t.s0s1 ^ 2 + t.c0s1 ^ 2) ^ 2 = t.s0s1 ^ 2 + t.c0s1 ^ 2 := Real.sq_sqrt (by positivity)
  have hc0 : 0 ≤ √(t.s0s1 ^ 2 + t.c0s1 ^ 2) := Real.sqrt_nonneg _
  have hcl : clip √(t.s0s1 ^ 2 + t.c0s1 ^ 2) = √(t.s0s1 ^ 2 + t.c0s1 ^ 2) := by
    exact clip_id (by linarith) (by rw [Real.sqrt_le_one]; exact (sq_le_one n1).1)
  have k0 := clip_sq (a := t.s0s1) (b := t.c0s1) (sq_le_one n1).1
  have k2 := clip_sq (a := t.s1s2) (b := t.s1c2) (sq_le_one n2).1
  have kp := clip_sq (a := t.s0p2) (b := t.c0p2) (by have := sq_nonneg t.s0s1; linarith)
  have ha1 : (peAngles t).a1 = arctan2 √(t.s0s1 ^ 2 + t.c0s1 ^ 2) t.c1 := by
    unfold peAngles; dsimp only; split <;> rw [hs1, hcl]
  obtain ⟨q1, q2⟩ := arctan2_spec (s := √(t.s0s1 ^ 2 + t.c0s1 ^ 2)) (c := t.c1) (by rw [hc1]; linarith)
  rw [← ha1] at q1 q2
  rw [q2, abs_of_nonneg hc0] at hc
  have os := o.c1
  have oa := o.s0s1
  have ob := o.c0s1
  have oc := o.s1s2
  have od := o.s1c2
  rw [q1] at os
  rw [q2] at oa ob oc od
  generalize hr : √(t.s0s1 ^ 2 + t.c0s1 ^ 2) = c at *
  rcases hc with hc | hc
  · rw [hc] at hc1 oa ob oc od
    obtain ⟨z1, z2⟩ := sq_add_zero (a := t.s0s1) (b := t.c0s1) (by linarith)
    obtain ⟨z3, z4⟩ := sq_add_zero (a := t.s1s2) (b := t.s1c2) (by linarith)
    have ha : peAngles t = ⟨0, (peAngles t).a1, arctan2 t.s0p2 t.c0p2⟩ := by
      have : |clip √(t.s0s1 ^ 2 + t.c0s1 ^ 2)| < singularThreshold := by
        rw [hr, hcl, hc, abs_zero]; exact thr_pos
      unfold peAngles; dsimp only; rw [if_pos this, kp.1, kp.2]
    have a0 : (peAngles t).a0 = 0 := by rw [ha]
    have a2 : (peAngles t).a2 = arctan2 t.s0p2 t.c0p2 := by rw [ha]
    have op := o.s0p2 a0
    have oq := o.c0p2 a0
    obtain ⟨r1, r2⟩ := arctan2_spec (s := t.s0p2) (c := t.c0p2) (by rw [z1] at n3; linarith)
    rw [a2, r2] at op
    rw [a2, r1] at oq
    have five := pe_five h' h os (by rw [oa, z1]; ring) (by rw [ob, z2]; ring) (by rw [oc, z3]; ring)
      (by rw [od, z4]; ring)
    obtain ⟨hij, two⟩ := pe_two h' h (by rw [oa, z1]; ring) op oq
    exact two_cols hS hR (idx i) (idx j) (idx_inj hij) (fun m => (five m).1) two
  · have hpos : 0 < c := lt_of_lt_of_le thr_pos hc
    have hne : c ≠ 0 := hpos.ne'
    have sc (y x : ℝ) : arctan2 y x = arctan2 (y / c) (x / c) := by
      rw [← arctan2_scale (c := c) (y := y / c) (x := x / c) hpos, mul_div_cancel₀ _ hne, mul_div_cancel₀ _ hne]
    have ha : peAngles t = ⟨arctan2 (t.s0s1 / c) (t.c0s1 / c), (peAngles t).a1, arctan2 (t.s1s2 / c) (t.s1c2 / c)⟩ := by
      have : ¬ |clip √(t.s0s1 ^ 2 + t.c0s1 ^ 2)| < singularThreshold := by
        rw [hr, hcl, abs_of_pos hpos]; linarith
      rw [← sc, ← sc]
      unfold peAngles; dsimp only; rw [if_neg this, k0.1, k0.2, k2.1, k2.2]
    have a0 : (peAngles t).a0 = arctan2 (t.s0s1 / c) (t.c0s1 / c) := by rw [ha]
    have a2 : (peAngles t).a2 = arctan2 (t.s1s2 / c) (t.s1c2 / c) := by rw [ha]
    obtain ⟨r1, r2⟩ := arctan2_spec (s := t.s0s1 / c) (c := t.c0s1 / c) (by field_simp; linarith)
    obtain ⟨r3, r4⟩ := arctan2_spec (s := t.s1s2 / c) (c := t.s1c2 / c) (by field_simp; linarith)
    rw [a0] at oa ob
    rw [a2] at oc od
    rw [r2, div_mul_cancel₀ _ hne] at oa
    rw [r1, div_mul_cancel₀ _ hne] at ob
    rw [r4, mul_div_cancel₀ _ hne] at oc
    rw [r3, mul_div_cancel₀ _ hne] at od
    have five := pe_five h' h os oa ob oc od
    refine row_col hS hR (idx k) (idx i) (fun m => (five m).1) (fun m => (five m).2) ?_
    rw [(five (idx i)).2, n4]
    have := pow_pos hpos 2
    linarith

end Viscid.Euler
