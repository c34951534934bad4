import Verif.Model.Mpause
import Verif.Spec.Mpause
import Mathlib.Analysis.Calculus.Deriv.Pow
import Mathlib.Analysis.Calculus.Deriv.Mul
import Mathlib.Analysis.Calculus.Deriv.Add
import Mathlib.Tactic.Linarith
import Mathlib.Tactic.LinearCombination
import Mathlib.Tactic.Ring
import Mathlib.Tactic.FieldSimp
import Mathlib.Tactic.NormNum
import Mathlib.Tactic.Positivity
import Mathlib.Tactic.FinCases
/-!
# C138 normals of paraboloids, C139 edges of the magnetopause, C140 shear across it
-/
namespace Viscid.Props
open Viscid.Mpause Viscid.Spec.Mpause Viscid.Spec.Minvar
open Viscid.Minvar (V dot)

theorem along_dot (u v : V) : along u v = dot u v := by unfold along dot; rw [Fin.sum_univ_three]

theorem deriv_y (p : Parab) (y z : ℝ) : HasDerivAt (fun y => paraboloid p y z) (p.ax * (2 * (y - p.y0) / p.ay ^ 2)) y := by
  have h1 : HasDerivAt (fun y => (y - p.y0) / p.ay) (1 / p.ay) y := ((hasDerivAt_id y).sub_const p.y0).div_const p.ay
  have h2 := (((h1.pow 2).add_const (((z - p.z0) / p.az) ^ 2)).const_mul p.ax).add_const p.x0
  refine h2.congr_deriv ?_
  by_cases h : p.ay = 0
  · simp [h]
  · norm_num
    field_simp
    simp

theorem deriv_z (p : Parab) (y z : ℝ) : HasDerivAt (fun z => paraboloid p y z) (p.ax * (2 * (z - p.z0) / p.az ^ 2)) z := by
  have h1 : HasDerivAt (fun z => (z - p.z0) / p.az) (1 / p.az) z := ((hasDerivAt_id z).sub_const p.z0).div_const p.az
  have h2 := (((h1.pow 2).const_add (((y - p.y0) / p.ay) ^ 2)).const_mul p.ax).add_const p.x0
  refine h2.congr_deriv ?_
  by_cases h : p.az = 0
  · simp [h]
  · norm_num
    field_simp
    simp

theorem norm_pos_of {v : V} (h : v 0 ≠ 0) : 0 < Minvar.norm v := by
  refine Real.sqrt_pos.mpr ?_
  unfold dot
  have : 0 < v 0 * v 0 := mul_self_pos.mpr h
  nlinarith [mul_self_nonneg (v 1), mul_self_nonneg (v 2)]

/-- C138: the normal is at right angles to the surface wherever it is asked for; of length one, if that is wanted, and otherwise in the
    same direction. -/
theorem C138_normal (p : Parab) (y z : ℝ) (hax : p.ax ≠ 0) :
    (∀ b, Normal (paraboloid p) y z (normal p y z b)) ∧ along (normal p y z true) (normal p y z true) = 1 ∧
    Same (normal p y z false) (normal p y z true) ∧ paraboloid p p.y0 p.z0 = p.x0 := by
  have hn : 0 < Minvar.norm (normal p y z false) := by
    apply norm_pos_of
    simp [normal, hax]
  have ht : ∀ i, normal p y z true i = normal p y z false i / Minvar.norm (normal p y z false) := fun i => rfl
  have hf : Normal (paraboloid p) y z (normal p y z false) := by
    refine ⟨⟨_, deriv_y p y z, ?_⟩, ⟨_, deriv_z p y z, ?_⟩⟩
    · simp only [along, Fin.sum_univ_three, normal, Bool.false_eq_true, if_false, Matrix.cons_val_zero, Matrix.cons_val_one,
        Matrix.cons_val]
      field_simp
      ring
    · simp only [along, Fin.sum_univ_three, normal, Bool.false_eq_true, if_false, Matrix.cons_val_zero, Matrix.cons_val_one,
        Matrix.cons_val]
      field_simp
      ring
  have scale : ∀ w : V, along (normal p y z false) w = 0 → along (normal p y z true) w = 0 := by
    intro w hw
    rw [along, Fin.sum_univ_three] at hw ⊢
    simp only [ht]
    field_simp
    linarith
  refine ⟨?_, ?_, ⟨1 / Minvar.norm (normal p y z false), by positivity, fun i => ?_⟩, ?_⟩
  · intro b
    cases b
    · exact hf
    · obtain ⟨⟨d, h1, h2⟩, e, h3, h4⟩ := hf
      exact ⟨⟨d, h1, scale _ h2⟩, e, h3, scale _ h4⟩
  · have hsq : Minvar.norm (normal p y z false) * Minvar.norm (normal p y z false) = dot (normal p y z false) (normal p y z false) := by
      refine Real.mul_self_sqrt ?_
      unfold dot
      nlinarith [mul_self_nonneg (normal p y z false 0), mul_self_nonneg (normal p y z false 1), mul_self_nonneg (normal p y z false 2)]
    rw [along, Fin.sum_univ_three]
    simp only [ht]
    unfold dot at hsq
    field_simp
    linarith
  · rw [ht]; ring
  · simp [paraboloid]

/-- C138: the normal is that of the surface, whatever its parameters: those of the same surface have the same one, if they open in the same
    direction. -/
theorem C138_unique (p q : Parab) (y z : ℝ) (hp : 0 < p.ax * q.ax) (h : paraboloid p = paraboloid q) :
    normal p y z true = normal q y z true := by
  have hpa : p.ax ≠ 0 := fun h => by rw [h, zero_mul] at hp; exact lt_irrefl _ hp
  have hqa : q.ax ≠ 0 := fun h => by rw [h, mul_zero] at hp; exact lt_irrefl _ hp
  obtain ⟨hP, hP1, -, -⟩ := C138_normal p y z hpa
  obtain ⟨hQ, hQ1, -, -⟩ := C138_normal q y z hqa
  obtain ⟨⟨d, d1, d2⟩, e, e1, e2⟩ := hP true
  obtain ⟨⟨d', d1', d2'⟩, e', e1', e2'⟩ := hQ true
  rw [← h] at d1' e1'
  obtain rfl := d1.unique d1'
  obtain rfl := e1.unique e1'
  have hx : 0 < normal p y z true 0 * normal q y z true 0 := by
    have hn : 0 < Minvar.norm (normal p y z false) := norm_pos_of (by simp [normal, hpa])
    have hm : 0 < Minvar.norm (normal q y z false) := norm_pos_of (by simp [normal, hqa])
    have e1 : normal p y z true 0 = -1 / p.ax / Minvar.norm (normal p y z false) := rfl
    have e2 : normal q y z true 0 = -1 / q.ax / Minvar.norm (normal q y z false) := rfl
    rw [e1, e2]
    have : -1 / p.ax / Minvar.norm (normal p y z false) * (-1 / q.ax / Minvar.norm (normal q y z false)) =
        1 / (p.ax * q.ax * (Minvar.norm (normal p y z false) * Minvar.norm (normal q y z false))) := by
      field_simp
    rw [this]
    positivity
  generalize normal p y z true = n at *
  generalize normal q y z true = m at *
  simp only [along, Fin.sum_univ_three, Matrix.cons_val_zero, Matrix.cons_val_one, Matrix.cons_val] at d2 e2 d2' e2' hP1 hQ1
  have n1 : n 1 = - d * n 0 := by linarith
  have n2 : n 2 = - e * n 0 := by linarith
  have m1 : m 1 = - d * m 0 := by linarith
  have m2 : m 2 = - e * m 0 := by linarith
  have hsq : (n 0 - m 0) * (n 0 + m 0) = 0 := by
    rw [n1, n2] at hP1
    rw [m1, m2] at hQ1
    have hk : 0 < 1 + d ^ 2 + e ^ 2 := by positivity
    have : (1 + d ^ 2 + e ^ 2) * ((n 0 - m 0) * (n 0 + m 0)) = 0 := by linear_combination hP1 - hQ1
    exact (mul_eq_zero.mp this).resolve_left hk.ne'
  have h0 : n 0 = m 0 := by
    rcases mul_eq_zero.mp hsq with h | h
    · linarith
    · have : n 0 = - m 0 := by linarith
      rw [this] at hx
      nlinarith [mul_self_nonneg (m 0)]
  funext i
  obtain rfl | rfl | rfl : i = 0 ∨ i = 1 ∨ i = 2 := by fin_cases i <;> simp
  · exact h0
  · rw [n1, m1, h0]
  · rw [n2, m2, h0]

example : paraboloid ⟨9, 1, 2, 1, 1, 2⟩ = paraboloid ⟨9, 1, 2, 4, -2, 4⟩ ∧ (0 : ℝ) < 1 * 4 := by
  refine ⟨?_, by norm_num⟩
  funext y z
  simp only [paraboloid]
  ring

/-! ### C139 -/

theorem absmax_spec (l : List ℝ) (h : l ≠ []) : Largest l (absmax l) := by
  induction l with
  | nil => exact absurd rfl h
  | cons x l ih =>
    have e : absmax (x :: l) = max |x| (absmax l) := rfl
    rw [e]
    by_cases hl : l = []
    · subst hl
      have : absmax [] = 0 := rfl
      rw [this, max_eq_left (abs_nonneg x)]
      exact ⟨by simp, x, by simp, rfl⟩
    · obtain ⟨h1, y, hy, h2⟩ := ih hl
      refine ⟨?_, ?_⟩
      · intro z hz
        rcases List.mem_cons.mp hz with rfl | hz
        · exact le_max_left _ _
        · exact le_trans (h1 z hz) (le_max_right _ _)
      · rcases le_total |x| (absmax l) with hle | hle
        · exact ⟨y, by simp [hy], by rw [max_eq_right hle, h2]⟩
        · exact ⟨x, by simp, by rw [max_eq_left hle]⟩

theorem argmax_spec (l : List Bool) :
    ((∀ b ∈ l, b = false) ∧ argmax l = 0) ∨
      (l[argmax l]? = some true ∧ ∀ k, k < argmax l → l[k]? = some false) := by
  unfold argmax
  cases h : l.findIdx? id with
  | none =>
    left
    rw [List.findIdx?_eq_none_iff] at h
    exact ⟨fun b hb => by simpa using h b hb, rfl⟩
  | some i =>
    right
    rw [List.findIdx?_eq_some_iff_getElem] at h
    obtain ⟨hi, h1, h2⟩ := h
    simp only [Option.getD_some]
    refine ⟨by rw [List.getElem?_eq_getElem hi]; simpa using h1, fun k hk => ?_⟩
    rw [List.getElem?_eq_getElem (by omega)]
    have := h2 k hk
    simpa using this

theorem above_get (t : ℝ) (jy : List ℝ) (i : Nat) (b : Bool) (h : (above t jy)[i]? = some b) :
    ∃ x, jy[i]? = some x ∧ (b = true ↔ t * absmax jy < x) := by
  unfold above at h
  rw [List.getElem?_map] at h
  cases hx : jy[i]? with
  | none => rw [hx] at h; simp at h
  | some x =>
    rw [hx] at h
    simp only [Option.map_some, Option.some.injEq] at h
    exact ⟨x, rfl, by rw [← h]; simp⟩

theorem sphereInd_spec (t : ℝ) (jy : List ℝ) :
    ((∀ x ∈ jy, x ≤ t * absmax jy) ∧ sphereInd t jy = 0) ∨ First (t * absmax jy) jy (sphereInd t jy) := by
  unfold sphereInd
  rcases argmax_spec (above t jy) with ⟨h1, h2⟩ | ⟨h1, h2⟩
  · left
    refine ⟨fun x hx => ?_, h2⟩
    by_contra hc
    have := h1 (decide (t * absmax jy < x)) (by unfold above; exact List.mem_map.mpr ⟨x, hx, rfl⟩)
    simp only [decide_eq_false_iff_not] at this
    exact hc (not_lt.mp this)
  · right
    obtain ⟨x, hx, he⟩ := above_get t jy _ _ h1
    refine ⟨⟨x, hx, he.mp rfl⟩, fun k y hk hy => ?_⟩
    obtain ⟨x', hx', he'⟩ := above_get t jy _ _ (h2 k hk)
    rw [hy, Option.some.injEq] at hx'
    subst hx'
    by_contra hc
    exact absurd (he'.mpr (not_le.mp hc)) (by simp)

theorem sheathInd_spec (t : ℝ) (jy : List ℝ) :
    ((∀ x ∈ jy, x ≤ t * absmax jy) ∧ sheathInd t jy = jy.length - 1) ∨ Last (t * absmax jy) jy (sheathInd t jy) := by
  unfold sheathInd
  have hlen : (above t jy).length = jy.length := by unfold above; simp
  rcases argmax_spec (above t jy).reverse with ⟨h1, h2⟩ | ⟨h1, h2⟩
  · left
    rw [h2]
    refine ⟨fun x hx => ?_, rfl⟩
    by_contra hc
    have := h1 (decide (t * absmax jy < x)) (by unfold above; rw [List.mem_reverse]; exact List.mem_map.mpr ⟨x, hx, rfl⟩)
    simp only [decide_eq_false_iff_not] at this
    exact hc (not_lt.mp this)
  · right
    generalize argmax (above t jy).reverse = a at *
    have ha : a < jy.length := by
      have := (List.getElem?_eq_some_iff.mp h1).1
      rwa [List.length_reverse, hlen] at this
    rw [List.getElem?_reverse (by omega), hlen] at h1
    obtain ⟨x, hx, he⟩ := above_get t jy _ _ h1
    refine ⟨⟨x, hx, he.mp rfl⟩, fun k y hk hy => ?_⟩
    have hkl : k < jy.length := (List.getElem?_eq_some_iff.mp hy).1
    have hr := h2 (jy.length - 1 - k) (by omega)
    rw [List.getElem?_reverse (by omega), hlen, show jy.length - 1 - (jy.length - 1 - k) = k by omega] at hr
    obtain ⟨x', hx', he'⟩ := above_get t jy _ _ hr
    rw [hy, Option.some.injEq] at hx'
    subst hx'
    by_contra hc
    exact absurd (he'.mpr (not_le.mp hc)) (by simp)

/-- C139: the edges are at the first and the last points with more than the fraction of the largest current; there is none at the ends of
    the block, or if there are no such points. -/
theorem C139_edges (ts th : ℝ) (xcc jy : List ℝ) (hne : jy ≠ []) (hlen : xcc.length = jy.length) :
    ∃ m, Largest jy m ∧
      (∀ i, First (ts * m) jy i → (edges ts th xcc jy).sphere = if i = 0 then none else xcc[i]?) ∧
      (∀ i, Last (th * m) jy i → (edges ts th xcc jy).sheath = if i = jy.length - 1 then none else xcc[i]?) ∧
      ((∀ x ∈ jy, x ≤ ts * m) → (edges ts th xcc jy).sphere = none) ∧ ((∀ x ∈ jy, x ≤ th * m) → (edges ts th xcc jy).sheath = none) ∧
      (∀ w, (edges ts th xcc jy).width = some w ↔
        ∃ a b, (edges ts th xcc jy).sheath = some a ∧ (edges ts th xcc jy).sphere = some b ∧ w = a - b) := by
  refine ⟨absmax jy, absmax_spec jy hne, ?_, ?_, ?_, ?_, ?_⟩
  · intro i hi
    have : sphereInd ts jy = i := by
      rcases sphereInd_spec ts jy with ⟨h1, _⟩ | h
      · obtain ⟨⟨x, hx, hlt⟩, _⟩ := hi
        exact absurd (h1 x (List.mem_of_getElem? hx)) (not_le.mpr hlt)
      · obtain ⟨⟨x, hx, hlt⟩, h2⟩ := hi
        obtain ⟨⟨x', hx', hlt'⟩, h2'⟩ := h
        rcases lt_trichotomy (sphereInd ts jy) i with h | h | h
        · exact absurd (h2 _ _ h hx') (not_le.mpr hlt')
        · exact h
        · exact absurd (h2' _ _ h hx) (not_le.mpr hlt)
    simp only [edges, this]
    by_cases h0 : i = 0
    · rw [if_pos h0, if_neg (by omega)]
    · rw [if_neg h0, if_pos (by omega)]
  · intro i hi
    have : sheathInd th jy = i := by
      rcases sheathInd_spec th jy with ⟨h1, _⟩ | h
      · obtain ⟨⟨x, hx, hlt⟩, _⟩ := hi
        exact absurd (h1 x (List.mem_of_getElem? hx)) (not_le.mpr hlt)
      · obtain ⟨⟨x, hx, hlt⟩, h2⟩ := hi
        obtain ⟨⟨x', hx', hlt'⟩, h2'⟩ := h
        rcases lt_trichotomy (sheathInd th jy) i with h | h | h
        · exact absurd (h2' _ _ h hx) (not_le.mpr hlt)
        · exact h
        · exact absurd (h2 _ _ h hx') (not_le.mpr hlt')
    have hil : i < jy.length := by
      obtain ⟨⟨x, hx, _⟩, _⟩ := hi
      exact (List.getElem?_eq_some_iff.mp hx).1
    simp only [edges, this]
    by_cases h0 : i = jy.length - 1
    · rw [if_pos h0, if_neg (by omega)]
    · rw [if_neg h0, if_pos (by omega)]
  · intro h
    rcases sphereInd_spec ts jy with ⟨_, h1⟩ | ⟨⟨x, hx, hlt⟩, _⟩
    · simp only [edges, h1]; rfl
    · exact absurd (h x (List.mem_of_getElem? hx)) (not_le.mpr hlt)
  · intro h
    rcases sheathInd_spec th jy with ⟨_, h1⟩ | ⟨⟨x, hx, hlt⟩, _⟩
    · simp only [edges, h1, lt_irrefl, if_false]
    · exact absurd (h x (List.mem_of_getElem? hx)) (not_le.mpr hlt)
  · intro w
    simp only [edges]
    generalize (if sheathInd th jy < jy.length - 1 then xcc[sheathInd th jy]? else none) = a
    generalize (if 0 < sphereInd ts jy then xcc[sphereInd ts jy]? else none) = b
    cases a <;> cases b <;> simp [eq_comm]

/-- C139: with the same threshold on both sides and x increasing, the width is not negative -/
theorem C139_width (t : ℝ) (xcc jy : List ℝ) (hinc : xcc.Pairwise (· ≤ ·)) (w : ℝ) (hw : (edges t t xcc jy).width = some w) : 0 ≤ w := by
  have : ∃ a b : ℝ, (edges t t xcc jy).sheath = some a ∧ (edges t t xcc jy).sphere = some b ∧ w = a - b := by
    simp only [edges] at hw ⊢
    generalize (if sheathInd t jy < jy.length - 1 then xcc[sheathInd t jy]? else none) = a at hw
    generalize (if 0 < sphereInd t jy then xcc[sphereInd t jy]? else none) = b at hw
    cases a <;> cases b <;> simp at hw ⊢
    exact hw.symm
  obtain ⟨a, b, ha, hb, rfl⟩ := this
  simp only [edges] at ha hb
  split at ha
  · rename_i hj
    split at hb
    · rename_i hi
      have hle : sphereInd t jy ≤ sheathInd t jy := by
        rcases sphereInd_spec t jy with ⟨_, h⟩ | h
        · omega
        · rcases sheathInd_spec t jy with ⟨_, h'⟩ | h'
          · omega
          · by_contra hc
            obtain ⟨⟨x, hx, hlt⟩, _⟩ := h
            exact absurd (h'.2 _ x (not_le.mp hc) hx) (not_le.mpr hlt)
      rcases Nat.lt_or_eq_of_le hle with hlt | heq
      · have h1 := (List.getElem?_eq_some_iff.mp hb)
        have h2 := (List.getElem?_eq_some_iff.mp ha)
        obtain ⟨l1, e1⟩ := h1
        obtain ⟨l2, e2⟩ := h2
        have := List.pairwise_iff_getElem.mp hinc _ _ l1 l2 hlt
        rw [e1, e2] at this
        linarith
      · rw [heq, ha, Option.some.injEq] at hb
        linarith
    · simp at hb
  · simp at ha

example : First (1 / 10 * 4) [0, 1, 4, 2, 0] 1 ∧ Last (1 / 10 * 4) [0, 1, 4, 2, 0] 3 ∧ Largest [0, 1, 4, 2, 0] 4 := by
  refine ⟨⟨⟨1, rfl, by norm_num⟩, ?_⟩, ⟨⟨2, rfl, by norm_num⟩, ?_⟩, ⟨?_, 4, by simp, by norm_num⟩⟩
  · intro k x hk hx
    obtain rfl : k = 0 := by omega
    simp at hx; rw [← hx]; norm_num
  · intro k x hk hx
    have : k < 5 := (List.getElem?_eq_some_iff.mp hx).1
    obtain rfl : k = 4 := by omega
    simp at hx; rw [← hx]; norm_num
  · intro x hx
    simp only [List.mem_cons, List.not_mem_nil, or_false] at hx
    rcases hx with rfl | rfl | rfl | rfl | rfl <;> norm_num

/-! ### C140 -/

theorem norm_along (v : V) : Minvar.norm v = √(along v v) := by rw [along_dot]; rfl

theorem angle_arccos (a b : V) (h : Minvar.norm b * Minvar.norm a ≠ 0) :
    Angle a b (180 / Real.pi * Real.arccos (dot a b / (Minvar.norm b * Minvar.norm a))) := by
  have hpi := Real.pi_pos
  refine ⟨?_, ?_, ?_⟩
  · have := Real.arccos_nonneg (dot a b / (Minvar.norm b * Minvar.norm a))
    positivity
  · have := Real.arccos_le_pi (dot a b / (Minvar.norm b * Minvar.norm a))
    calc _ ≤ 180 / Real.pi * Real.pi := by gcongr
      _ = 180 := by field_simp
  · have e : Real.pi / 180 * (180 / Real.pi * Real.arccos (dot a b / (Minvar.norm b * Minvar.norm a))) =
        Real.arccos (dot a b / (Minvar.norm b * Minvar.norm a)) := by field_simp
    have ha0 : 0 ≤ Minvar.norm a := Real.sqrt_nonneg _
    have hb0 : 0 ≤ Minvar.norm b := Real.sqrt_nonneg _
    have hna : 0 ≤ dot a a := by unfold dot; nlinarith [mul_self_nonneg (a 0), mul_self_nonneg (a 1), mul_self_nonneg (a 2)]
    have hnb : 0 ≤ dot b b := by unfold dot; nlinarith [mul_self_nonneg (b 0), mul_self_nonneg (b 1), mul_self_nonneg (b 2)]
    have hpos : 0 < Minvar.norm b * Minvar.norm a := lt_of_le_of_ne (by positivity) (Ne.symm h)
    have hcs : (dot a b) ^ 2 ≤ (Minvar.norm b * Minvar.norm a) ^ 2 := by
      have e1 : Minvar.norm a * Minvar.norm a = dot a a := Real.mul_self_sqrt hna
      have e2 : Minvar.norm b * Minvar.norm b = dot b b := Real.mul_self_sqrt hnb
      have : (Minvar.norm b * Minvar.norm a) ^ 2 = dot b b * dot a a := by rw [← e1, ← e2]; ring
      rw [this]
      unfold dot
      nlinarith [sq_nonneg (a 0 * b 1 - a 1 * b 0), sq_nonneg (a 0 * b 2 - a 2 * b 0), sq_nonneg (a 1 * b 2 - a 2 * b 1)]
    have habs := abs_le_of_sq_le_sq' hcs hpos.le
    rw [e, Real.cos_arccos (by rw [le_div_iff₀ hpos]; linarith [habs.1]) (by rw [div_le_one hpos]; exact habs.2), along_dot a b,
      ← norm_along, ← norm_along, mul_comm (Minvar.norm a), mul_div_cancel₀ _ h]

/-- C140: where both are in the block, the shear is the angle between the field six points outside of the sheath edge, and six points
    inside of it: that is as documented, six points into the magnetosphere, only if both edges are the same. -/
theorem C140_shear_partial (b : List V) (sheath sphere : Nat) (hs : sphere ≤ sheath) (h1 : sheath + 6 < b.length) (h2 : 6 ≤ sphere)
    (u v : V) (hu : b[sheath + 6]? = some u) (hv : b[sheath - 6]? = some v) (hu0 : along u u ≠ 0) (hv0 : along v v ≠ 0) :
    ∃ d, shear b sheath sphere = some d ∧ Angle u v d ∧ (sheath = sphere → b[sphere - 6]? = some v) := by
  have hpos : ∀ w : V, along w w ≠ 0 → Minvar.norm w ≠ 0 := by
    intro w hw
    rw [norm_along]
    intro hc
    rw [Real.sqrt_eq_zero (by
      rw [along_dot]; unfold dot
      nlinarith [mul_self_nonneg (w 0), mul_self_nonneg (w 1), mul_self_nonneg (w 2)])] at hc
    exact hw hc
  have hm : Minvar.norm v * Minvar.norm u ≠ 0 := mul_ne_zero (hpos v hv0) (hpos u hu0)
  refine ⟨_, ?_, angle_arccos u v hm, fun h => by rw [← h]; exact hv⟩
  unfold shear
  simp only
  rw [if_pos ⟨h1, h2⟩, show min (sheath + 6) (b.length - 1) = sheath + 6 by omega,
    show min (sheath - 6) (b.length - 1) = sheath - 6 by omega, List.getD_eq_getElem?_getD, List.getD_eq_getElem?_getD, hu, hv,
    Option.getD_some, Option.getD_some, if_neg hm]

example := C140_shear_partial ((List.range 30).map fun i => if i < 15 then (![1, 0, 0] : V) else ![0, 1, 0]) 20 15 (by decide) (by decide) (by decide)
  ![0, 1, 0] ![1, 0, 0] rfl rfl (by simp [along, Fin.sum_univ_three]) (by simp [along, Fin.sum_univ_three])

/-- C140: there is none if one of them is not in the block -/
theorem C140_outside_partial (b : List V) (sheath sphere : Nat) (h : b.length ≤ sheath + 6 ∨ sphere < 6) : shear b sheath sphere = none := by
  unfold shear
  simp only
  rw [if_neg (by omega)]

example := C140_outside_partial ((List.range 30).map fun i => (![i, 0, 1] : V)) 24 15 (Or.inl (by simp))

/-- a field turned around between the 16th and the 17th of 30 points -/
def flipped : List V := List.replicate 16 ![0, 0, 1] ++ List.replicate 14 ![0, 0, -1]

/-- C140 fails for edges apart: the field on the side of the magnetosphere is taken six points from the edge of the sheath. With edges
    at 15 and 22, of a field that is turned around, there is no shear, where it is 180 degrees. -/
theorem C140_shear_violated :
    Angle ((flipped[22 + 6]?).getD 0) ((flipped[15 - 6]?).getD 0) 180 ∧ shear flipped 22 15 = some 0 := by
  have e1 : flipped[28]? = some (![0, 0, -1] : V) := by
    unfold flipped
    rw [List.getElem?_append_right (by simp)]
    simp
  have e2 : flipped[9]? = some (![0, 0, 1] : V) := by
    unfold flipped
    rw [List.getElem?_append_left (by simp)]
    simp
  have e3 : flipped[16]? = some (![0, 0, -1] : V) := by
    unfold flipped
    rw [List.getElem?_append_right (by simp)]
    simp
  have hlen : flipped.length = 30 := by simp [flipped]
  constructor
  · show Angle ((flipped[28]?).getD 0) ((flipped[9]?).getD 0) 180
    rw [e1, e2]
    refine ⟨by norm_num, le_refl _, ?_⟩
    rw [show Real.pi / 180 * 180 = Real.pi by ring, Real.cos_pi]
    simp [along, Fin.sum_univ_three]
  · unfold shear
    simp only [hlen]
    norm_num
    rw [e1, e3]
    have hn : Minvar.norm ![0, 0, -1] = 1 := by simp [Minvar.norm, dot]
    simp only [Option.getD_some, hn]
    norm_num [dot]
    simp

end Viscid.Props
