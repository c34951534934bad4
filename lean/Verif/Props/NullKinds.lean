import Verif.Props.Nulls
/-!
# C85: kinds of nulls
-/
namespace Viscid.Props
open Viscid.Nulls Viscid.Spec.Nulls

theorem parts_length (atol : ℝ) (es : List Ev) :
    (es.filter (isZero atol)).length + (es.filter (isReal atol)).length + (es.filter (isComplex atol)).length = es.length := by
  induction es with
  | nil => rfl
  | cons e es ih =>
    simp only [List.filter_cons]
    by_cases hz : isZero atol e = true
    · have h1 : isReal atol e = false := by simp [isReal, hz]
      have h2 : isComplex atol e = false := by simp [isComplex, hz]
      simp only [hz, h1, h2, if_true, Bool.false_eq_true, if_false, List.length_cons]
      omega
    · have hz : isZero atol e = false := by simpa using hz
      by_cases hr : |e.2| ≤ atol
      · have h1 : isReal atol e = true := by simp [isReal, hz, hr]
        have h2 : isComplex atol e = false := by simp [isComplex, hr]
        simp only [hz, h1, h2, if_true, Bool.false_eq_true, if_false, List.length_cons]
        omega
      · have h1 : isReal atol e = false := by simp [isReal, hr]
        have h2 : isComplex atol e = true := by simp [isComplex, hz, hr]
        simp only [hz, h1, h2, if_true, Bool.false_eq_true, if_false, List.length_cons]
        omega

theorem pair_sum (l : List Ev) (h : l.length = 2) : (l.getD 0 (0, 0)).2 + (l.getD 1 (0, 0)).2 = (l.map Prod.snd).sum := by
  match l, h with
  | [a, b], _ => simp

theorem perm_sum {l m : List ℝ} (h : l.Perm m) : l.sum = m.sum := by
  induction h with
  | nil => rfl
  | cons x _ ih => simp [ih]
  | swap x y l => simp only [List.sum_cons]; ring
  | trans _ _ a b => exact a.trans b

/-- **C85, order.** The kind does not depend on the order in which the three eigenvalues are found. -/
theorem C85_order (atol : ℝ) (es es' : List Ev) (h : es.Perm es') (h3 : es.length = 3) :
    classify atol es = classify atol es' := by
  have hz := h.filter (isZero atol)
  have hr := h.filter (isReal atol)
  have hc := h.filter (isComplex atol)
  have hp := hr.filter fun e => decide (e.1 > 0)
  have l1 := parts_length atol es
  have l2 := parts_length atol es'
  have l3 := h.length_eq
  unfold classify
  simp only
  rw [hz.length_eq, hr.length_eq, hp.length_eq]
  split
  · rfl
  · split
    · rename_i h1
      obtain ⟨e, he⟩ := List.length_eq_one_iff.1 h1.1
      have he' : es.filter (isReal atol) = [e] := by
        rw [he] at hr; exact List.perm_singleton.1 hr
      rw [he, he']
      have c1 : (es'.filter (isComplex atol)).length = 2 := by
        have := h1.1; have := h1.2; omega
      have c2 : (es.filter (isComplex atol)).length = 2 := by rw [hc.length_eq]; exact c1
      rw [pair_sum _ c1, pair_sum _ c2, perm_sum (hc.map Prod.snd)]
    · rfl

theorem real_zero (atol x : ℝ) : isZero atol (x, 0) = decide (|x| ≤ atol) := by
  unfold isZero
  congr 2
  rw [← Real.sqrt_sq_eq_abs]; congr 1; ring

theorem real_real (atol x : ℝ) (h0 : 0 ≤ atol) (h : atol < |x|) :
    isZero atol (x, 0) = false ∧ isReal atol (x, 0) = true ∧ isComplex atol (x, 0) = false := by
  have hz : isZero atol (x, 0) = false := by rw [real_zero]; simpa using h
  refine ⟨hz, ?_, ?_⟩
  · simp [isReal, hz, h0]
  · simp [isComplex, hz, h0]

theorem complex_complex (atol c d : ℝ) (h : atol < |d|) :
    isZero atol (c, d) = false ∧ isReal atol (c, d) = false ∧ isComplex atol (c, d) = true := by
  have hz : isZero atol (c, d) = false := by
    unfold isZero
    simp only [decide_eq_false_iff_not, not_le]
    have : |d| ≤ √(c ^ 2 + d ^ 2) := by
      rw [← Real.sqrt_sq_eq_abs]
      apply Real.sqrt_le_sqrt
      have := sq_nonneg c
      linarith
    linarith
  refine ⟨hz, ?_, ?_⟩
  · simp [isReal, h]
  · simp [isComplex, hz, h]

theorem pos_or_neg (x a : ℝ) (h0 : 0 ≤ a) (h : a < |x|) : (0 < x ∧ ¬ x < 0) ∨ (x < 0 ∧ ¬ 0 < x) := by
  rcases lt_trichotomy x 0 with h1 | h1 | h1
  · exact Or.inr ⟨h1, by linarith⟩
  · rw [h1, abs_zero] at h; linarith
  · exact Or.inl ⟨h1, by linarith⟩

/-- **C85.** At a regular null, the kind is A if one eigenvalue grows and two decay, and B if two grow and one decays, and
    one of these is the case. -/
theorem C85_kinds (atol : ℝ) (h0 : 0 ≤ atol) (es : List Ev) (h : Regular atol es) :
    (classify atol es = .is .A ∧ growing es = 1 ∧ decaying es = 2) ∨
    (classify atol es = .is .B ∧ growing es = 2 ∧ decaying es = 1) := by
  have key : ∀ fs : List Ev, es.Perm fs → es.length = 3 →
      ((classify atol fs = .is .A ∧ growing fs = 1 ∧ decaying fs = 2) ∨
       (classify atol fs = .is .B ∧ growing fs = 2 ∧ decaying fs = 1)) →
      ((classify atol es = .is .A ∧ growing es = 1 ∧ decaying es = 2) ∨
       (classify atol es = .is .B ∧ growing es = 2 ∧ decaying es = 1)) := by
    intro fs hp h3 hf
    rw [C85_order atol es fs hp h3]
    unfold growing decaying at hf ⊢
    rw [(hp.filter _).length_eq, (hp.filter _).length_eq]
    exact hf
  rcases h with ⟨x, y, z, hp, hs, hx, hy, hz⟩ | ⟨r, c, d, hp, hs, hr, hd⟩
  · apply key _ hp (by rw [hp.length_eq]; rfl)
    obtain ⟨x1, x2, x3⟩ := real_real atol x h0 hx
    obtain ⟨y1, y2, y3⟩ := real_real atol y h0 hy
    obtain ⟨z1, z2, z3⟩ := real_real atol z h0 hz
    unfold classify growing decaying
    simp only [List.filter_cons, List.filter_nil, x1, x2, x3, y1, y2, y3, z1, z2, z3, if_true, Bool.false_eq_true, if_false,
      List.length_nil, List.length_cons]
    rcases pos_or_neg x atol h0 hx with ⟨a, a'⟩ | ⟨a, a'⟩ <;> rcases pos_or_neg y atol h0 hy with ⟨b, b'⟩ | ⟨b, b'⟩ <;>
      rcases pos_or_neg z atol h0 hz with ⟨e, e'⟩ | ⟨e, e'⟩ <;> first | (exfalso; linarith) | simp [a, a', b, b', e, e']
  · apply key _ hp (by rw [hp.length_eq]; rfl)
    obtain ⟨r1, r2, r3⟩ := real_real atol r h0 hr
    obtain ⟨c1, c2, c3⟩ := complex_complex atol c d hd
    obtain ⟨d1, d2, d3⟩ := complex_complex atol c (-d) (by rwa [abs_neg])
    unfold classify growing decaying
    simp only [List.filter_cons, List.filter_nil, r1, r2, r3, c1, c2, c3, d1, d2, d3, if_true, Bool.false_eq_true, if_false,
      List.length_nil, List.length_cons]
    rcases pos_or_neg r atol h0 hr with ⟨a, a'⟩ | ⟨a, a'⟩
    · have hc : c < 0 := by linarith
      have hc' : ¬ 0 < c := by linarith
      simp [a, a', hc, hc', h0]
    · have hc : 0 < c := by linarith
      have hc' : ¬ c < 0 := by linarith
      simp [a, a', hc, hc', h0]

/-- **C85.** If the field is reversed, kinds A and B are swapped. -/
theorem C85_reversed (atol : ℝ) (h0 : 0 ≤ atol) (es : List Ev) (h : Regular atol es) :
    classify atol (es.map fun e => (-e.1, -e.2)) = .is .A ↔ classify atol es = .is .B := by
  have hneg : Regular atol (es.map fun e => (-e.1, -e.2)) := by
    rcases h with ⟨x, y, z, hp, hs, hx, hy, hz⟩ | ⟨r, c, d, hp, hs, hr, hd⟩
    · refine Or.inl ⟨-x, -y, -z, ?_, by linarith, by rwa [abs_neg], by rwa [abs_neg], by rwa [abs_neg]⟩
      have := hp.map fun e => (-e.1, -e.2)
      simpa using this
    · refine Or.inr ⟨-r, -c, -d, ?_, by linarith, by rwa [abs_neg], by rwa [abs_neg]⟩
      have := hp.map fun e => (-e.1, -e.2)
      simpa using this
  have hg : growing (es.map fun e => (-e.1, -e.2)) = decaying es := by
    unfold growing decaying
    rw [List.filter_map, List.length_map]
    congr 1
    apply List.filter_congr
    intro e _
    simp
  rcases C85_kinds atol h0 es h with ⟨a, b, c⟩ | ⟨a, b, c⟩ <;>
    rcases C85_kinds atol h0 _ hneg with ⟨d, e, f⟩ | ⟨d, e, f⟩
  · rw [hg, c] at e; omega
  · rw [a, d]; simp
  · rw [a, d]; simp
  · rw [hg, c] at e; omega

/-- The hypotheses can be met: eigenvalues 2, -1 + i, -1 - i. -/
example : Regular (1 / 10 ^ 8) [(-1, 1), (2, 0), (-1, -1)] :=
  Or.inr ⟨2, -1, 1, List.Perm.swap _ _ _, by norm_num, by norm_num, by norm_num⟩

end Viscid.Props
