import Verif.Model.Minvar
import Verif.Spec.Minvar
import Mathlib.Tactic.Linarith
import Mathlib.Tactic.LinearCombination
import Mathlib.Tactic.Ring
import Mathlib.Tactic.FieldSimp
import Mathlib.Tactic.NormNum
import Mathlib.Tactic.Positivity
import Mathlib.Tactic.FinCases
import Mathlib.Analysis.Matrix.Spectrum
/-!
# C136 minimum variance analysis, C137 boundary normal coordinates
-/
namespace Viscid.Props
open Viscid.Minvar Viscid.Spec.Minvar

theorem finite_eq : Minvar.finite = complete := by
  funext s
  unfold Minvar.finite complete
  cases h0 : s 0 <;> cases h1 : s 1 <;> cases h2 : s 2 <;>
    simp only [Fin.forall_fin_succ, h0, h1, h2, Fin.succ_zero_eq_one, Fin.succ_one_eq_two, Option.isSome, reduceCtorEq,
      Bool.false_eq_true, and_false, false_and, if_false, IsEmpty.forall_iff, and_true, and_self, if_true, Option.some.injEq]
  funext i
  fin_cases i <;> simp [h0, h1, h2]

theorem along_eq (u v : V) : along u v = dot u v := by unfold along dot; rw [Fin.sum_univ_three]

theorem sum_sq_sub (l : List ℝ) (c : ℝ) : (l.map fun x => (x - c) ^ 2).sum = (l.map fun x => x ^ 2).sum - 2 * c * l.sum + l.length * c ^ 2 := by
  induction l with
  | nil => simp
  | cons x l ih => simp only [List.map_cons, List.sum_cons, List.length_cons, ih]; push_cast; ring

theorem variance_eq (l : List ℝ) (h : l ≠ []) :
    variance l = (l.map fun x => x ^ 2).sum / l.length - (l.sum / l.length) ^ 2 := by
  have hl : (l.length : ℝ) ≠ 0 := by
    have := List.length_pos_iff.mpr h
    exact_mod_cast this.ne'
  unfold variance average
  rw [sum_sq_sub, List.length_map]
  field_simp
  ring

theorem sum_along (arr : List V) (u : V) : (arr.map (along u)).sum =
    u 0 * (arr.map fun v => v 0).sum + u 1 * (arr.map fun v => v 1).sum + u 2 * (arr.map fun v => v 2).sum := by
  induction arr with
  | nil => simp
  | cons x l ih => simp only [List.map_cons, List.sum_cons, ih, along_eq, dot]; ring

theorem sum_along_sq (arr : List V) (u : V) : ((arr.map (along u)).map fun x => x ^ 2).sum =
    u 0 ^ 2 * (arr.map fun v => v 0 * v 0).sum + u 1 ^ 2 * (arr.map fun v => v 1 * v 1).sum + u 2 ^ 2 * (arr.map fun v => v 2 * v 2).sum
      + 2 * u 0 * u 1 * (arr.map fun v => v 1 * v 0).sum + 2 * u 0 * u 2 * (arr.map fun v => v 2 * v 0).sum
      + 2 * u 1 * u 2 * (arr.map fun v => v 2 * v 1).sum := by
  induction arr with
  | nil => simp
  | cons x l ih => simp only [List.map_cons, List.sum_cons, ih, along_eq, dot]; ring

/-- the matrix is that of the variances along all directions -/
theorem quad (arr : List V) (h : arr ≠ []) (u : V) :
    ∑ i, ∑ j, u i * matrix arr i j * u j = variance (arr.map (along u)) := by
  rw [variance_eq _ (by simpa using h), sum_along_sq, sum_along]
  simp only [Fin.sum_univ_three, matrix, entry, mean, List.length_map]
  have hl : (arr.length : ℝ) ≠ 0 := by
    have := List.length_pos_iff.mpr h
    exact_mod_cast this.ne'
  simp only [show (0 : Fin 3) ≤ 0 by decide, show (0 : Fin 3) ≤ 1 by decide, show (0 : Fin 3) ≤ 2 by decide, show (1 : Fin 3) ≤ 1 by decide,
    show (1 : Fin 3) ≤ 2 by decide, show (2 : Fin 3) ≤ 2 by decide, show ¬ (1 : Fin 3) ≤ 0 by decide, show ¬ (2 : Fin 3) ≤ 0 by decide,
    show ¬ (2 : Fin 3) ≤ 1 by decide, if_true, if_false]
  field_simp
  ring

theorem matrix_symm (arr : List V) (i j : Fin 3) : matrix arr i j = matrix arr j i := by
  unfold matrix
  rcases lt_trichotomy i j with h | h | h
  · rw [if_neg (not_le.mpr h), if_pos h.le]
  · rw [h]
  · rw [if_pos h.le, if_neg (not_le.mpr h)]

theorem eigen_orth {m : Mat} {w : V} {v : Mat} (hs : ∀ i j, m i j = m j i) (h : Eigen m w v) (k l : Fin 3) :
    (w k - w l) * along (fun i => v i l) (fun i => v i k) = 0 := by
  have pk := fun i => h.pair k i
  have pl := fun i => h.pair l i
  have s01 := hs 0 1
  have s02 := hs 0 2
  have s12 := hs 1 2
  simp only [Fin.sum_univ_three] at pk pl
  have k0 := pk 0; have k1 := pk 1; have k2 := pk 2
  have l0 := pl 0; have l1 := pl 1; have l2 := pl 2
  rw [along_eq, dot]
  rw [s01, s02] at k0 l0
  rw [s12] at k1 l1
  linear_combination (v 0 k) * l0 + (v 1 k) * l1 + (v 2 k) * l2 - (v 0 l) * k0 - (v 1 l) * k1 - (v 2 l) * k2

theorem quad_eigen {m : Mat} {w : V} {v : Mat} (h : Eigen m w v) (a : V) :
    ∑ i, ∑ j, (∑ k, a k * v i k) * m i j * (∑ k, a k * v j k) =
      ∑ l, ∑ k, a l * a k * (w k * along (fun i => v i l) (fun i => v i k)) := by
  have p : ∀ i, ∑ j, m i j * (∑ k, a k * v j k) = ∑ k, a k * (w k * v i k) := by
    intro i
    have h0 := h.pair 0 i; have h1 := h.pair 1 i; have h2 := h.pair 2 i
    simp only [Fin.sum_univ_three] at h0 h1 h2 ⊢
    linear_combination a 0 * h0 + a 1 * h1 + a 2 * h2
  have : ∀ i, ∑ j, (∑ k, a k * v i k) * m i j * (∑ k, a k * v j k) = (∑ k, a k * v i k) * ∑ k, a k * (w k * v i k) := by
    intro i
    rw [← p i, Finset.mul_sum]
    exact Finset.sum_congr rfl fun j _ => by ring
  rw [Finset.sum_congr rfl fun i _ => this i]
  simp only [Fin.sum_univ_three, along]
  ring

theorem rayleigh {m : Mat} {w : V} {v : Mat} (hs : ∀ i j, m i j = m j i) (h : Eigen m w v) (s lam : ℝ) (hsq : s * s = 1)
    (hl : ∀ k, 0 ≤ s * (w k - lam)) (u : V) : 0 ≤ s * (∑ i, ∑ j, u i * m i j * u j - lam * along u u) := by
  obtain ⟨a, ha⟩ := h.span u
  obtain rfl : u = fun i => ∑ k, a k * v i k := funext ha
  rw [quad_eigen h a]
  have key : ∀ k l, s * (w k - lam) * along (fun i => v i l) (fun i => v i k) =
      √(s * (w l - lam)) * √(s * (w k - lam)) * along (fun i => v i l) (fun i => v i k) := by
    intro k l
    rcases mul_eq_zero.mp (eigen_orth hs h k l) with h0 | h0
    · rw [show w l = w k by linarith, Real.mul_self_sqrt (hl k)]
    · rw [h0]; ring
  have e : s * (∑ l, ∑ k, a l * a k * (w k * along (fun i => v i l) (fun i => v i k)) -
        lam * along (fun i => ∑ k, a k * v i k) fun i => ∑ k, a k * v i k) =
      along (fun i => ∑ k, a k * √(s * (w k - lam)) * v i k) fun i => ∑ k, a k * √(s * (w k - lam)) * v i k := by
    have h1 : along (fun i => ∑ k, a k * v i k) (fun i => ∑ k, a k * v i k) =
        ∑ l, ∑ k, a l * a k * along (fun i => v i l) (fun i => v i k) := by
      simp only [along, Fin.sum_univ_three]; ring
    have h2 : along (fun i => ∑ k, a k * √(s * (w k - lam)) * v i k) (fun i => ∑ k, a k * √(s * (w k - lam)) * v i k) =
        ∑ l, ∑ k, a l * a k * (√(s * (w l - lam)) * √(s * (w k - lam)) * along (fun i => v i l) (fun i => v i k)) := by
      simp only [along, Fin.sum_univ_three]; ring
    rw [h1, h2, Finset.mul_sum, ← Finset.sum_sub_distrib, Finset.mul_sum]
    refine Finset.sum_congr rfl fun l _ => ?_
    rw [Finset.mul_sum, ← Finset.sum_sub_distrib, Finset.mul_sum]
    refine Finset.sum_congr rfl fun k _ => ?_
    rw [← key k l]
    ring
  rw [e, along_eq]
  unfold dot
  exact add_nonneg (add_nonneg (mul_self_nonneg _) (mul_self_nonneg _)) (mul_self_nonneg _)

theorem argsort_spec (g : Fin 3 → ℝ) : ∃ p q r, argsort g = [p, q, r] ∧ (∀ k, k = p ∨ k = q ∨ k = r) ∧ g p ≤ g q ∧ g q ≤ g r := by
  classical
  have hp : (argsort g).Perm [0, 1, 2] := by unfold argsort; exact List.perm_insertionSort _ _
  have hs : (argsort g).Pairwise fun i j => g i ≤ g j := by
    unfold argsort
    have : Std.Total fun i j : Fin 3 => g i ≤ g j := ⟨fun i j => le_total _ _⟩
    have : IsTrans (Fin 3) fun i j => g i ≤ g j := ⟨fun _ _ _ => le_trans⟩
    exact List.pairwise_insertionSort _ _
  have hl := hp.length_eq
  match hm : argsort g, hl with
  | [p, q, r], _ =>
    rw [hm] at hp hs
    refine ⟨p, q, r, rfl, ?_, ?_, ?_⟩
    · intro k
      have : k ∈ [p, q, r] := hp.mem_iff.mpr (by fin_cases k <;> simp)
      simpa using this
    · exact (List.pairwise_cons.mp hs).1 q (by simp)
    · exact (List.pairwise_cons.mp (List.pairwise_cons.mp hs).2).1 r (by simp)

/-- C136: with less than three samples that are numbers throughout, there is no answer. Otherwise (samples that are not numbers do not
    count) the values are the variances along the three directions, in increasing order; and no direction has a variance less than the
    first, or more than the last. The directions are at right angles, where the values differ. -/
theorem C136_minvar (eig : Mat → V × Mat) (heig : ∀ m : Mat, (∀ i j, m i j = m j i) → Eigen m (eig m).1 (eig m).2)
    (arr : List (Fin 3 → Option ℝ)) :
    ((arr.filterMap complete).length < 3 → minvarSeries eig arr = none) ∧
    (3 ≤ (arr.filterMap complete).length → ∃ w v, minvarSeries eig arr = some (w, v) ∧ 0 ≤ w 0 ∧ w 0 ≤ w 1 ∧ w 1 ≤ w 2 ∧
      (∀ k, along (fun i => v i k) (fun i => v i k) = 1 ∧ variance ((arr.filterMap complete).map (along fun i => v i k)) = w k) ∧
      (∀ k l, w k ≠ w l → along (fun i => v i k) (fun i => v i l) = 0) ∧
      ∀ u : V, along u u = 1 → w 0 ≤ variance ((arr.filterMap complete).map (along u)) ∧
        variance ((arr.filterMap complete).map (along u)) ≤ w 2) := by
  unfold minvarSeries
  rw [finite_eq]
  refine ⟨fun h => if_pos h, fun h => ?_⟩
  rw [if_neg (not_lt.mpr h)]
  generalize hg : arr.filterMap complete = good at h
  have hne : good ≠ [] := by rintro rfl; simp at h
  have hE := heig (matrix good) (matrix_symm good)
  have hvar : ∀ k, variance (good.map (along fun i => (eig (matrix good)).2 i k)) = (eig (matrix good)).1 k := by
    intro k
    rw [← quad good hne]
    have : ∀ i, ∑ j, (eig (matrix good)).2 i k * matrix good i j * (eig (matrix good)).2 j k =
        (eig (matrix good)).2 i k * ((eig (matrix good)).1 k * (eig (matrix good)).2 i k) := by
      intro i
      rw [← hE.pair k i, Finset.mul_sum]
      exact Finset.sum_congr rfl fun j _ => by ring
    rw [Finset.sum_congr rfl fun i _ => this i]
    have hlen := hE.length k
    unfold along at hlen
    simp only [Fin.sum_univ_three] at hlen ⊢
    linear_combination (eig (matrix good)).1 k * hlen
  have hnn : ∀ k, 0 ≤ (eig (matrix good)).1 k := by
    intro k
    rw [← hvar k]
    unfold variance average
    refine div_nonneg (List.sum_nonneg ?_) (Nat.cast_nonneg _)
    intro x hx
    obtain ⟨y, _, rfl⟩ := List.mem_map.mp hx
    positivity
  obtain ⟨p, q, r, hi, hmem, hpq, hqr⟩ := argsort_spec fun k => |(eig (matrix good)).1 k|
  simp only [abs_of_nonneg (hnn _)] at hpq hqr
  refine ⟨_, _, rfl, ?_, ?_, ?_, ?_, ?_, ?_⟩
  · exact hnn _
  · simpa [hi] using hpq
  · simpa [hi] using hqr
  · exact fun k => ⟨hE.length _, hvar _⟩
  · intro k l hkl
    exact (mul_eq_zero.mp (eigen_orth (matrix_symm good) hE _ _)).resolve_left (sub_ne_zero.mpr hkl.symm)
  · intro u hu
    rw [← quad good hne]
    constructor
    · have := rayleigh (matrix_symm good) hE 1 ((eig (matrix good)).1 p) (by norm_num) (by
        intro k
        rcases hmem k with rfl | rfl | rfl <;> linarith) u
      rw [hu] at this
      simp only [hi, Fin.val_zero, List.getD_cons_zero]
      linarith
    · have := rayleigh (matrix_symm good) hE (-1) ((eig (matrix good)).1 r) (by norm_num) (by
        intro k
        rcases hmem k with rfl | rfl | rfl <;> linarith) u
      rw [hu] at this
      simp only [hi, Fin.val_two, List.getD_cons_succ, List.getD_cons_zero]
      linarith

/-- there are such eigenvalues and eigenvectors, of all symmetric matrices -/
example : ∃ eig : Mat → V × Mat, ∀ m : Mat, (∀ i j, m i j = m j i) → Eigen m (eig m).1 (eig m).2 := by
  classical
  have key : ∀ m : Mat, (∀ i j, m i j = m j i) → ∃ e : V × Mat, Eigen m e.1 e.2 := by
    intro m hs
    have hH : (Matrix.of m).IsHermitian := by
      ext i j
      simp [Matrix.conjTranspose_apply, hs i j]
    refine ⟨(hH.eigenvalues, fun i k => hH.eigenvectorBasis k i), ⟨?_, ?_, ?_⟩⟩
    · intro k i
      have := congrFun (hH.mulVec_eigenvectorBasis k) i
      simpa [Matrix.mulVec, dotProduct] using this
    · intro k
      have := hH.eigenvectorBasis.orthonormal.1 k
      rw [EuclideanSpace.norm_eq, Real.sqrt_eq_one] at this
      simpa [along, sq] using this
    · intro u
      refine ⟨fun k => hH.eigenvectorBasis.repr (WithLp.toLp 2 u) k, fun i => ?_⟩
      have := congrArg (fun v : EuclideanSpace ℝ (Fin 3) => v i) (hH.eigenvectorBasis.sum_repr (WithLp.toLp 2 u))
      simp only at this
      rw [← this]
      simp [Fin.sum_univ_three]
  exact ⟨fun m => if h : ∀ i j, m i j = m j i then (key m h).choose else 0, fun m h => by
    simp only [dif_pos h]; exact (key m h).choose_spec⟩

example : [fun _ => some 1, fun i => if i = 0 then none else some (2 : ℝ), fun _ => some 3, fun _ => some 5].filterMap complete =
    [fun _ => 1, fun _ => 3, fun _ => 5] := by
  simp [complete]

/-! ### C137 -/

theorem norm_pos_iff (v : V) : Minvar.norm v ≠ 0 ↔ ∃ i, v i ≠ 0 := by
  unfold Minvar.norm
  constructor
  · intro h
    by_contra hc
    push Not at hc
    apply h
    simp [dot, hc]
  · rintro ⟨i, hi⟩
    have h : 0 < dot v v := by
      unfold dot
      have : 0 < v i * v i := mul_self_pos.mpr hi
      obtain rfl | rfl | rfl : i = 0 ∨ i = 1 ∨ i = 2 := by fin_cases i <;> simp
      · nlinarith [mul_self_nonneg (v 1), mul_self_nonneg (v 2)]
      · nlinarith [mul_self_nonneg (v 0), mul_self_nonneg (v 2)]
      · nlinarith [mul_self_nonneg (v 0), mul_self_nonneg (v 1)]
    exact (Real.sqrt_pos.mpr h).ne'

theorem norm_sq (v : V) : Minvar.norm v * Minvar.norm v = dot v v := by
  unfold Minvar.norm
  refine Real.mul_self_sqrt ?_
  unfold dot
  nlinarith [mul_self_nonneg (v 0), mul_self_nonneg (v 1), mul_self_nonneg (v 2)]

theorem norm_nonneg' (v : V) : 0 ≤ Minvar.norm v := Real.sqrt_nonneg _

theorem unit_some {v u : V} (h : unit v = some u) : dot u u = 1 ∧ Same v u := by
  unfold unit at h
  split at h
  · simp at h
  rename_i hn
  simp only [Option.some.injEq] at h
  subst h
  constructor
  · have := norm_sq v
    unfold dot at this ⊢
    field_simp
    linarith
  · exact ⟨1 / Minvar.norm v, by have := norm_nonneg' v; positivity, fun i => by ring⟩

theorem unit_of_ne {v : V} (h : ∃ i, v i ≠ 0) : ∃ u, unit v = some u := by
  unfold unit
  rw [if_neg ((norm_pos_iff v).mpr h)]
  exact ⟨_, rfl⟩

theorem unit_zero {v : V} (h : ∀ i, v i = 0) : unit v = none := by
  unfold unit
  rw [if_pos]
  by_contra hc
  obtain ⟨i, hi⟩ := (norm_pos_iff v).mp hc
  exact hi (h i)

/-- two vectors of length one that point the same way are the same -/
theorem same_unit {a b : V} (ha : dot a a = 1) (hb : dot b b = 1) (h : Same a b) : b = a := by
  obtain ⟨c, hc, h⟩ := h
  have : c * c = 1 := by
    unfold dot at ha hb
    rw [h 0, h 1, h 2] at hb
    linear_combination hb - c * c * ha
  have : c = 1 := by nlinarith
  funext i
  rw [h i, this, one_mul]

theorem same_ne {v n : V} (hn : along n n = 1) (h : Same v n) : ∃ i, v i ≠ 0 := by
  by_contra hc
  push Not at hc
  obtain ⟨c, _, h⟩ := h
  rw [along_eq, dot] at hn
  rw [h 0, h 1, h 2, hc 0, hc 1, hc 2] at hn
  norm_num at hn

theorem same_trans {a b c : V} (h : Same a b) (h' : Same b c) : Same a c := by
  obtain ⟨x, hx, h⟩ := h
  obtain ⟨y, hy, h'⟩ := h'
  exact ⟨y * x, by positivity, fun i => by rw [h' i, h i]; ring⟩

theorem same_symm {a b : V} (h : Same a b) : Same b a := by
  obtain ⟨x, hx, h⟩ := h
  exact ⟨x⁻¹, by positivity, fun i => by rw [h i]; field_simp⟩

theorem unit_unique {v n n' : V} (hn : along n n = 1) (h : Same v n) (h' : unit v = some n') : n = n' := by
  rw [along_eq] at hn
  exact same_unit (unit_some h').1 hn (same_trans (same_symm (unit_some h').2) h)

theorem frame {n l : V} (hn : dot n n = 1) (hl : dot l l = 1) (hln : dot l n = 0) : RightHanded l (cross n l) n := by
  unfold dot at hn hl hln
  refine ⟨?_, ?_, ?_, ?_, ?_, ?_, ?_⟩ <;>
    simp only [along_eq, dot, cross, Matrix.cons_val_zero, Matrix.cons_val_one, Matrix.cons_val_two, Matrix.tail_cons, Matrix.head_cons,
      Matrix.cons_val]
  · linarith
  · linear_combination (l 0 * l 0 + l 1 * l 1 + l 2 * l 2) * hn + hl - (l 0 * n 0 + l 1 * n 1 + l 2 * n 2) * hln
  · linarith
  · ring
  · linarith
  · ring
  · linear_combination (l 0 * l 0 + l 1 * l 1 + l 2 * l 2) * hn + hl - (l 0 * n 0 + l 1 * n 1 + l 2 * n 2) * hln

theorem lmn_some {evecMin evecMax : V} {basis : Option V} {n b : V} (hn : unit evecMin = some n)
    (hb : (match basis with | none => evecMax | some b => if allclose n (unit b) then evecMax else b) = b)
    (hp : ∃ i, perp n b i ≠ 0) : ∃ l, lmn evecMin evecMax basis = some (l, cross n l, n) ∧ RightHanded l (cross n l) n ∧
      Same evecMin n ∧ Same (perp n b) l := by
  have hpe : (fun i => b i - dot b n * n i) = perp n b := by funext i; unfold perp; rw [along_eq]
  obtain ⟨l, hl⟩ := unit_of_ne hp
  refine ⟨l, ?_, ?_, (unit_some hn).2, (unit_some hl).2⟩
  · unfold lmn
    rw [hn]
    cases basis <;> simp only [Option.bind_some] at hb ⊢ <;> rw [hb, hpe, hl] <;> rfl
  · refine frame (unit_some hn).1 (unit_some hl).1 ?_
    obtain ⟨c, _, h⟩ := (unit_some hl).2
    have hn1 := (unit_some hn).1
    unfold perp at h
    unfold dot at hn1 ⊢
    rw [h 0, h 1, h 2, along_eq, dot]
    linear_combination -c * (b 0 * n 0 + b 1 * n 1 + b 2 * n 2) * hn1

/-- whether two vectors are parallel, one way or the other -/
def Parallel (a b : V) : Prop := ∃ c : ℝ, ∀ i, b i = c * a i

theorem perp_ne {evecMin n b : V} (hn : unit evecMin = some n) (h : ¬ Parallel evecMin b) : ∃ i, perp n b i ≠ 0 := by
  by_contra hc
  push Not at hc
  obtain ⟨c, _, hs⟩ := (unit_some hn).2
  refine h ⟨along b n * c, fun i => ?_⟩
  have := hc i
  unfold perp at this
  rw [hs i] at this
  linarith

theorem close_comp {n b u : V} (hu : unit b = some u) (h : allclose n (some u) = true) (i : Fin 3) : |n i - u i| ≤ 1 / 50000 := by
  unfold allclose at h
  have h1 := of_decide_eq_true h i
  have h2 : |u i| ≤ 1 := by
    have hd := (unit_some hu).1
    unfold dot at hd
    rw [abs_le_one_iff_mul_self_le_one]
    fin_cases i <;> simp only [Fin.zero_eta, Fin.mk_one, Fin.reduceFinMk] <;>
      nlinarith [mul_self_nonneg (u 0), mul_self_nonneg (u 1), mul_self_nonneg (u 2)]
  norm_num at h1 ⊢
  linarith

/-- C137: the directions are a right-handed frame, with the third that of the minimum variance. The first is in the plane of it and the
    basis, on the side of the basis; for all bases that are not parallel to the minimum variance (or nearly so). -/
theorem C137_basis_partial (evecMin evecMax b n u : V) (hn : along n n = 1) (hmin : Same evecMin n) (hu : along u u = 1) (hbu : Same b u)
    (hb : ¬ Parallel evecMin b) (hfar : ∃ i, 1 / 50000 < |n i - u i|) :
    ∃ l m, lmn evecMin evecMax (some b) = some (l, m, n) ∧ RightHanded l m n ∧ Same (perp n b) l := by
  obtain ⟨n', hn'⟩ := unit_of_ne (same_ne hn hmin)
  obtain ⟨u', hu'⟩ := unit_of_ne (same_ne hu hbu)
  obtain rfl := unit_unique hn hmin hn'
  obtain rfl := unit_unique hu hbu hu'
  have hc : ¬ allclose n (unit b) = true := by
    intro h
    rw [hu'] at h
    obtain ⟨i, hi⟩ := hfar
    linarith [close_comp hu' h i]
  obtain ⟨l, h1, h2, _, h4⟩ := lmn_some (evecMax := evecMax) (basis := some b) hn' (b := b) (by simp only; rw [if_neg hc]) (perp_ne hn' hb)
  exact ⟨l, _, h1, h2, h4⟩

/-- C137: with no basis, or one in the direction of the minimum variance, it is that of the maximum variance instead. -/
theorem C137_max_partial (evecMin evecMax n : V) (basis : Option V) (hn : along n n = 1) (hmin : Same evecMin n)
    (hb : ∀ b, basis = some b → Same evecMin b) (hmax : ¬ Parallel evecMin evecMax) :
    ∃ l m, lmn evecMin evecMax basis = some (l, m, n) ∧ RightHanded l m n ∧ Same (perp n evecMax) l := by
  obtain ⟨n', hn'⟩ := unit_of_ne (same_ne hn hmin)
  obtain rfl := unit_unique hn hmin hn'
  have hc : (match (generalizing := false) basis with | none => evecMax | some b => if allclose n (unit b) then evecMax else b) = evecMax := by
    clear hmax
    revert hb
    cases basis with
    | none => exact fun _ => rfl
    | some b =>
      intro hb
      have hs := hb b rfl
      have hs' : Same b n := same_trans (same_symm hs) hmin
      obtain ⟨u, hu⟩ := unit_of_ne (same_ne hn hs')
      obtain rfl := unit_unique hn hs' hu
      simp only
      rw [if_pos]
      rw [hu]
      unfold allclose
      refine decide_eq_true fun i => ?_
      rw [sub_self, abs_zero]
      positivity
  obtain ⟨l, h1, h2, _, h4⟩ := lmn_some hn' hc (perp_ne hn' hmax)
  exact ⟨l, _, h1, h2, h4⟩

/-- C137: for all bases that are not parallel, it is a right-handed frame, from the basis or the maximum variance -/
theorem C137_near_partial (evecMin evecMax b n : V) (hn : along n n = 1) (hmin : Same evecMin n) (hb : ¬ Parallel evecMin b)
    (hmax : ¬ Parallel evecMin evecMax) :
    ∃ l m, lmn evecMin evecMax (some b) = some (l, m, n) ∧ RightHanded l m n ∧ (Same (perp n b) l ∨ Same (perp n evecMax) l) := by
  obtain ⟨n', hn'⟩ := unit_of_ne (same_ne hn hmin)
  obtain rfl := unit_unique hn hmin hn'
  by_cases hc : allclose n (unit b) = true
  · obtain ⟨l, h1, h2, _, h4⟩ := lmn_some (evecMax := evecMax) (basis := some b) hn' (b := evecMax) (by simp only; rw [if_pos hc])
      (perp_ne hn' hmax)
    exact ⟨l, _, h1, h2, .inr h4⟩
  · obtain ⟨l, h1, h2, _, h4⟩ := lmn_some (evecMax := evecMax) (basis := some b) hn' (b := b) (by simp only; rw [if_neg hc])
      (perp_ne hn' hb)
    exact ⟨l, _, h1, h2, .inl h4⟩

/-- C137 fails for bases that point the other way: they are as parallel to the normal, but that is not noticed, and what is left of them
    is nothing; and so do bases of zero. -/
theorem C137_antiparallel_violated (evecMin evecMax n b : V) (hn : along n n = 1) (hmin : Same evecMin n)
    (hb : (∀ i, b i = 0) ∨ Same n fun i => - b i) : lmn evecMin evecMax (some b) = none := by
  obtain ⟨n', hn'⟩ := unit_of_ne (same_ne hn hmin)
  obtain rfl := unit_unique hn hmin hn'
  rw [along_eq] at hn
  have hc : ¬ allclose n (unit b) = true := by
    rcases hb with hb | hb
    · rw [unit_zero hb]; simp [allclose]
    · obtain ⟨c, hc, h⟩ := hb
      have hu : unit b = some fun i => - n i := by
        have hne : ∃ i, b i ≠ 0 := by
          by_contra hz
          push Not at hz
          unfold dot at hn
          have h0 := h 0; have h1 := h 1; have h2 := h 2
          simp only at h0 h1 h2
          rw [hz, neg_zero] at h0 h1 h2
          rw [eq_comm, mul_eq_zero] at h0 h1 h2
          rw [h0.resolve_left hc.ne', h1.resolve_left hc.ne', h2.resolve_left hc.ne'] at hn
          norm_num at hn
        obtain ⟨u, hu⟩ := unit_of_ne hne
        rw [hu]
        refine congrArg some (unit_unique (n := fun i => - n i) ?_ ⟨c⁻¹, by positivity, fun i => ?_⟩ hu).symm
        · rw [along_eq]; unfold dot at hn ⊢; linarith
        · have := h i
          field_simp
          linarith
      intro hcl
      rw [hu] at hcl
      have hall : ∀ i, |2 * n i| ≤ 1 / 50000 := by
        intro i
        have := close_comp hu hcl i
        rwa [show n i - - n i = 2 * n i by ring] at this
      have hi : ∀ i, n i * n i ≤ 1 / 10 := by
        intro i
        have := abs_le.mp (hall i)
        nlinarith
      unfold dot at hn
      linarith [hi 0, hi 1, hi 2]
  unfold lmn
  rw [hn']
  simp only [Option.bind_some]
  rw [if_neg hc, unit_zero, Option.map_none]
  intro i
  rcases hb with hb | ⟨c, _, h⟩
  · unfold dot; rw [hb 0, hb 1, hb 2, hb i]; ring
  · have hi : ∀ j, b j = - c * n j := fun j => by linarith [h j]
    unfold dot at hn ⊢
    rw [hi 0, hi 1, hi 2, hi i]
    linear_combination c * n i * hn

/-- C137: the points around another one are at half the distance from it, on either side in the direction given -/
theorem C137_around (p0 dir : V) (l : ℝ) :
    ((∀ i, dir i = 0) → around p0 l dir = none) ∧
    ((∃ i, dir i ≠ 0) → ∃ p1 p2 d, around p0 l dir = some (p1, p2) ∧ along d d = 1 ∧ Same dir d ∧
      (∀ i, p2 i - p1 i = l * d i) ∧ ∀ i, (p1 i + p2 i) / 2 = p0 i) := by
  unfold around
  refine ⟨fun h => by rw [unit_zero h]; rfl, fun h => ?_⟩
  obtain ⟨d, hd⟩ := unit_of_ne h
  rw [hd]
  refine ⟨_, _, d, rfl, ?_, (unit_some hd).2, fun i => by ring, fun i => by ring⟩
  rw [along_eq]
  exact (unit_some hd).1

/-- C137: of samples, whatever they are: the third direction has the least variance -/
theorem C137_samples_partial (eig : Mat → V × Mat) (heig : ∀ m : Mat, (∀ i j, m i j = m j i) → Eigen m (eig m).1 (eig m).2)
    (arr : List (Fin 3 → Option ℝ)) (basis : Option V) (l m n : V) (h : findLmn eig arr basis = some (l, m, n)) (u : V)
    (hu : along u u = 1) : along n n = 1 ∧
      variance ((arr.filterMap complete).map (along n)) ≤ variance ((arr.filterMap complete).map (along u)) := by
  have hM := C136_minvar eig heig arr
  unfold findLmn at h
  rcases Nat.lt_or_ge (arr.filterMap complete).length 3 with hlt | hge
  · rw [hM.1 hlt] at h; simp at h
  · obtain ⟨w, v, h1, _, _, _, h5, _, h6⟩ := hM.2 hge
    rw [h1] at h
    simp only [Option.bind_some] at h
    have hv := (h5 0).1
    obtain ⟨n', hn'⟩ := unit_of_ne (same_ne (v := fun i => v i 0) hv ⟨1, one_pos, fun i => by ring⟩)
    have e := unit_unique (n := fun i => v i 0) hv ⟨1, one_pos, fun i => by ring⟩ hn'
    unfold lmn at h
    rw [hn'] at h
    simp only [Option.bind_some, Option.map_eq_some_iff, Prod.mk.injEq] at h
    obtain ⟨_, _, _, _, rfl⟩ := h
    rw [← e]
    exact ⟨hv, by rw [(h5 0).2]; exact (h6 u hu).1⟩

/-- C137: of samples, with no basis, the first direction has the most variance of all -/
theorem C137_most_partial (eig : Mat → V × Mat) (heig : ∀ m : Mat, (∀ i j, m i j = m j i) → Eigen m (eig m).1 (eig m).2)
    (arr : List (Fin 3 → Option ℝ)) (l m n : V) (h : findLmn eig arr none = some (l, m, n)) (u : V) (hu : along u u = 1) :
    along l l = 1 ∧ variance ((arr.filterMap complete).map (along u)) ≤ variance ((arr.filterMap complete).map (along l)) := by
  have hM := C136_minvar eig heig arr
  unfold findLmn at h
  rcases Nat.lt_or_ge (arr.filterMap complete).length 3 with hlt | hge
  · rw [hM.1 hlt] at h; simp at h
  · obtain ⟨w, v, h1, _, _, _, h5, horth, h6⟩ := hM.2 hge
    rw [h1] at h
    simp only [Option.bind_some] at h
    have hv := (h5 0).1
    obtain ⟨n', hn'⟩ := unit_of_ne (same_ne (v := fun i => v i 0) hv ⟨1, one_pos, fun i => by ring⟩)
    have e := unit_unique (n := fun i => v i 0) hv ⟨1, one_pos, fun i => by ring⟩ hn'
    unfold lmn at h
    rw [hn'] at h
    simp only [Option.bind_some, Option.map_eq_some_iff, Prod.mk.injEq] at h
    obtain ⟨l', hl', rfl, _⟩ := h
    have hll : along l' l' = 1 := by rw [along_eq]; exact (unit_some hl').1
    refine ⟨hll, ?_⟩
    by_cases hw : w 0 = w 2
    · exact ((h6 u hu).2.trans hw.ge).trans (h6 l' hll).1
    · have ho := horth 2 0 (fun h => hw h.symm)
      rw [along_eq, e] at ho
      have he : (fun i => v i 2 - dot (fun i => v i 2) n' * n' i) = fun i => v i 2 := by
        funext i; rw [ho]; ring
      rw [he] at hl'
      have := unit_unique (n := fun i => v i 2) (h5 2).1 ⟨1, one_pos, fun i => by ring⟩ hl'
      rw [← this, (h5 2).2]
      exact (h6 u hu).2

example : ¬ Parallel ![0, 0, 1] ![1, 0, 1] ∧ Same ![0, 0, 2] ![0, 0, 1] ∧ along ![0, 0, 1] ![0, 0, 1] = 1 := by
  refine ⟨?_, ⟨1 / 2, by norm_num, fun i => by fin_cases i <;> simp⟩, by simp [along, Fin.sum_univ_three]⟩
  rintro ⟨c, h⟩
  have := h 0
  simp at this

end Viscid.Props
