import Verif.Model.Nulls
import Verif.Spec.Nulls
import Mathlib.Tactic.LinearCombination
import Mathlib.Tactic.FieldSimp
import Mathlib.Tactic.Ring
import Mathlib.Tactic.IntervalCases
/-!
# C53, C54, C82-C85: null points
-/
namespace Viscid.Props
open Viscid.Nulls Viscid.Spec.Nulls

/-! ### C53, candidates -/

theorem different_iff (a b c d e f g h : Bool) : different a b c d e f g h = true ↔
    (a = true ∨ b = true ∨ c = true ∨ d = true ∨ e = true ∨ f = true ∨ g = true ∨ h = true) ∧
    (a = false ∨ b = false ∨ c = false ∨ d = false ∨ e = false ∨ f = false ∨ g = false ∨ h = false) := by
  cases a <;> cases b <;> cases c <;> cases d <;> cases e <;> cases f <;> cases g <;> cases h <;> simp [different]

theorem differentAt_iff (b : Field) (i j k d : Nat) : differentAt b i j k d = true ↔ ChangesSign b i j k d := by
  unfold differentAt
  rw [different_iff]
  simp only [sign, decide_eq_true_eq, decide_eq_false_iff_not, not_lt, gt_iff_lt]
  unfold ChangesSign
  constructor
  · rintro ⟨h1, h2⟩
    constructor
    · rcases h1 with h | h | h | h | h | h | h | h
      · exact ⟨0, 0, 0, by omega, by omega, by omega, h⟩
      · exact ⟨0, 0, 1, by omega, by omega, by omega, h⟩
      · exact ⟨0, 1, 0, by omega, by omega, by omega, h⟩
      · exact ⟨0, 1, 1, by omega, by omega, by omega, h⟩
      · exact ⟨1, 0, 0, by omega, by omega, by omega, h⟩
      · exact ⟨1, 0, 1, by omega, by omega, by omega, h⟩
      · exact ⟨1, 1, 0, by omega, by omega, by omega, h⟩
      · exact ⟨1, 1, 1, by omega, by omega, by omega, h⟩
    · rcases h2 with h | h | h | h | h | h | h | h
      · exact ⟨0, 0, 0, by omega, by omega, by omega, h⟩
      · exact ⟨0, 0, 1, by omega, by omega, by omega, h⟩
      · exact ⟨0, 1, 0, by omega, by omega, by omega, h⟩
      · exact ⟨0, 1, 1, by omega, by omega, by omega, h⟩
      · exact ⟨1, 0, 0, by omega, by omega, by omega, h⟩
      · exact ⟨1, 0, 1, by omega, by omega, by omega, h⟩
      · exact ⟨1, 1, 0, by omega, by omega, by omega, h⟩
      · exact ⟨1, 1, 1, by omega, by omega, by omega, h⟩
  · rintro ⟨⟨p, q, r, hp, hq, hr, h⟩, ⟨p', q', r', hp', hq', hr', h'⟩⟩
    constructor
    · interval_cases p <;> interval_cases q <;> interval_cases r <;> (try simp only [Nat.add_zero, gt_iff_lt] at h) <;> simp [h]
    · interval_cases p' <;> interval_cases q' <;> interval_cases r' <;> (try simp only [Nat.add_zero] at h') <;> simp [h']

/-- **C53, candidates.** A cell is a candidate exactly if its corner is not within `ibound` of the origin and every
    component changes sign on its corners. -/
theorem C53_candidates (b : Field) (nx ny nz : Nat) (x y z : Nat → ℝ) (ibound : ℝ) (i j k : Nat) :
    (i, j, k) ∈ reduceCandidates b nx ny nz x y z ibound ↔
      i + 1 < nx ∧ j + 1 < ny ∧ k + 1 < nz ∧ ibound ^ 2 ≤ x i ^ 2 + y j ^ 2 + z k ^ 2 ∧
      ∀ d, d < 3 → ChangesSign b i j k d := by
  unfold reduceCandidates
  simp only [List.mem_flatMap, List.mem_range, List.mem_filterMap]
  constructor
  · rintro ⟨i', hi, j', hj, k', hk, h⟩
    split at h
    · cases h
    · rename_i hr
      split at h
      · rename_i hd
        cases h
        simp only [Bool.and_eq_true, differentAt_iff] at hd
        refine ⟨by omega, by omega, by omega, not_lt.1 hr, ?_⟩
        intro d hd3
        interval_cases d
        · exact hd.1.1
        · exact hd.1.2
        · exact hd.2
      · cases h
  · rintro ⟨hi, hj, hk, hr, hd⟩
    refine ⟨i, by omega, j, by omega, k, by omega, ?_⟩
    rw [if_neg (not_lt.2 hr), if_pos]
    simp only [Bool.and_eq_true, differentAt_iff]
    exact ⟨⟨hd 0 (by omega), hd 1 (by omega)⟩, hd 2 (by omega)⟩

/-- **C53, candidates.** No cell is listed twice, and a reported null cell is a candidate. -/
theorem C53_once (b : Field) (nx ny nz : Nat) (x y z : Nat → ℝ) (ibound : ℝ) :
    (reduceCandidates b nx ny nz x y z ibound).Nodup ∧
    (nullCells b (reduceCandidates b nx ny nz x y z ibound)).Sublist (reduceCandidates b nx ny nz x y z ibound) := by
  refine ⟨?_, List.filter_sublist⟩
  unfold reduceCandidates
  have mem : ∀ i j (p : Nat × Nat × Nat), p ∈ ((List.range (nz - 1)).filterMap fun k =>
      if x i ^ 2 + y j ^ 2 + z k ^ 2 < ibound ^ 2 then none
      else if differentAt b i j k 0 && differentAt b i j k 1 && differentAt b i j k 2 then some (i, j, k)
      else none) → p.1 = i ∧ p.2.1 = j := by
    intro i j p hp
    simp only [List.mem_filterMap] at hp
    obtain ⟨k, -, h⟩ := hp
    split at h
    · cases h
    · split at h
      · cases h; exact ⟨rfl, rfl⟩
      · cases h
  unfold List.Nodup
  rw [List.pairwise_flatMap]
  constructor
  · intro i _
    rw [List.pairwise_flatMap]
    constructor
    · intro j _
      rw [List.pairwise_filterMap]
      apply List.Pairwise.imp _ List.nodup_range
      intro k k' hne p hp p' hp' e
      split at hp
      · cases hp
      · split at hp
        · cases hp
          split at hp'
          · cases hp'
          · split at hp'
            · cases hp'
              simp only [Prod.mk.injEq] at e
              exact hne e.2.2
            · cases hp'
        · cases hp
    · apply List.Pairwise.imp _ List.nodup_range
      intro j j' hne p hp p' hp' e
      have h1 := mem i j p hp
      have h2 := mem i j' p' hp'
      rw [e] at h1
      exact hne (h1.2.symm.trans h2.2)
  · apply List.Pairwise.imp _ List.nodup_range
    intro i i' hne p hp p' hp' e
    simp only [List.mem_flatMap] at hp hp'
    obtain ⟨j, -, hp⟩ := hp
    obtain ⟨j', -, hp'⟩ := hp'
    have h1 := mem i j p hp
    have h2 := mem i' j' p' hp'
    rw [e] at h1
    exact hne (h1.1.symm.trans h2.1)

/-- A cell of the field (x, y, z) - 1/2, on a grid with two points along each axis -/
noncomputable def halfField : Field := fun i j k c => if c = 0 then (i : ℝ) - 1 / 2 else if c = 1 then (j : ℝ) - 1 / 2 else (k : ℝ) - 1 / 2

theorem half_changes (d : Nat) (hd : d < 3) : ChangesSign halfField 0 0 0 d := by
  constructor
  · exact ⟨1, 1, 1, by omega, by omega, by omega, by interval_cases d <;> norm_num [halfField]⟩
  · exact ⟨0, 0, 0, by omega, by omega, by omega, by interval_cases d <;> norm_num [halfField]⟩

/-- The hypotheses can be met. -/
example : (0, 0, 0) ∈ reduceCandidates halfField 2 2 2 (fun i => i) (fun i => i) (fun i => i) 0 := by
  rw [C53_candidates]
  exact ⟨by omega, by omega, by omega, by norm_num, half_changes⟩

/-! ### C53, faces -/

/-- **C53, faces, in part.** On the YZ and ZX faces the coefficients are those of the interpolant: evaluating them gives
    the trilinear interpolation of the cell at that point of the face. -/
theorem C53_faces_partial (b : Field) (i j k d n : Nat) (hn : 2 ≤ n) (hn' : n < 6) (u v : ℝ) :
    (coef b (i, j, k) n d).eval u v =
      trilinear b i j k d (facePoint n u v).1 (facePoint n u v).2.1 (facePoint n u v).2.2 := by
  interval_cases n <;>
    simp only [coef, Coef.eval, corner, oa, ob, oc, od, List.getD_cons_succ, List.getD_cons_zero, Nat.add_zero, facePoint,
      trilinear] <;> ring

/-- **C53 fails on the XY faces**: for both of them, corner d of the table is corner b again, and the value at the
    opposite corner is wrong for every field whose values at the two corners differ. -/
theorem C53_xy_faces_violated (b : Field) (i j k d n : Nat) (hn : n < 2)
    (h : b (i + 1) j (k + n) d ≠ b (i + 1) (j + 1) (k + n) d) :
    (coef b (i, j, k) n d).eval 1 1 ≠
      trilinear b i j k d (facePoint n 1 1).1 (facePoint n 1 1).2.1 (facePoint n 1 1).2.2 := by
  interval_cases n <;>
    simp only [coef, Coef.eval, corner, oa, ob, oc, od, List.getD_cons_succ, List.getD_cons_zero, Nat.add_zero, facePoint,
      trilinear] at h ⊢ <;> intro e <;> apply h <;> linear_combination e

example : halfField (0 + 1) 0 (0 + 0) 1 ≠ halfField (0 + 1) (0 + 1) (0 + 0) 1 := by norm_num [halfField]

/-! ### C54 -/

theorem rootsX_sound (a b c x : ℝ) (h : x ∈ rootsX a b c) : a * x ^ 2 + b * x + c = 0 := by
  unfold rootsX at h
  by_cases ha : a = 0
  · rw [if_pos ha] at h
    by_cases hb : b ≠ 0
    · rw [if_pos hb, List.mem_singleton] at h
      rw [h, ha]; field_simp; ring
    · rw [if_neg hb] at h; cases h
  · rw [if_neg ha] at h
    simp only at h
    by_cases hd : b ^ 2 - 4 * a * c > 0
    · rw [if_pos hd] at h
      have hs := Real.sq_sqrt hd.le
      generalize √(b ^ 2 - 4 * a * c) = s at hs h
      simp only [List.mem_cons, List.not_mem_nil, or_false] at h
      rcases h with rfl | rfl
      · field_simp; linear_combination hs
      · field_simp; linear_combination hs
    · rw [if_neg hd] at h
      by_cases hd0 : b ^ 2 - 4 * a * c = 0
      · rw [if_pos hd0, List.mem_singleton] at h
        rw [h]; field_simp; linear_combination -hd0
      · rw [if_neg hd0] at h; cases h

theorem rootsX_complete (a b c x : ℝ) (hab : a ≠ 0 ∨ b ≠ 0) (h : a * x ^ 2 + b * x + c = 0) : x ∈ rootsX a b c := by
  unfold rootsX
  by_cases ha : a = 0
  · have hb : b ≠ 0 := by rcases hab with h | h; exact absurd ha h; exact h
    rw [if_pos ha, if_pos hb, List.mem_singleton]
    rw [ha] at h
    field_simp; linarith
  · rw [if_neg ha]
    simp only
    have hsq : (2 * a * x + b) ^ 2 = b ^ 2 - 4 * a * c := by linear_combination 4 * a * h
    by_cases hd : b ^ 2 - 4 * a * c > 0
    · rw [if_pos hd]
      have hs := Real.sq_sqrt hd.le
      generalize √(b ^ 2 - 4 * a * c) = s at hs
      have : (2 * a * x + b - s) * (2 * a * x + b + s) = 0 := by linear_combination hsq - hs
      rcases mul_eq_zero.1 this with h1 | h1
      · have : x = (-b + s) / (2 * a) := by field_simp; linarith
        rw [this]; exact List.mem_cons_self
      · have : x = (-b - s) / (2 * a) := by field_simp; linarith
        rw [this]; exact List.mem_cons_of_mem _ List.mem_cons_self
    · rw [if_neg hd]
      have h0 : b ^ 2 - 4 * a * c = 0 := le_antisymm (not_lt.1 hd) (hsq ▸ sq_nonneg _)
      rw [if_pos h0, List.mem_singleton]
      rw [h0] at hsq
      have : 2 * a * x + b = 0 := by simpa using hsq
      field_simp; linarith

theorem rootsX_nodup (a b c : ℝ) : (rootsX a b c).Nodup := by
  unfold rootsX
  split
  · split
    · simp
    · simp
  · rename_i ha
    simp only
    split
    · rename_i hd
      have hs := Real.sqrt_pos.2 hd
      simp only [List.nodup_cons, List.mem_singleton, List.not_mem_nil, not_false_eq_true, List.nodup_nil, and_true]
      intro e
      rw [div_left_inj' (mul_ne_zero two_ne_zero ha)] at e
      linarith
    · split
      · simp
      · simp

/-- **C54.** Every root that is found is in the unit square, with y strictly inside, and both functions vanish there. -/
theorem C54_sound (a1 b1 c1 d1 a2 b2 c2 d2 x y : ℝ) (h : (x, y) ∈ findRootsFace ⟨a1, b1, c1, d1⟩ ⟨a2, b2, c2, d2⟩) :
    0 ≤ x ∧ x ≤ 1 ∧ 0 < y ∧ y < 1 ∧ bilinear a1 b1 c1 d1 x y = 0 ∧ bilinear a2 b2 c2 d2 x y = 0 := by
  unfold findRootsFace at h
  simp only [List.mem_filterMap] at h
  obtain ⟨x', hx, h⟩ := h
  have hroot := rootsX_sound _ _ _ _ hx
  unfold rootY at h
  simp only at h
  by_cases hz : c1 + d1 * x' = 0
  · rw [if_pos hz] at h; cases h
  · rw [if_neg hz] at h
    unfold keep at h
    simp only at h
    split at h
    · rename_i hk
      simp only [Option.some.injEq, Prod.mk.injEq] at h
      obtain ⟨rfl, rfl⟩ := h
      refine ⟨hk.1, hk.2.1, hk.2.2.1, hk.2.2.2, ?_, ?_⟩
      · have hy := div_mul_cancel₀ (-(a1 + b1 * x')) hz
        unfold bilinear; linear_combination hy
      · have hy := div_mul_cancel₀ (-(a1 + b1 * x')) hz
        generalize -(a1 + b1 * x') / (c1 + d1 * x') = y at hy
        have : (c1 + d1 * x') * bilinear a2 b2 c2 d2 x' y = 0 := by
          unfold bilinear; linear_combination (c2 + d2 * x') * hy - hroot
        exact (mul_eq_zero.1 this).resolve_left hz
    · cases h

/-! ### C82 -/

/-- **C82, in part.** Every common zero of the functions in the unit square (y strictly inside) is found, exactly once, if
    the equation for x is not void and the first function depends on y at that x. -/
theorem C82_complete_partial (a1 b1 c1 d1 a2 b2 c2 d2 x y : ℝ) (hx : 0 ≤ x) (hx' : x ≤ 1) (hy : 0 < y) (hy' : y < 1)
    (h1 : bilinear a1 b1 c1 d1 x y = 0) (h2 : bilinear a2 b2 c2 d2 x y = 0) (hc : c1 + d1 * x ≠ 0)
    (hab : b1 * d2 - d1 * b2 ≠ 0 ∨ (a1 * d2 - d1 * a2) + (b1 * c2 - c1 * b2) ≠ 0) :
    (x, y) ∈ findRootsFace ⟨a1, b1, c1, d1⟩ ⟨a2, b2, c2, d2⟩ := by
  unfold bilinear at h1 h2
  unfold findRootsFace
  simp only [List.mem_filterMap]
  refine ⟨x, rootsX_complete _ _ _ _ hab ?_, ?_⟩
  · linear_combination (c2 + d2 * x) * h1 - (c1 + d1 * x) * h2
  · have e : -(a1 + b1 * x) / (c1 + d1 * x) = y := by
      rw [div_eq_iff hc]; linear_combination -h1
    unfold rootY
    simp only
    rw [if_neg hc, e]
    unfold keep
    simp only
    rw [if_pos ⟨hx, hx', hy, hy'⟩]

/-- **C82.** No root is found twice. -/
theorem C82_once (q1 q2 : Coef) : (findRootsFace q1 q2).Nodup := by
  unfold findRootsFace
  unfold List.Nodup
  rw [List.pairwise_filterMap]
  apply List.Pairwise.imp _ (rootsX_nodup _ _ _)
  intro x x' hne p hp p' hp' e
  have key : ∀ (t : ℝ) (o : Option ℝ) (p : ℝ × ℝ), keep t o = some p → p.1 = t := by
    intro t o p h
    cases o with
    | none => cases h
    | some y =>
      unfold keep at h
      simp only at h
      split at h
      · cases h; rfl
      · cases h
  exact hne ((key _ _ _ hp).symm.trans ((congrArg Prod.fst e).trans (key _ _ _ hp')))

/-- **C82 fails** where the first function does not depend on y: the lines x = 1/2 and y = 1/2 meet in the middle of the
    face, and no root is found (0/0). -/
theorem C82_missed_violated : bilinear (-1 / 2) 1 0 0 (1 / 2) (1 / 2) = 0 ∧ bilinear (-1 / 2) 0 1 0 (1 / 2) (1 / 2) = 0 ∧
    findRootsFace ⟨-1 / 2, 1, 0, 0⟩ ⟨-1 / 2, 0, 1, 0⟩ = [] := by
  refine ⟨by norm_num [bilinear], by norm_num [bilinear], ?_⟩
  unfold findRootsFace rootsX rootY
  norm_num [keep]

/-- The hypotheses can be met: x + y = 1 and x = y. -/
example : bilinear (-1) 1 1 0 (1 / 2) (1 / 2) = 0 ∧ bilinear 0 1 (-1) 0 (1 / 2) (1 / 2) = 0 ∧ (1 : ℝ) + 0 * (1 / 2) ≠ 0 ∧
    ((1 : ℝ) * 0 - 0 * 1 ≠ 0 ∨ (-1 * 0 - 0 * 0) + (1 * (-1) - 1 * 1) ≠ (0 : ℝ)) := by
  norm_num [bilinear]

/-! ### C83 -/

/-- **C83, in part.** If nulls are found, then the reported cells are candidates, and the point of each is the corner of
    its cell. -/
theorem C83_points_partial (f : Field) (nx ny nz : Nat) (x y z : Nat → ℝ) (ibound : ℝ)
    (inds : List (Nat × Nat × Nat)) (pts : List (ℝ × ℝ × ℝ)) (h : findNulls f nx ny nz x y z ibound = .ok (inds, pts)) :
    inds ≠ [] ∧ inds.Nodup ∧ pts.length = inds.length ∧
    ∀ n (hn : n < inds.length), pts[n]? = some (x inds[n].1, y inds[n].2.1, z inds[n].2.2) ∧
      inds[n].1 + 1 < nx ∧ inds[n].2.1 + 1 < ny ∧ inds[n].2.2 + 1 < nz ∧
      ∀ d, d < 3 → ChangesSign f inds[n].1 inds[n].2.1 inds[n].2.2 d := by
  obtain ⟨hnd, hsub⟩ := C53_once f nx ny nz x y z ibound
  unfold findNulls at h
  split at h
  · cases h
  · rename_i c cs hc
    rw [← hc] at h
    split at h
    · cases h
    · rename_i m ms hm
      simp only [Except.ok.injEq, Prod.mk.injEq] at h
      obtain ⟨rfl, rfl⟩ := h
      rw [hm] at hsub
      refine ⟨by simp, hsub.nodup hnd, by simp, ?_⟩
      intro n hn
      have hmem := hsub.subset (List.getElem_mem hn)
      have hmem := (C53_candidates f nx ny nz x y z ibound _ _ _).1 hmem
      refine ⟨?_, hmem.1, hmem.2.1, hmem.2.2.1, hmem.2.2.2.2⟩
      rw [List.getElem?_map, List.getElem?_eq_getElem hn]; rfl

/-- **C83 fails**: `find_nulls` of a field without any candidate raises `ValueError`, and if no candidate has a null
    `IndexError`. -/
theorem C83_no_nulls_violated (f : Field) (nx ny nz : Nat) (x y z : Nat → ℝ) (ibound : ℝ) :
    ((∀ i j k, i + 1 < nx → j + 1 < ny → k + 1 < nz → ∃ d, d < 3 ∧ ¬ ChangesSign f i j k d) →
      findNulls f nx ny nz x y z ibound = .error .valueError) ∧
    (nullCells f (reduceCandidates f nx ny nz x y z ibound) = [] →
      ∃ e, findNulls f nx ny nz x y z ibound = .error e) := by
  constructor
  · intro h
    have : reduceCandidates f nx ny nz x y z ibound = [] := by
      rw [List.eq_nil_iff_forall_not_mem]
      rintro ⟨i, j, k⟩ hm
      rw [C53_candidates] at hm
      obtain ⟨h1, h2, h3, -, h4⟩ := hm
      obtain ⟨d, hd, hn⟩ := h i j k h1 h2 h3
      exact hn (h4 d hd)
    unfold findNulls
    rw [this]
  · intro h
    unfold findNulls
    split
    · exact ⟨_, rfl⟩
    · rename_i c cs hc
      rw [hc] at h
      rw [h]
      exact ⟨_, rfl⟩

/-- A field without nulls. -/
example : ∀ i j k, i + 1 < 3 → j + 1 < 3 → k + 1 < 3 → ∃ d, d < 3 ∧ ¬ ChangesSign (fun _ _ _ _ => 1) i j k d := by
  intro i j k _ _ _
  refine ⟨0, by omega, ?_⟩
  rintro ⟨-, _, _, _, _, _, _, h⟩
  norm_num at h

/-! ### C84 -/

theorem half_coef_0_0 : coef halfField (0, 0, 0) 0 0 = ⟨-1 / 2, 1, 0, 0⟩ := by
  norm_num [coef, corner, oa, ob, oc, od, halfField]

theorem half_coef_1_0 : coef halfField (0, 0, 0) 1 0 = ⟨-1 / 2, 1, 0, 0⟩ := by
  norm_num [coef, corner, oa, ob, oc, od, halfField]

theorem half_coef_2_0 : coef halfField (0, 0, 0) 2 0 = ⟨-1 / 2, 0, 0, 0⟩ := by
  norm_num [coef, corner, oa, ob, oc, od, halfField]

theorem half_coef_3_0 : coef halfField (0, 0, 0) 3 0 = ⟨1 / 2, 0, 0, 0⟩ := by
  norm_num [coef, corner, oa, ob, oc, od, halfField]

theorem half_coef_4_0 : coef halfField (0, 0, 0) 4 0 = ⟨-1 / 2, 0, 1, 0⟩ := by
  norm_num [coef, corner, oa, ob, oc, od, halfField]

theorem half_coef_5_0 : coef halfField (0, 0, 0) 5 0 = ⟨-1 / 2, 0, 1, 0⟩ := by
  norm_num [coef, corner, oa, ob, oc, od, halfField]

theorem half_coef_0_1 : coef halfField (0, 0, 0) 0 1 = ⟨-1 / 2, 0, 1, -1⟩ := by
  norm_num [coef, corner, oa, ob, oc, od, halfField]

theorem half_coef_1_1 : coef halfField (0, 0, 0) 1 1 = ⟨-1 / 2, 0, 1, -1⟩ := by
  norm_num [coef, corner, oa, ob, oc, od, halfField]

theorem half_coef_2_1 : coef halfField (0, 0, 0) 2 1 = ⟨-1 / 2, 1, 0, 0⟩ := by
  norm_num [coef, corner, oa, ob, oc, od, halfField]

theorem half_coef_3_1 : coef halfField (0, 0, 0) 3 1 = ⟨-1 / 2, 1, 0, 0⟩ := by
  norm_num [coef, corner, oa, ob, oc, od, halfField]

theorem half_coef_4_1 : coef halfField (0, 0, 0) 4 1 = ⟨-1 / 2, 0, 0, 0⟩ := by
  norm_num [coef, corner, oa, ob, oc, od, halfField]

theorem half_coef_5_1 : coef halfField (0, 0, 0) 5 1 = ⟨1 / 2, 0, 0, 0⟩ := by
  norm_num [coef, corner, oa, ob, oc, od, halfField]

theorem half_coef_0_2 : coef halfField (0, 0, 0) 0 2 = ⟨-1 / 2, 0, 0, 0⟩ := by
  norm_num [coef, corner, oa, ob, oc, od, halfField]

theorem half_coef_1_2 : coef halfField (0, 0, 0) 1 2 = ⟨1 / 2, 0, 0, 0⟩ := by
  norm_num [coef, corner, oa, ob, oc, od, halfField]

theorem half_coef_2_2 : coef halfField (0, 0, 0) 2 2 = ⟨-1 / 2, 0, 1, 0⟩ := by
  norm_num [coef, corner, oa, ob, oc, od, halfField]

theorem half_coef_3_2 : coef halfField (0, 0, 0) 3 2 = ⟨-1 / 2, 0, 1, 0⟩ := by
  norm_num [coef, corner, oa, ob, oc, od, halfField]

theorem half_coef_4_2 : coef halfField (0, 0, 0) 4 2 = ⟨-1 / 2, 1, 0, 0⟩ := by
  norm_num [coef, corner, oa, ob, oc, od, halfField]

theorem half_coef_5_2 : coef halfField (0, 0, 0) 5 2 = ⟨-1 / 2, 1, 0, 0⟩ := by
  norm_num [coef, corner, oa, ob, oc, od, halfField]

theorem half_roots_1 : findRootsFace ⟨-1 / 2, 1, 0, 0⟩ ⟨-1 / 2, 0, 1, -1⟩ = [] := by
  norm_num [findRootsFace, rootsX, rootY, keep]

theorem half_roots_2 : findRootsFace ⟨-1 / 2, 0, 0, 0⟩ ⟨-1 / 2, 1, 0, 0⟩ = [] := by
  norm_num [findRootsFace, rootsX, rootY, keep]

theorem half_roots_3 : findRootsFace ⟨1 / 2, 0, 0, 0⟩ ⟨-1 / 2, 1, 0, 0⟩ = [] := by
  norm_num [findRootsFace, rootsX, rootY, keep]

theorem half_roots_4 : findRootsFace ⟨-1 / 2, 0, 1, 0⟩ ⟨-1 / 2, 0, 0, 0⟩ = [] := by
  norm_num [findRootsFace, rootsX, rootY, keep]

theorem half_roots_5 : findRootsFace ⟨-1 / 2, 0, 1, 0⟩ ⟨1 / 2, 0, 0, 0⟩ = [] := by
  norm_num [findRootsFace, rootsX, rootY, keep]

theorem half_roots_6 : findRootsFace ⟨-1 / 2, 0, 1, -1⟩ ⟨-1 / 2, 0, 0, 0⟩ = [] := by
  norm_num [findRootsFace, rootsX, rootY, keep]

theorem half_roots_7 : findRootsFace ⟨-1 / 2, 0, 1, -1⟩ ⟨1 / 2, 0, 0, 0⟩ = [] := by
  norm_num [findRootsFace, rootsX, rootY, keep]

theorem half_roots_8 : findRootsFace ⟨-1 / 2, 1, 0, 0⟩ ⟨-1 / 2, 0, 1, 0⟩ = [] := by
  norm_num [findRootsFace, rootsX, rootY, keep]

/-- **C84 fails**: the field (x, y, z) - 1/2 vanishes in the middle of the cell of a 2 x 2 x 2 grid, exactly and only
    there, and the cell, a candidate, is not reported: `find_nulls` raises. -/
theorem C84_missed_violated :
    (∀ p q r : ℝ, (∀ d, d < 3 → trilinear halfField 0 0 0 d p q r = 0) ↔ p = 1 / 2 ∧ q = 1 / 2 ∧ r = 1 / 2) ∧
    findNulls halfField 2 2 2 (fun i => i) (fun i => i) (fun i => i) 0 = .error .indexError := by
  constructor
  · intro p q r
    constructor
    · intro h
      have h0 := h 0 (by omega)
      have h1 := h 1 (by omega)
      have h2 := h 2 (by omega)
      simp [trilinear, halfField] at h0 h1 h2
      exact ⟨by linarith, by linarith, by linarith⟩
    · rintro ⟨rfl, rfl, rfl⟩ d hd
      interval_cases d <;> norm_num [trilinear, halfField]
  · have hc : reduceCandidates halfField 2 2 2 (fun i => i) (fun i => i) (fun i => i) 0 = [(0, 0, 0)] := by
      have h := (C53_candidates halfField 2 2 2 (fun i => i) (fun i => i) (fun i => i) 0 0 0 0).2
        ⟨by omega, by omega, by omega, by norm_num, half_changes⟩
      have h0 : ∀ d, d < 3 → differentAt halfField 0 0 0 d = true := fun d hd => (differentAt_iff _ _ _ _ _).2 (half_changes d hd)
      unfold reduceCandidates
      simp only [Nat.reduceSub, List.range_one, List.flatMap_cons, List.flatMap_nil, List.append_nil, List.filterMap_cons,
        List.filterMap_nil, h0 0 (by omega), h0 1 (by omega), h0 2 (by omega)]
      norm_num
    have hn : nullCells halfField [(0, 0, 0)] = [] := by
      have h6 : List.range 6 = [0, 1, 2, 3, 4, 5] := rfl
      have hl : cellLoop halfField (0, 0, 0) permuted false = false := by
        simp only [permuted, cellLoop, tallyFaces, h6, List.foldl_cons, List.foldl_nil, half_coef_0_0, half_coef_1_0, half_coef_2_0, half_coef_3_0, half_coef_4_0, half_coef_5_0, half_coef_0_1, half_coef_1_1, half_coef_2_1, half_coef_3_1, half_coef_4_1, half_coef_5_1, half_coef_0_2, half_coef_1_2, half_coef_2_2, half_coef_3_2, half_coef_4_2, half_coef_5_2, half_roots_1, half_roots_2, half_roots_3, half_roots_4, half_roots_5, half_roots_6, half_roots_7, half_roots_8]
        norm_num [tallyRoot, Coef.eval]
      simp only [nullCells, List.filter_cons, List.filter_nil, hl]
      rfl
    unfold findNulls
    rw [hc]
    simp only [hn]

end Viscid.Props
