import Verif.Spec.RotConv
import Verif.Props.AsCotr
import Verif.Props.RotStack
import Verif.Props.AxisAngle
/-! # C212: conversions of stacks of rotations -/
namespace Viscid.Props
open Viscid.RotConv Viscid.RotStack
open Viscid.Rotation (M3 V3 Quat Rot2Quat Rot2Wxyz quickAxis len)
open Viscid.Spec.RotConv
open Viscid.Spec.Rotation (IsRot IsUnit4)

namespace RCv

/-- the word that `check` goes by -/
def word : Option Text → Text
  | none => AsCotr.clean "ignore".toList
  | some [] => AsCotr.clean "ignore".toList
  | some (c :: s) => AsCotr.clean (c :: s)

theorem means_iff (s : Option Text) (w : String) : Means s w ↔ w.toList = word s := by
  unfold Means word
  have hi : AsCotr.clean "ignore".toList = "ignore".toList := by decide +kernel
  match s with
  | none =>
    simp only [true_and, reduceCtorEq, false_and, exists_false, or_false, hi]
    exact String.toList_inj.symm
  | some [] =>
    simp only [reduceCtorEq, false_and, true_and, false_or, hi, Option.some.injEq]
    rw [String.toList_inj]
    exact ⟨fun h => h.elim id fun ⟨t, h1, h2, _⟩ => absurd h1.symm h2, .inl⟩
  | some (c :: t) =>
    simp only [reduceCtorEq, false_and, false_or, Option.some.injEq]
    constructor
    · rintro ⟨u, rfl, _, h⟩
      exact ((AC.clean_iff _ _).2 h).symm
    · intro h
      exact ⟨_, rfl, by simp, (AC.clean_iff _ _).1 h.symm⟩

open Classical in
theorem check_eq (mats : Stk (Matrix (Fin d) (Fin d) ℝ)) (bad : Option Text) : check mats bad =
    if word bad ≠ "ignore".toList then
      if ∀ m ∈ mats.list, closeToOne m.det then ⟨.ok (some true), false⟩
      else if word bad = "raise".toList then ⟨.error .value, false⟩
      else if word bad = "warn".toList then ⟨.ok (some false), true⟩
      else ⟨.ok (some false), false⟩
    else ⟨.ok none, false⟩ := by
  unfold check word
  match bad with
  | none => rfl
  | some [] => rfl
  | some (c :: t) => rfl

theorem det_close {R : M3} (h : IsRot R) : closeToOne R.det := by
  rw [h.2]; unfold closeToOne; norm_num

theorem checked (R : Stk M3) (bad : Option Text) (h : ∀ m ∈ R.list, IsRot m) : ∃ v, (check R bad).result = .ok v := by
  rw [check_eq]
  have : ∀ m ∈ R.list, closeToOne m.det := fun m hm => det_close (h m hm)
  rw [if_pos this]
  split <;> exact ⟨_, rfl⟩

open Classical in
/-- The quaternion of the angle and axis of a unit quaternion. -/
theorem quat_back (q : Quat) (hq : IsUnit4 q) (h : len ![q.x, q.y, q.z] = 0 ∨ 1 / 10 ^ 8 < len ![q.x, q.y, q.z]) :
    Rotation.wxyz2quat (2 * Rotation.arctan2 (len ![q.x, q.y, q.z]) q.w)
      (if Rotation.isClose (len ![q.x, q.y, q.z]) 0 then ![0, 0, 1]
        else ![q.x / len ![q.x, q.y, q.z], q.y / len ![q.x, q.y, q.z], q.z / len ![q.x, q.y, q.z]]) = some q := by
  have hl : len ![q.x, q.y, q.z] ^ 2 = q.x ^ 2 + q.y ^ 2 + q.z ^ 2 := by
    unfold len
    rw [Real.sq_sqrt (by positivity)]
    simp
  have h0 : 0 ≤ len ![q.x, q.y, q.z] := Real.sqrt_nonneg _
  obtain ⟨hc, hs⟩ := Rotation.arctan2_spec (s := len ![q.x, q.y, q.z]) (c := q.w) (by rw [hl]; unfold IsUnit4 at hq; linarith)
  generalize len ![q.x, q.y, q.z] = n at *
  have hh : 2 * Rotation.arctan2 n q.w / 2 = Rotation.arctan2 n q.w := by ring
  rcases h with h | h
  · subst h
    rw [if_pos ((isClose_zero le_rfl).2 (by norm_num))]
    have hlen : len ![0, 0, 1] = 1 := by unfold len; simp
    have hx : q.x = 0 := by nlinarith [sq_nonneg q.x, sq_nonneg q.y, sq_nonneg q.z]
    have hy : q.y = 0 := by nlinarith [sq_nonneg q.x, sq_nonneg q.y, sq_nonneg q.z]
    have hz : q.z = 0 := by nlinarith [sq_nonneg q.x, sq_nonneg q.y, sq_nonneg q.z]
    unfold Rotation.wxyz2quat
    rw [if_neg (by rw [hlen]; exact one_ne_zero), hlen, hh, hc, hs]
    congr 1
    cases q
    simp at hx hy hz ⊢
    exact ⟨hx.symm, hy.symm, hz.symm⟩
  · have hn : n ≠ 0 := by intro e; rw [e] at h; norm_num at h
    rw [if_neg (fun hh => by have := (isClose_zero h0).1 hh; linarith)]
    have hlen : len ![q.x / n, q.y / n, q.z / n] = 1 := by
      unfold len
      rw [Real.sqrt_eq_one]
      simp only [Matrix.cons_val]
      field_simp
      linarith
    unfold Rotation.wxyz2quat
    rw [if_neg (by rw [hlen]; exact one_ne_zero), hlen, hh, hc, hs]
    congr 1
    cases q
    simp only [Matrix.cons_val, div_one]
    congr 1 <;> field_simp

theorem scaled_unit (q : Quat) (m : ℝ) (hm : q.norm = m) (h0 : m ≠ 0) : IsUnit4 (q.scale (1 / m)) := by
  have : m ^ 2 = q.w ^ 2 + q.x ^ 2 + q.y ^ 2 + q.z ^ 2 := by
    rw [← hm]; unfold Rotation.Quat.norm; rw [Real.sq_sqrt (by positivity)]
  unfold IsUnit4 Rotation.Quat.scale
  field_simp
  linarith

theorem quat2wxyz_back (q : Quat) (m : ℝ) (hm : q.norm = m) (h0 : m ≠ 0)
    (h : len ![q.x / m, q.y / m, q.z / m] = 0 ∨ 1 / 10 ^ 8 < len ![q.x / m, q.y / m, q.z / m]) :
    ∃ p, Rotation.quat2wxyz q = some p ∧ Rotation.wxyz2quat p.1 p.2 = some (q.scale (1 / m)) := by
  unfold Rotation.quat2wxyz
  rw [hm, if_neg h0]
  refine ⟨_, rfl, ?_⟩
  have hv : ![(q.scale (1 / m)).x, (q.scale (1 / m)).y, (q.scale (1 / m)).z] = ![q.x / m, q.y / m, q.z / m] := by
    simp [Rotation.Quat.scale, div_eq_mul_inv]
  have := quat_back (q.scale (1 / m)) (scaled_unit q m hm h0) (by rw [hv]; exact h)
  exact this

end RCv

/-- C212: `check_orthonormality` looks at every matrix: it says whether all determinants are one (up to the last digits), and raises
ValueError or prints a message, as the user wants, if not; if the user wants it to be ignored, nothing is looked at. -/
theorem C212_check (mats : Stk (Matrix (Fin d) (Fin d) ℝ)) (bad : Option Text) :
    (Means bad "ignore" → (check mats bad).result = .ok none ∧ (check mats bad).printed = false) ∧
    (¬ Means bad "ignore" → ((check mats bad).result = .ok (some true) ↔ ∀ m ∈ mats.list, |m.det - 1| ≤ 12 / 10 ^ 16)) ∧
    ((check mats bad).result = .error .value ↔ Means bad "raise" ∧ ∃ m ∈ mats.list, ¬ |m.det - 1| ≤ 12 / 10 ^ 16) ∧
    ((check mats bad).printed = true ↔ Means bad "warn" ∧ ∃ m ∈ mats.list, ¬ |m.det - 1| ≤ 12 / 10 ^ 16) := by
  have hc : ∀ x : ℝ, closeToOne x ↔ |x - 1| ≤ 12 / 10 ^ 16 := by
    intro x; unfold closeToOne; rw [abs_one]; norm_num
  simp only [RCv.means_iff, RCv.check_eq, hc]
  by_cases h1 : RCv.word bad = "ignore".toList
  · simp [h1]
  · rw [if_pos h1]
    refine ⟨fun h => absurd h.symm h1, fun _ => ?_, ?_, ?_⟩
    · split
      · rename_i h; simpa using h
      · rename_i h; simp only [h, iff_false]; split <;> [simp; split <;> simp]
    · split
      · rename_i h; simpa using fun _ => h
      · rename_i h
        push Not at h ⊢
        by_cases h2 : RCv.word bad = "raise".toList
        · rw [if_pos h2]; exact ⟨fun _ => ⟨h2.symm, h⟩, fun _ => rfl⟩
        · rw [if_neg h2]
          refine ⟨fun hh => ?_, fun hh => absurd hh.1.symm h2⟩
          split at hh <;> simp at hh
    · split
      · rename_i h; simpa using fun _ => h
      · rename_i h
        push Not at h ⊢
        by_cases h2 : RCv.word bad = "raise".toList
        · rw [if_pos h2]
          refine ⟨fun hh => by simp at hh, fun hh => ?_⟩
          rw [h2] at hh; exact absurd hh.1 (by decide)
        · rw [if_neg h2]
          by_cases h3 : RCv.word bad = "warn".toList
          · rw [if_pos h3]; exact ⟨fun _ => ⟨h3.symm, h⟩, fun _ => rfl⟩
          · rw [if_neg h3]; exact ⟨fun hh => by simp at hh, fun hh => absurd hh.1.symm h3⟩

/-- C212: rotation matrices always pass. -/
theorem C212_check_rotations (R : Stk M3) (bad : Option Text) (h : ∀ m ∈ R.list, IsRot m) (hb : ¬ Means bad "ignore") :
    (check R bad).result = .ok (some true) := by
  refine ((C212_check R bad).2.1 hb).2 fun m hm => ?_
  rw [(h m hm).2]; norm_num

/-- C212 is false: matrices that are not orthonormal pass: every shear does. -/
theorem C212_orthonormal_violated (t : ℝ) (ht : t ≠ 0) (bad : Option Text) (hb : ¬ Means bad "ignore") :
    ¬ Orthonormal (!![1, t, 0; 0, 1, 0; 0, 0, 1] : M3) ∧ (check (.one (!![1, t, 0; 0, 1, 0; 0, 0, 1] : M3)) bad).result = .ok (some true) := by
  constructor
  · intro h
    have := congrFun (congrFun h 0) 1
    simp [Matrix.mul_apply, Fin.sum_univ_three] at this
    exact ht this
  · refine ((C212_check _ bad).2.1 hb).2 fun m hm => ?_
    simp only [Stk.list, List.mem_singleton] at hm
    subst hm
    rw [Matrix.det_fin_three]
    simp
    norm_num

/-- C212 is false: a word that means nothing is not refused: bad matrices then go through without a message. -/
theorem C212_word_violated (mats : Stk (Matrix (Fin d) (Fin d) ℝ)) (bad : Option Text)
    (h1 : ¬ Means bad "ignore") (h2 : ¬ Means bad "raise") (h3 : ¬ Means bad "warn") (hm : ∃ m ∈ mats.list, ¬ |m.det - 1| ≤ 12 / 10 ^ 16) :
    (check mats bad).result = .ok (some false) ∧ (check mats bad).printed = false := by
  have hc : ¬ ∀ m ∈ mats.list, closeToOne m.det := by
    obtain ⟨m, h, h'⟩ := hm
    intro hh
    have := hh m h
    unfold closeToOne at this
    rw [abs_one] at this
    exact h' (by norm_num at this ⊢; exact this)
  simp only [RCv.means_iff] at h1 h2 h3
  rw [RCv.check_eq, if_pos (fun e => h1 e.symm), if_neg hc, if_neg (fun e => h2 e.symm), if_neg (fun e => h3 e.symm)]
  exact ⟨rfl, rfl⟩

/-- C212: with `bad_matrix='raise'` a stack with a matrix whose determinant is not one is refused, by `rot2wxyz` and `rot2axang`,
and nothing else is. -/
theorem C212_refused (quick : Bool) (R : Stk M3) (bad : Option Text) (h : Means bad "raise") (hm : ∃ m ∈ R.list, ¬ |m.det - 1| ≤ 12 / 10 ^ 16) :
    (∀ r, Rot2Wxyzs quick bad R r ↔ r = .error .value) ∧ (∀ r, Rot2Axangs quick bad R r ↔ r = .error .value) := by
  have hc := (C212_check R bad).2.2.1.2 ⟨h, hm⟩
  have h1 : ∀ r, Rot2Wxyzs quick bad R r ↔ r = .error .value := by
    intro r; unfold Rot2Wxyzs; rw [hc]
  refine ⟨h1, fun r => ⟨?_, ?_⟩⟩
  · rintro ⟨w, hw, rfl⟩
    rw [(h1 w).1 hw]; rfl
  · rintro rfl
    exact ⟨_, (h1 _).2 rfl, rfl⟩

/-- C212: otherwise nothing is refused -/
theorem C212_not_refused (quick : Bool) (R : Stk M3) (bad : Option Text) (h : ¬ Means bad "raise" ∨ ∀ m ∈ R.list, |m.det - 1| ≤ 12 / 10 ^ 16)
    (r : Except RotStack.Err (Stk (V3 × ℝ))) (hr : Rot2Axangs quick bad R r) : ∃ s, r = .ok s := by
  obtain ⟨w, hw, rfl⟩ := hr
  unfold Rot2Wxyzs at hw
  cases hc : (check R bad).result with
  | error e =>
    cases e
    have hv := (C212_check R bad).2.2.1.1 hc
    rcases h with h | h
    · exact absurd hv.1 h
    · obtain ⟨m, h1, h2⟩ := hv.2
      exact absurd (h m h1) h2
  | ok v =>
    rw [hc] at hw
    cases R with
    | one m => obtain ⟨p, _, rfl⟩ := hw; exact ⟨_, rfl⟩
    | many l => obtain ⟨p, _, rfl⟩ := hw; exact ⟨_, rfl⟩

/-- a reflection is refused -/
example : ∃ m ∈ (Stk.one (!![-1, 0, 0; 0, 1, 0; 0, 0, 1] : M3)).list, ¬ |m.det - 1| ≤ 12 / 10 ^ 16 := by
  refine ⟨_, List.mem_singleton.2 rfl, ?_⟩
  rw [Matrix.det_fin_three]
  simp
  norm_num

/-- C212: `dcm2quat` of a direction cosine matrix, or of each of a stack, is a unit quaternion of which it is the direction cosine matrix,
whatever eigenvectors are found, and there is always one. -/
theorem C212_dcm2quat (R : Stk M3) (h : ∀ m ∈ R.list, IsRot m) :
    (∃ q, Dcm2Quats R q) ∧ ∀ q, Dcm2Quats R q → Each (fun m q => IsUnit4 q ∧ Rotation.quat2dcm q = m) R q := by
  have hT : ∀ m : M3, IsRot m → IsRot m.transpose := by
    intro m hm
    refine ⟨?_, by rw [Matrix.det_transpose]; exact hm.2⟩
    rw [Matrix.transpose_transpose]
    exact mul_eq_one_comm.1 hm.1
  have one : ∀ m : M3, IsRot m → (∃ q, Rot2Quat m.transpose q) ∧
      ∀ q, Rot2Quat m.transpose q → IsUnit4 q ∧ Rotation.quat2dcm q = m := by
    intro m hm
    obtain ⟨h1, h2⟩ := C43_quat2rot_rot2quat m.transpose (hT m hm)
    refine ⟨h1, fun q hq => ⟨(h2 q hq).1, ?_⟩⟩
    unfold Rotation.quat2dcm
    rw [(h2 q hq).2, Matrix.transpose_transpose]
  cases R with
  | one m =>
    have hm := one m (h m (by simp [Stk.list]))
    obtain ⟨⟨q, hq⟩, h2⟩ := hm
    refine ⟨⟨.one q, hq⟩, fun q' hq' => ?_⟩
    cases q' with
    | one x => exact h2 x hq'
    | many l => exact hq'.elim
  | many l =>
    have hl : ∀ m ∈ l, IsRot m := h
    refine ⟨?_, ?_⟩
    · suffices ∃ qs, List.Forall₂ Rot2Quat (l.map Matrix.transpose) qs by
        obtain ⟨qs, h⟩ := this; exact ⟨.many qs, h⟩
      clear h
      induction l with
      | nil => exact ⟨[], .nil⟩
      | cons m l ih =>
        obtain ⟨qs, hqs⟩ := ih (fun m hm => hl m (by simp [hm]))
        obtain ⟨⟨q, hq⟩, _⟩ := one m (hl m (by simp))
        exact ⟨q :: qs, .cons hq hqs⟩
    · intro q hq
      cases q with
      | one x => exact hq.elim
      | many qs =>
        have hq : List.Forall₂ Rot2Quat (l.map Matrix.transpose) qs := hq
        show List.Forall₂ _ l qs
        clear h
        induction l generalizing qs with
        | nil => cases hq; exact .nil
        | cons m l ih =>
          cases hq with
          | cons a b => exact .cons ((one m (hl m (by simp))).2 _ a) (ih (fun m hm => hl m (by simp [hm])) _ b b)

/-- C212: `axang2rot` of `rot2axang` gives the rotations back, one or a stack of them, whatever eigenvectors are found, with the quick method
(rotations by tiny angles or almost half turns excepted). -/
theorem C212_rot2axang_partial (R : Stk M3) (bad : Option Text) (h : ∀ m ∈ R.list, IsRot m ∧ (len (quickAxis m) = 0 ∨ 1 / 10 ^ 8 < len (quickAxis m)))
    (r : Except RotStack.Err (Stk (V3 × ℝ))) (hr : Rot2Axangs true bad R r) :
    ∃ s t, r = .ok s ∧ axang2rot s = .ok t ∧ Each (fun m x => x = some m) R t ∧
      Each (fun (_ : M3) x => 0 ≤ x.2 ∧ x.2 ≤ Real.pi ∧ len x.1 = 1) R s := by
  obtain ⟨w, hw, rfl⟩ := hr
  obtain ⟨v, hv⟩ := RCv.checked R bad fun m hm => (h m hm).1
  unfold Rot2Wxyzs at hw
  rw [hv] at hw
  cases R with
  | one m =>
    obtain ⟨p, hp, rfl⟩ := hw
    have hm := h m (by simp [Stk.list])
    obtain ⟨a, b, c, d⟩ := C69_rot2wxyz m hm.1 hm.2 p hp
    refine ⟨_, _, rfl, (C201_axang [] (p.2, p.1)).1, d, a, b, c⟩
  | many l =>
    obtain ⟨ps, hp, rfl⟩ := hw
    have hl : ∀ m ∈ l, IsRot m ∧ (len (quickAxis m) = 0 ∨ 1 / 10 ^ 8 < len (quickAxis m)) := h
    refine ⟨_, _, rfl, (C201_axang (ps.map fun p : ℝ × V3 => (p.2, p.1)) (0, 0)).2.2.1, ?_, ?_⟩
    · show List.Forall₂ _ l _
      clear h hv
      induction hp with
      | nil => exact .nil
      | @cons m p l ps a b ih =>
        have hm := hl m (by simp)
        exact .cons (C69_rot2wxyz m hm.1 hm.2 p a).2.2.2 (ih fun m hm => hl m (by simp [hm]))
    · show List.Forall₂ _ l _
      clear h hv
      induction hp with
      | nil => exact .nil
      | @cons m p l ps a b ih =>
        have hm := hl m (by simp)
        obtain ⟨a, b, c, d⟩ := C69_rot2wxyz m hm.1 hm.2 p a
        exact .cons ⟨a, b, c⟩ (ih fun m hm => hl m (by simp [hm]))

/-- C212: `axang2quat` of `quat2axang` gives quaternions back, normalised, one or a stack of them of the same norm (rotations by tiny angles
excepted). -/
theorem C212_quat2axang_partial (q : Stk Quat) (m : ℝ) (hm : m ≠ 0) (hne : q.list ≠ [])
    (h : ∀ p ∈ q.list, p.norm = m ∧ (len ![p.x / m, p.y / m, p.z / m] = 0 ∨ 1 / 10 ^ 8 < len ![p.x / m, p.y / m, p.z / m])) :
    ∃ s s' t, quat2axang q = .ok s ∧ Each (fun o x => o = some x) s s' ∧ axang2quat s' = .ok t ∧
      Each (fun (p : Quat) x => x = some ⟨p.w / m, p.x / m, p.y / m, p.z / m⟩) q t := by
  have hsc : ∀ p : Quat, p.scale (1 / m) = ⟨p.w / m, p.x / m, p.y / m, p.z / m⟩ := by
    intro p; simp [Rotation.Quat.scale, div_eq_mul_inv]
  obtain ⟨r, h1, h2, h3⟩ := C201_quat2wxyz_partial q m hne fun p hp => (h p hp).1
  unfold quat2axang
  rw [h1]
  cases q with
  | one p =>
    obtain ⟨x, rfl⟩ := h2.2 ⟨p, rfl⟩
    simp only [Stk.list, List.map_cons, List.map_nil, List.cons.injEq, and_true] at h3
    have hp := h p (by simp [Stk.list])
    obtain ⟨y, e1, e2⟩ := RCv.quat2wxyz_back p m hp.1 hm hp.2
    rw [hsc] at e2
    subst h3
    refine ⟨_, .one (y.2, y.1), _, rfl, ?_, (C201_axang [] (y.2, y.1)).2.1, e2⟩
    show Option.map _ _ = _
    rw [e1]; rfl
  | many l =>
    cases r with
    | one x => obtain ⟨y, hy⟩ := h2.1 ⟨x, rfl⟩; cases hy
    | many l' =>
      simp only [Stk.list] at h3
      subst h3
      have hl : ∀ p ∈ l, p.norm = m ∧ (len ![p.x / m, p.y / m, p.z / m] = 0 ∨ 1 / 10 ^ 8 < len ![p.x / m, p.y / m, p.z / m]) := h
      have : ∃ ys : List (ℝ × V3), List.Forall₂ (fun p y => Rotation.quat2wxyz p = some y ∧
          Rotation.wxyz2quat y.1 y.2 = some ⟨p.w / m, p.x / m, p.y / m, p.z / m⟩) l ys := by
        clear h h1 h2 hne
        induction l with
        | nil => exact ⟨[], .nil⟩
        | cons p l ih =>
          obtain ⟨ys, hys⟩ := ih fun p hp => hl p (by simp [hp])
          have hp := hl p (by simp)
          obtain ⟨y, e⟩ := RCv.quat2wxyz_back p m hp.1 hm hp.2
          rw [hsc] at e
          exact ⟨y :: ys, .cons e hys⟩
      obtain ⟨ys, hys⟩ := this
      refine ⟨_, .many (ys.map fun y => (y.2, y.1)), _, rfl, ?_, (C201_axang (ys.map fun p : ℝ × V3 => (p.2, p.1)) (0, 0)).2.2.2, ?_⟩
      · show List.Forall₂ _ _ _
        clear h h1 h2 hne hl
        induction hys with
        | nil => exact .nil
        | cons a b ih => exact .cons (by simp [a.1]) ih
      · show List.Forall₂ _ _ _
        clear h h1 h2 hne hl
        induction hys with
        | nil => exact .nil
        | cons a b ih => exact .cons a.2 ih

/-! ### Cases -/

example : ¬ Means (some " Warn".toList) "ignore" ∧ Means (some " Warn".toList) "warn" ∧ Means none "ignore" := by
  simp only [RCv.means_iff]; decide +kernel

example : ¬ Means (some "error".toList) "ignore" ∧ ¬ Means (some "error".toList) "raise" ∧ ¬ Means (some "error".toList) "warn" := by
  simp only [RCv.means_iff]; decide +kernel

/-- a quarter turn: `C212_quat2axang_partial` with a quaternion of norm 5 -/
example : (⟨3, 4, 0, 0⟩ : Quat).norm = 5 ∧ 1 / 10 ^ 8 < len ![(4 : ℝ) / 5, 0 / 5, 0 / 5] := by
  constructor
  · unfold Rotation.Quat.norm
    rw [show (3 : ℝ) ^ 2 + 4 ^ 2 + 0 ^ 2 + 0 ^ 2 = 5 ^ 2 by norm_num]
    exact Real.sqrt_sq (by norm_num)
  · unfold len
    apply Real.lt_sqrt_of_sq_lt
    simp
    norm_num

end Viscid.Props
