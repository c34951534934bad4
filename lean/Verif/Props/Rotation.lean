import Verif.Lemmas.Rotation
/-!
# C43: quaternion and matrix rotations agree
-/
namespace Viscid.Props
open Matrix Viscid.Rotation Viscid.Spec.Rotation

/-- C43: `quat2rot` of a unit quaternion is a proper rotation. -/
theorem C43_orthonormal (q : Quat) (h : IsUnit4 q) : IsRot (quat2rot q) := by
  rw [quat2rot_unit h]; exact rotOf_isRot h

example : IsUnit4 ⟨1 / 2, 1 / 2, -1 / 2, 1 / 2⟩ := by norm_num [IsUnit4]

/-- C43: and so is that of any quaternion whose norm is not within the comparison tolerance of 0 or 1: it is
the rotation of the normalised quaternion. -/
theorem C43_renormalises (q : Quat) (h0 : ¬ isClose q.norm 0) (h1 : ¬ isClose q.norm 1) :
    quat2rot q = quat2rot (q.scale (1 / q.norm)) ∧ IsRot (quat2rot q) := by
  have hn : q.norm ≠ 0 := by
    intro h; apply h0; rw [h]; norm_num [isClose]
  have hu := scale_unit hn
  have e : quat2rot q = quat2rot (q.scale (1 / q.norm)) := by
    rw [quat2rot_unit hu]
    unfold quat2rot renorm
    rw [if_neg (by push Not; exact ⟨h0, h1⟩)]
  exact ⟨e, e ▸ C43_orthonormal _ hu⟩

example : ¬ isClose (Quat.norm ⟨0, 3, 4, 0⟩) 0 ∧ ¬ isClose (Quat.norm ⟨0, 3, 4, 0⟩) 1 := by
  have : Quat.norm ⟨0, 3, 4, 0⟩ = 5 := by
    unfold Quat.norm
    rw [show (0 : ℝ) ^ 2 + 3 ^ 2 + 4 ^ 2 + 0 ^ 2 = 5 ^ 2 by norm_num]
    exact Real.sqrt_sq (by norm_num)
  rw [this]; norm_num [isClose]

/-- C43: `quatmul` is the product of quaternions, in the order of its arguments. -/
theorem C43_quatmul (qs : List Quat) : toH (quatmul qs) = (qs.map toH).prod := by
  have step (a b : Quat) : toH (qmul a b) = toH a * toH b := by
    have m (p q : Quaternion ℝ) : (p * q).re = _ ∧ (p * q).imI = _ ∧ (p * q).imJ = _ ∧ (p * q).imK = _ :=
      ⟨Quaternion.re_mul p q, Quaternion.imI_mul p q, Quaternion.imJ_mul p q, Quaternion.imK_mul p q⟩
    obtain ⟨m0, m1, m2, m3⟩ := m (toH a) (toH b)
    apply Quaternion.ext
    · rw [m0]; simp only [toH, qmul]
    · rw [m1]; simp only [toH, qmul]; ring
    · rw [m2]; simp only [toH, qmul]; ring
    · rw [m3]; simp only [toH, qmul]; ring
  have gen (qs : List Quat) (a : Quat) : toH (qs.foldl qmul a) = toH a * (qs.map toH).prod := by
    induction qs generalizing a with
    | nil => simp
    | cons b l ih => simp only [List.foldl_cons, List.map_cons, List.prod_cons]; rw [ih, step, mul_assoc]
  unfold quatmul
  rw [gen]
  have : toH ⟨1, 0, 0, 0⟩ = 1 := rfl
  rw [this, one_mul]

theorem quatmul_unit (qs : List Quat) (h : ∀ q ∈ qs, IsUnit4 q) :
    IsUnit4 (quatmul qs) ∧ rotOf (quatmul qs) = (qs.map rotOf).prod := by
  have gen (qs : List Quat) (h : ∀ q ∈ qs, IsUnit4 q) (a : Quat) (ha : IsUnit4 a) :
      IsUnit4 (qs.foldl qmul a) ∧ rotOf (qs.foldl qmul a) = rotOf a * (qs.map rotOf).prod := by
    induction qs generalizing a with
    | nil => exact ⟨ha, by simp⟩
    | cons b l ih =>
      have hb := h b (by simp)
      obtain ⟨h1, h2⟩ := ih (fun q hq => h q (by simp [hq])) (qmul a b) (qmul_unit ha hb)
      refine ⟨h1, ?_⟩
      simp only [List.foldl_cons, List.map_cons, List.prod_cons]
      rw [h2, rotOf_mul ha hb, Matrix.mul_assoc]
  have h1 : IsUnit4 ⟨1, 0, 0, 0⟩ := by norm_num [IsUnit4]
  obtain ⟨g1, g2⟩ := gen qs h _ h1
  refine ⟨g1, ?_⟩
  unfold quatmul
  rw [g2]
  have : rotOf ⟨1, 0, 0, 0⟩ = 1 := by
    apply ext9 <;> simp [rotOf]
  rw [this, Matrix.one_mul]

/-- C43: the matrix of a product of unit quaternions is the product of their matrices. -/
theorem C43_homomorphism (qs : List Quat) (h : ∀ q ∈ qs, IsUnit4 q) :
    quat2rot (quatmul qs) = (qs.map quat2rot).prod := by
  obtain ⟨h1, h2⟩ := quatmul_unit qs h
  rw [quat2rot_unit h1, h2]
  congr 1
  exact List.map_congr_left fun q hq => (quat2rot_unit (h q hq)).symm

theorem C43_homomorphism_two (p q : Quat) (hp : IsUnit4 p) (hq : IsUnit4 q) :
    quat2rot (quatmul [p, q]) = quat2rot p * quat2rot q := by
  rw [C43_homomorphism _ (by simp [hp, hq])]; simp

theorem quatRotate_one (v : V3) (q : Quat) (h : IsUnit4 q) : quatRotate v [q] = some (rotOf q *ᵥ v) := by
  have e : quatmul [q] = q := by
    unfold quatmul; ext <;> simp [qmul]
  unfold quatRotate
  rw [e]
  unfold IsUnit4 at h
  simp only [h, one_ne_zero, if_false]
  congr 1
  have hw : q.w ^ 2 = 1 - q.x ^ 2 - q.y ^ 2 - q.z ^ 2 := by linarith
  ext i
  rw [mulVec3]
  match i with
  | 0 => simp [quatmul, qmul, rotOf]; grind
  | 1 => simp [quatmul, qmul, rotOf]; grind
  | 2 => simp [quatmul, qmul, rotOf]; grind

/-- C43: `quat_rotate(v, q1, ..., qn)` applies the product of the matrices. -/
theorem C43_quat_rotate (v : V3) (qs : List Quat) (h : ∀ q ∈ qs, IsUnit4 q) :
    quatRotate v qs = some ((qs.map quat2rot).prod *ᵥ v) := by
  have e : quatRotate v qs = quatRotate v [quatmul qs] := by
    have e : quatmul [quatmul qs] = quatmul qs := by
      generalize quatmul qs = q
      unfold quatmul
      ext <;> simp [qmul]
    conv => rhs; unfold quatRotate
    rw [e]; rfl
  rw [e, ← C43_homomorphism qs h, quatRotate_one _ _ (quatmul_unit qs h).1, quat2rot_unit (quatmul_unit qs h).1]

example : ∀ q ∈ [(⟨3 / 5, 4 / 5, 0, 0⟩ : Quat), ⟨0, 0, 1, 0⟩], IsUnit4 q := by
  simp only [List.mem_cons, List.not_mem_nil, or_false, forall_eq_or_imp, forall_eq, IsUnit4]
  norm_num

/-- C43: `q` and `-q` are the same rotation. -/
theorem C43_neg (q : Quat) : quat2rot q.neg = quat2rot q := by
  have hn : q.neg.norm = q.norm := by simp [Quat.norm, Quat.neg]
  unfold quat2rot renorm
  rw [hn]
  split
  · apply ext9 <;> simp [rotOf, Quat.neg]
  · apply ext9 <;> simp [rotOf, Quat.neg, Quat.scale]

theorem ofEvec_evec {q : Quat} (h : IsUnit4 q) {c : ℝ} (hc : c ≠ 0) :
    ofEvec (fun i => c * evec q i) = q ∨ ofEvec (fun i => c * evec q i) = q.neg := by
  have hn : Quat.norm ⟨c * evec q 3, -(c * evec q 0), -(c * evec q 1), -(c * evec q 2)⟩ = |c| := by
    unfold Quat.norm
    unfold IsUnit4 at h
    rw [← Real.sqrt_sq_eq_abs]
    congr 1
    simp only [evec, Matrix.cons_val]
    linear_combination c ^ 2 * h
  unfold ofEvec
  dsimp only
  rw [hn]
  rcases lt_or_gt_of_ne hc with h | h
  · right
    rw [abs_of_neg h]
    ext <;> simp only [Quat.scale, Quat.neg, evec, Matrix.cons_val] <;> field_simp
  · left
    rw [abs_of_pos h]
    ext <;> simp only [Quat.scale, evec, Matrix.cons_val] <;> field_simp

/-- C43: whatever eigenvectors the solver returns, `rot2quat(quat2rot(q))` is `q` or `-q` (and both can be
returned): the largest eigenvalue is one, and belongs to `q` alone. -/
theorem C43_rot2quat (q q' : Quat) (h : IsUnit4 q) :
    Rot2Quat (quat2rot q) q' ↔ q' = q ∨ q' = q.neg := by
  rw [quat2rot_unit h]
  have top : ∀ mu u', Eig (k3 (rotOf q)) mu u' → mu ≤ 1 := by
    intro mu u' he
    rcases eig_cases h he with e | ⟨e, -⟩ <;> rw [e] <;> norm_num
  constructor
  · rintro ⟨lam, u, he, hmax, rfl⟩
    have h1 := hmax 1 _ (evec_eig h)
    rcases eig_cases h he with e | ⟨-, c, hc, rfl⟩
    · rw [e] at h1; norm_num at h1
    · exact ofEvec_evec h hc
  · have mk (c : ℝ) (hc : c ≠ 0) : Rot2Quat (rotOf q) (ofEvec fun i => c * evec q i) := by
      refine ⟨1, _, ⟨?_, ?_⟩, top, rfl⟩
      · intro e
        apply (evec_eig h).1
        ext i
        have := congrFun e i
        simpa [hc] using this
      · have := (evec_eig h).2
        rw [one_smul] at this ⊢
        rw [show (fun i => c * evec q i) = c • evec q from rfl, Matrix.mulVec_smul, this]
    have n1 : ofEvec (fun i => 1 * evec q i) = q := by
      have hn := qnorm_unit h
      simp [ofEvec, evec, Quat.scale, hn]
    have n2 : ofEvec (fun i => -1 * evec q i) = q.neg := by
      have hn : Quat.norm ⟨-q.w, -q.x, -q.y, -q.z⟩ = 1 := by
        rw [← qnorm_unit h]; simp [Quat.norm]
      simp [ofEvec, evec, Quat.scale, Quat.neg, hn]
    rintro (rfl | rfl)
    · have := mk 1 one_ne_zero
      rwa [n1] at this
    · have := mk (-1) (by norm_num)
      rwa [n2] at this

/-- C43: for every rotation matrix `rot2quat` gives a unit quaternion with that matrix. -/
theorem C43_quat2rot_rot2quat (R : M3) (h : IsRot R) :
    (∃ q, Rot2Quat R q) ∧ ∀ q, Rot2Quat R q → IsUnit4 q ∧ quat2rot q = R := by
  obtain ⟨q, hq, rfl⟩ := exists_quat h
  have e := quat2rot_unit hq
  refine ⟨⟨q, ?_⟩, ?_⟩
  · rw [← e]; exact (C43_rot2quat q q hq).2 (.inl rfl)
  · intro q' h'
    rw [← e] at h' ⊢
    rcases (C43_rot2quat q q' hq).1 h' with rfl | rfl
    · exact ⟨hq, rfl⟩
    · refine ⟨?_, C43_neg q⟩
      unfold IsUnit4 Quat.neg at *
      linarith

example : IsRot !![0, -1, 0; 1, 0, 0; 0, 0, 1] := by
  apply isRot_of_entries <;> simp [Matrix.det_fin_three]

end Viscid.Props
