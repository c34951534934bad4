import Verif.Model.ManyVecs
import Verif.Spec.ManyVecs
import Verif.Props.Cotr
/-!
# C233, C234: many vectors at once, and the dipole moment from its angles
-/
namespace Viscid.Props
open Matrix Viscid.Rotation Viscid.Spec.Rotation Viscid.Cotr Viscid.ManyVecs Viscid.Spec.ManyVecs

namespace MV

theorem bind_ok {α β : Type} {act : Act α} {f : α → Act β} {σ σ' : St} {a : α} (h : act σ = (.ok a, σ')) :
    (act >>= f) σ = f a σ' := by
  show (match act σ with | (.ok a, σ') => f a σ' | (.error e, σ') => (.error e, σ')) = _
  rw [h]

theorem bind_error {α β : Type} {act : Act α} {f : α → Act β} {σ σ' : St} {e : Cotr.Err} (h : act σ = (.error e, σ')) :
    (act >>= f) σ = (.error e, σ') := by
  show (match act σ with | (.ok a, σ') => f a σ' | (.error e, σ') => (.error e, σ')) = _
  rw [h]

theorem rotated_tri {p : Params} {a b : Sys} {m n : Nat} {x y z : List ℝ} {σ : St} (h : Inv p σ) :
    (∃ M, (∀ v, transformR p a b v = .ok (M *ᵥ v)) ∧ ∃ σ', rotated p a b m n [x, y, z] σ = (.ok
      [(List.range n).map fun j => M 0 0 * x.getD j 0 + M 0 1 * y.getD j 0 + M 0 2 * z.getD j 0,
       (List.range n).map fun j => M 1 0 * x.getD j 0 + M 1 1 * y.getD j 0 + M 1 2 * z.getD j 0,
       (List.range n).map fun j => M 2 0 * x.getD j 0 + M 2 1 * y.getD j 0 + M 2 2 * z.getD j 0], σ')) ∨
    (∃ e, (∀ v, transformR p a b v = .error e) ∧ ∃ σ', rotated p a b m n [x, y, z] σ = (.error e, σ')) := by
  unfold rotated transformR
  by_cases h1 : a ∈ heliocentric ∧ b ∈ geocentric
  · right; refine ⟨.notImplemented, fun v => by rw [if_pos h1], σ, by rw [if_pos h1]; rfl⟩
  by_cases h2 : a ∈ geocentric ∧ b ∈ heliocentric
  · right; refine ⟨.notImplemented, fun v => by rw [if_neg h1, if_pos h2], σ, by rw [if_neg h1, if_pos h2]; rfl⟩
  simp only [if_neg h1, if_neg h2]
  have ht := (transformMatrix_tri p a b σ h).1
  cases hm : matR p a b with
  | error e =>
    right
    rcases hx : transformMatrix p a b σ with ⟨r, σ'⟩
    rw [hx, hm] at ht; simp only at ht; subst ht
    exact ⟨e, fun v => rfl, σ', bind_error hx⟩
  | ok M =>
    left
    rcases hx : transformMatrix p a b σ with ⟨r, σ'⟩
    rw [hx, hm] at ht; simp only at ht; subst ht
    refine ⟨M, fun v => rfl, σ', ?_⟩
    rw [bind_ok hx]
    have ht : ∀ u v w : List ℝ, [u, v, w].take (max m 3) = [u, v, w] := fun u v w => List.take_of_length_le (by simp)
    show (Except.ok (List.take (max m 3) [_, _, _]), σ') = _
    rw [ht]

theorem pad3 {β : Type} (fill : ℝ → β) (x y z : β) : pad fill [x, y, z] = .ok [x, y, z] := rfl

/-- what the transformation of an array with three rows is -/
theorem many3 (p : Params) (a b : Sys) (n : Nat) (x y z : List ℝ) {σ : St} (h : Inv p σ) :
    (∃ M, (∀ v, transformR p a b v = .ok (M *ᵥ v)) ∧ (transformArr p a b (.many n [x, y, z]) σ).1 = .ok (.many n
      [(List.range n).map fun j => M 0 0 * x.getD j 0 + M 0 1 * y.getD j 0 + M 0 2 * z.getD j 0,
       (List.range n).map fun j => M 1 0 * x.getD j 0 + M 1 1 * y.getD j 0 + M 1 2 * z.getD j 0,
       (List.range n).map fun j => M 2 0 * x.getD j 0 + M 2 1 * y.getD j 0 + M 2 2 * z.getD j 0])) ∨
    (∃ e, (∀ v, transformR p a b v = .error e) ∧ (transformArr p a b (.many n [x, y, z]) σ).1 = .error e) := by
  rcases rotated_tri (p := p) (a := a) (b := b) (m := 3) (n := n) (x := x) (y := y) (z := z) h with
    ⟨M, hM, σ', e⟩ | ⟨e, he, σ', hr⟩
  · refine .inl ⟨M, hM, ?_⟩
    simp only [transformArr, pad3]
    rw [bind_ok (by exact e)]; rfl
  · refine .inr ⟨e, he, ?_⟩
    simp only [transformArr, pad3]
    rw [bind_error (by exact hr)]

theorem one3 (p : Params) (a b : Sys) (m : Nat) (x y z : ℝ) {σ : St} (h : Inv p σ) :
    (∃ M, (∀ v, transformR p a b v = .ok (M *ᵥ v)) ∧ ∃ σ', rotated p a b m 1 [[x], [y], [z]] σ = (.ok
      [[(M *ᵥ ![x, y, z]) 0], [(M *ᵥ ![x, y, z]) 1], [(M *ᵥ ![x, y, z]) 2]], σ')) ∨
    (∃ e, (∀ v, transformR p a b v = .error e) ∧ ∃ σ', rotated p a b m 1 [[x], [y], [z]] σ = (.error e, σ')) := by
  rcases rotated_tri (p := p) (a := a) (b := b) (m := m) (n := 1) (x := [x]) (y := [y]) (z := [z]) h with
    ⟨M, hM, σ', e⟩ | ⟨e, he, σ', hr⟩
  · refine .inl ⟨M, hM, σ', ?_⟩
    rw [e]
    simp [mulVec3]
  · exact .inr ⟨e, he, σ', hr⟩

/-- vectors with at most three components, padded with zeros -/
theorem oneR (p : Params) (a b : Sys) (v : List ℝ) (x y z : ℝ) (hv : pad id v = .ok [x, y, z]) {σ : St} (h : Inv p σ) :
    (transformArr p a b (.one v) σ).1 = match transformR p a b ![x, y, z] with
      | .ok w => .ok (.one [w 0, w 1, w 2])
      | .error e => .error e := by
  rcases one3 p a b v.length x y z h with ⟨M, hM, σ', e⟩ | ⟨e, he, σ', hr⟩
  · rw [hM]
    simp only [transformArr, hv]
    rw [bind_ok (by exact e)]; rfl
  · rw [he]
    simp only [transformArr, hv]
    rw [bind_error (by exact hr)]

theorem long (M : M3) (n : Nat) (w : List (List ℝ)) (hw : 3 < w.length) : ManyVecs.dot M n w = .error .valueError := by
  match w, hw with
  | _ :: _ :: _ :: _ :: _, _ => rfl

theorem rotated_long (p : Params) (a b : Sys) (m n : Nat) (w : List (List ℝ)) (hw : 3 < w.length) (σ : St) :
    ∃ e σ', rotated p a b m n w σ = (.error e, σ') := by
  unfold rotated
  split
  · exact ⟨_, _, rfl⟩
  split
  · exact ⟨_, _, rfl⟩
  rcases hx : transformMatrix p a b σ with ⟨r, σ'⟩
  cases r with
  | error e => exact ⟨e, σ', bind_error hx⟩
  | ok M =>
    refine ⟨.valueError, σ', ?_⟩
    rw [bind_ok hx, long M n w hw]; rfl

theorem pad_long {β : Type} (fill : ℝ → β) (v : List β) (hv : 3 < v.length) : pad fill v = .ok v := by
  unfold pad Mats.asNvec
  rw [if_neg (by omega)]

end MV

/-- C233: an array with three rows, each of `n` numbers, is `n` vectors, one in each column: the result is again `n` columns, and each
is what the vector alone is transformed to, whatever was asked of the object before. -/
theorem C233_each (p : Params) (h h' : List Call) (a b : Sys) (n : Nat) (x y z : List ℝ)
    (hx : x.length = n) (hy : y.length = n) (hz : z.length = n) (r : Arr)
    (hr : (transformArr p a b (.many n [x, y, z]) (after p h)).1 = .ok r) :
    ∃ x' y' z', r = .many n [x', y', z'] ∧ x'.length = n ∧ y'.length = n ∧ z'.length = n ∧
      ∀ j < n, ∃ v w, Column x y z j v ∧ (transform p a b v (after p h')).1 = .ok w ∧ Column x' y' z' j w := by
  rcases MV.many3 p a b n x y z (after_inv p h) with ⟨M, hM, e⟩ | ⟨e, -, e'⟩
  · rw [e] at hr
    cases hr
    refine ⟨_, _, _, rfl, by simp, by simp, by simp, fun j hj => ?_⟩
    obtain ⟨v, hv⟩ : ∃ v, Column x y z j v := ⟨![x[j], y[j], z[j]], by simp [Column, hx, hy, hz, hj]⟩
    refine ⟨v, M *ᵥ v, hv, ?_, ?_⟩
    · rw [(transform_tri p _ _ _ _ (after_inv p _)).1, hM]
    · obtain ⟨h0, h1, h2⟩ := hv
      simp only [Column, List.getElem?_map, List.getElem?_range hj, Option.map_some, List.getD_eq_getElem?_getD, h0, h1, h2,
        Option.getD_some, mulVec3, and_self]
  · rw [e'] at hr; cases hr

/-- C233: an array is refused, with the same exception, exactly when each vector is. -/
theorem C233_refused (p : Params) (h h' : List Call) (a b : Sys) (n : Nat) (x y z : List ℝ) (v : V3) (e : Cotr.Err) :
    (transformArr p a b (.many n [x, y, z]) (after p h)).1 = .error e ↔ (transform p a b v (after p h')).1 = .error e := by
  rw [(transform_tri p _ _ _ _ (after_inv p _)).1]
  rcases MV.many3 p a b n x y z (after_inv p h) with ⟨M, hM, e1⟩ | ⟨e1, h1, e2⟩
  · rw [e1, hM]; simp
  · rw [e2, h1]; simp

/-- C233: one vector as a sequence of three numbers. -/
theorem C233_one (p : Params) (h h' : List Call) (a b : Sys) (v w : V3) (hw : (transform p a b v (after p h')).1 = .ok w) :
    (transformArr p a b (.one [v 0, v 1, v 2]) (after p h)).1 = .ok (.one [w 0, w 1, w 2]) := by
  rw [MV.oneR p a b _ _ _ _ (MV.pad3 _ _ _ _) (after_inv p h)]
  rw [(transform_tri p _ _ _ _ (after_inv p _)).1] at hw
  have : (![v 0, v 1, v 2] : V3) = v := by apply ext3 <;> rfl
  rw [this, hw]

/-- C233: missing components are zero, and the result has all three. -/
theorem C233_short (p : Params) (h h' : List Call) (a b : Sys) (x y : ℝ) :
    (∀ w, (transform p a b ![x, y, 0] (after p h')).1 = .ok w →
      (transformArr p a b (.one [x, y]) (after p h)).1 = .ok (.one [w 0, w 1, w 2])) ∧
    (∀ w, (transform p a b ![x, 0, 0] (after p h')).1 = .ok w →
      (transformArr p a b (.one [x]) (after p h)).1 = .ok (.one [w 0, w 1, w 2])) := by
  constructor
  · intro w hw
    rw [MV.oneR p a b [x, y] x y 0 rfl (after_inv p h)]
    rw [(transform_tri p _ _ _ _ (after_inv p _)).1] at hw
    rw [hw]
  · intro w hw
    rw [MV.oneR p a b [x] x 0 0 rfl (after_inv p h)]
    rw [(transform_tri p _ _ _ _ (after_inv p _)).1] at hw
    rw [hw]

/-- C233: even a sequence of nothing is the zero vector. -/
theorem C233_empty (p : Params) (h h' : List Call) (a b : Sys) (w : V3) (hw : (transform p a b ![0, 0, 0] (after p h')).1 = .ok w) :
    (transformArr p a b (.one []) (after p h)).1 = .ok (.one [w 0, w 1, w 2]) := by
  rw [MV.oneR p a b [] 0 0 0 rfl (after_inv p h)]
  rw [(transform_tri p _ _ _ _ (after_inv p _)).1] at hw
  rw [hw]

/-- C233: vectors and arrays with more than three components, or rows, are refused. -/
theorem C233_long (p : Params) (h : List Call) (a b : Sys) :
    (∀ v : List ℝ, 3 < v.length → ∃ e, (transformArr p a b (.one v) (after p h)).1 = .error e) ∧
    (∀ n (rows : List (List ℝ)), 3 < rows.length → ∃ e, (transformArr p a b (.many n rows) (after p h)).1 = .error e) := by
  constructor
  · intro v hv
    obtain ⟨e, σ', h'⟩ := MV.rotated_long p a b v.length 1 (v.map fun x => [x]) (by simpa using hv) (after p h)
    refine ⟨e, ?_⟩
    simp only [transformArr, MV.pad_long id v hv]
    rw [MV.bind_error (by exact h')]
  · intro n rows hv
    obtain ⟨e, σ', h'⟩ := MV.rotated_long p a b rows.length n rows hv (after p h)
    refine ⟨e, ?_⟩
    simp only [transformArr, MV.pad_long _ rows hv]
    rw [MV.bind_error (by exact h')]

/-- C233 is violated by `cotr_transform`, whose documentation asks for arrays with shape `(N, 3)`, a vector in each row: four or more
such vectors are always refused, between all systems and at all times. -/
theorem C233_rows_violated (days : ℝ) (nt : Bool) (a b : Sys) (rows : List (List ℝ)) (h : 4 ≤ rows.length) :
    ∃ e, cotrTransform days a b (.many 3 rows) nt = .error e :=
  (C233_long { days := days, notilt1967 := nt } [] a b).2 3 rows h

/-- C233 is violated by `cotr_transform` for three vectors in rows, too: from gse to mhd the first row of the result is not the first
vector transformed, as soon as its z component is not zero, at all times. -/
theorem C233_three_violated (days : ℝ) (nt : Bool) (u v w u' : V3) (hu : u 2 ≠ 0)
    (he : cotrTransform days .gse .mhd (.one [u 0, u 1, u 2]) nt = .ok (.one [u' 0, u' 1, u' 2])) :
    ∃ r0 r1 r2, cotrTransform days .gse .mhd (.many 3 [[u 0, u 1, u 2], [v 0, v 1, v 2], [w 0, w 1, w 2]]) nt
        = .ok (.many 3 [r0, r1, r2]) ∧ ¬ Spec.ManyVecs.Row r0 u' := by
  unfold cotrTransform at *
  set p : Params := { days := days, notilt1967 := nt } with hp
  dsimp only at he ⊢
  rw [MV.oneR p _ _ _ _ _ _ (MV.pad3 _ _ _ _) (init_inv p)] at he
  have hu3 : (![u 0, u 1, u 2] : V3) = u := by apply ext3 <;> rfl
  have hF : F p .mhd * (F p .gse)ᵀ = B6 := by
    unfold F; rw [Matrix.mul_assoc, (B2_isRot p).1, Matrix.mul_one]
  have ht : ∀ v, transformR p .gse .mhd v = .ok (B6 *ᵥ v) := fun v => by
    rw [transformR_ok p (by simp [geocentric]) (by simp [geocentric]) (by simp [magBlocked]), hF]
  rw [hu3, ht] at he
  rcases MV.many3 p .gse .mhd 3 [u 0, u 1, u 2] [v 0, v 1, v 2] [w 0, w 1, w 2] (init_inv p) with ⟨M, hM, e⟩ | ⟨e, h1, -⟩
  · have hM' : M = B6 := by
      have : ∀ v, M *ᵥ v = B6 *ᵥ v := fun v => by
        have := (hM v).symm.trans (ht v); simpa using this
      ext i j
      have := congrFun (this (Pi.single j 1)) i
      simpa using this
    subst hM'
    refine ⟨_, _, _, e, ?_⟩
    simp only [Except.ok.injEq, Arr.one.injEq, List.cons.injEq, and_true] at he
    intro hr
    simp only [Spec.ManyVecs.Row, List.range, List.range.loop, List.map_cons, List.map_nil, List.cons.injEq, and_true] at hr
    have h2 := hr.2.2
    rw [← he.2.2] at h2
    simp [B6, mulVec3] at h2
    exact hu (by linarith)
  · have := (ht 0).symm.trans (h1 0)
    cases this

/-- The hypotheses of C233 are met: two vectors in the columns of an array at the turn of the year 2000, and a vector with a z component. -/
example : ∃ r, (transformArr { days := 10957 } .gse .gsm (.many 2 [[1, 4], [2, 5], [3, 6]]) (after { days := 10957 } [.dipTilt])).1 = .ok r := by
  cases hr : (transformArr { days := 10957 } .gse .gsm (.many 2 [[1, 4], [2, 5], [3, 6]]) (after { days := 10957 } [.dipTilt])).1 with
  | ok r => exact ⟨r, rfl⟩
  | error e =>
    have := (C233_refused { days := 10957 } [.dipTilt] [] .gse .gsm 2 [1, 4] [2, 5] [3, 6] ![1, 2, 3] e).1 hr
    have d1 := C45_defined { days := 10957 } [] .gse .gsm (by decide) (by decide) ![1, 2, 3]
    rw [if_neg (by rintro ⟨h | h, -⟩ <;> cases h)] at d1
    obtain ⟨w, hw⟩ := d1
    rw [hw] at this; cases this
example : Column [1, 4] [2, 5] [3, 6] 1 ![4, 5, 6] := ⟨rfl, rfl, rfl⟩
example : (![7, 8, 9] : V3) 2 ≠ 0 := by simp

namespace MV

theorem deg (t : ℝ) : Real.sin (deg2rad t) = sind t ∧ Real.cos (deg2rad t) = cosd t := by
  unfold sind cosd deg2rad
  rw [mul_div_assoc]; exact ⟨rfl, rfl⟩

/-- the moment in gse and gsm from the angles an object has -/
theorem moments (p : Params) (s : ℝ) (h : List Call) :
    (dipoleMoment p .gse s (after p h)).1 = .ok (fun i => -s * north (tiltP p) (gsmP p) i) ∧
    (dipoleMoment p .gsm s (after p h)).1 = .ok (fun i => -s * north (tiltP p) 0 i) ∧
    (dipoleMoment p .sm s (after p h)).1 = .ok (fun i => -s * north 0 0 i) ∧
    (dipoleMoment p .mhd s (after p h)).1 = .ok (fun i => -s * (![-1, -1, 1] : V3) i * north (tiltP p) (gsmP p) i) := by
  have hB3 : B3 p = !![1, 0, 0; 0, cosd (gsmP p), -sind (gsmP p); 0, sind (gsmP p), cosd (gsmP p)] := by
    unfold B3; rw [makeRotation_eq]
    have : deg2rad (-gsmP p) = -deg2rad (gsmP p) := by unfold deg2rad; ring
    simp only [this, Real.cos_neg, Real.sin_neg, neg_neg, (deg _).1, (deg _).2]
  have hB4 : B4 p = !![cosd (tiltP p), 0, -sind (tiltP p); 0, 1, 0; sind (tiltP p), 0, cosd (tiltP p)] := by
    unfold B4; rw [makeRotation_eq]
    have : deg2rad (-tiltP p) = -deg2rad (tiltP p) := by unfold deg2rad; ring
    simp only [this, Real.cos_neg, Real.sin_neg, neg_neg, (deg _).1, (deg _).2]
  have s0 : sind 0 = 0 := by simp [sind]
  have c0 : cosd 0 = 1 := by simp [cosd]
  have hsm : F p .sm * (F p .sm)ᵀ = 1 := (F_isRot p .sm).1
  have hgsm : F p .gsm * (F p .sm)ᵀ = (B4 p)ᵀ := by
    unfold F
    rw [Matrix.transpose_mul, ← Matrix.mul_assoc, (show B3 p * B2 p * (B3 p * B2 p)ᵀ = 1 from (F_isRot p .gsm).1), Matrix.one_mul]
  have hgse := gse_sm_byHand p
  have hmhd : F p .mhd * (F p .sm)ᵀ = B6 * (B4 p * B3 p)ᵀ := by
    rw [← hgse, ← Matrix.mul_assoc]; rfl
  have hv : (B4 p * B3 p)ᵀ *ᵥ ![0, 0, -s] = fun i => -s * north (tiltP p) (gsmP p) i := by
    rw [hB3, hB4]
    apply ext3 <;> simp [mulVec3, north] <;> ring
  unfold dipoleMoment
  refine ⟨?_, ?_, ?_, ?_⟩ <;>
    rw [(transform_tri p _ _ _ _ (after_inv p _)).1,
      transformR_ok p (by simp [geocentric]) (by simp [geocentric]) (by simp [magBlocked])]
  · rw [hgse, hv]
  · rw [hgsm, hB4]; congr 1
    apply ext3 <;> simp [mulVec3, north, s0, c0] <;> ring
  · rw [hsm]; congr 1
    apply ext3 <;> simp [mulVec3, north, s0, c0]
  · rw [hmhd, ← Matrix.mulVec_mulVec, hv]; congr 1
    apply ext3 <;> simp [mulVec3, north, B6]

theorem hand (days tilt gsm : ℝ) : tiltP { days := days, dipTilt := some tilt, dipGsm := some gsm } = tilt ∧
    gsmP { days := days, dipTilt := some tilt, dipGsm := some gsm } = gsm := by
  constructor <;> simp [gsmP, tiltP, Params.fillAngle, Params.disabled]

end MV

/-- C234: the moment made from the angles is opposite to the direction of the north magnetic pole they say, and has the strength
asked for: in gse, gsm, sm and mhd, for all angles. -/
theorem C234_angles (tilt gsm s : ℝ) :
    getDipoleMomentAng tilt gsm .gse s = .ok (fun i => -s * north tilt gsm i) ∧
    getDipoleMomentAng tilt gsm .gsm s = .ok (fun i => -s * north tilt 0 i) ∧
    getDipoleMomentAng tilt gsm .sm s = .ok (fun i => -s * north 0 0 i) ∧
    getDipoleMomentAng tilt gsm .mhd s = .ok ![s * north tilt gsm 0, s * north tilt gsm 1, -s * north tilt gsm 2] := by
  have := MV.moments { days := 0, dipTilt := some tilt, dipGsm := some gsm } s []
  rw [(MV.hand 0 tilt gsm).1, (MV.hand 0 tilt gsm).2] at this
  refine ⟨this.1, this.2.1, this.2.2.1, this.2.2.2.trans ?_⟩
  congr 1
  apply ext3 <;> simp

/-- C234: in mag coordinates the angles have no meaning. -/
theorem C234_mag (tilt gsm s : ℝ) : getDipoleMomentAng tilt gsm .mag s = .error .runtimeError := by
  have hn : Params.notilt { days := 0, dipTilt := some tilt, dipGsm := some gsm } = false := by
    simp only [Params.notilt, asYears, Bool.true_and]
    norm_num
  have := C45_defined { days := 0, dipTilt := some tilt, dipGsm := some gsm } [] .sm .mag (by decide) (by decide) ![0, 0, -s]
  rw [if_pos ⟨.inl rfl, hn, by simp⟩] at this
  exact this

/-- C234: positive angles turn the north pole to the Sun, and to dusk: the moment points the other way. -/
theorem C234_signs (tilt gsm s : ℝ) (m : V3) (hs : 0 < s) (ht : 0 < tilt) (ht' : tilt < 90) (hg : 0 < gsm) (hg' : gsm < 180)
    (hm : getDipoleMomentAng tilt gsm .gse s = .ok m) : m 0 < 0 ∧ m 1 < 0 := by
  rw [(C234_angles tilt gsm s).1] at hm
  obtain rfl : (fun i => -s * north tilt gsm i) = m := by simpa using hm
  have hpi := Real.pi_pos
  have h1 : 0 < sind tilt := Real.sin_pos_of_pos_of_lt_pi (by positivity) (by nlinarith)
  have h2 : 0 < cosd tilt := Real.cos_pos_of_mem_Ioo ⟨by nlinarith [mul_pos ht hpi], by nlinarith⟩
  have h3 : 0 < sind gsm := Real.sin_pos_of_pos_of_lt_pi (by positivity) (by nlinarith)
  simp only [north]
  constructor
  · simpa using mul_pos hs h1
  · simpa using mul_pos hs (mul_pos h2 h3)

/-- C234: in every geocentric system, and at every time, the moment has the length asked for. -/
theorem C234_length (days s : ℝ) (nt : Bool) (a : Sys) (m : V3) :
    (getDipoleMoment days a s nt = .ok m → len m = |s|) ∧
    (∀ tilt gsm, getDipoleMomentAng tilt gsm a s = .ok m → len m = |s|) := by
  have key : ∀ p : Params, (dipoleMoment p a s (init p)).1 = .ok m → len m = |s| := by
    intro p h
    unfold dipoleMoment at h
    rw [(transform_tri p _ _ _ _ (init_inv p)).1] at h
    obtain ⟨-, -, -, rfl⟩ := transform_ok h
    rw [isRot_len ((F_isRot p _).mul (F_isRot p _).transpose)]
    unfold len
    simp [Real.sqrt_sq_eq_abs]
  exact ⟨fun h => key _ h, fun t g h => key _ h⟩

/-- C234: the angles of a time are angles of the hemisphere towards north, and the moment made from them is the moment of that time. -/
theorem C234_time (days : ℝ) (nt : Bool) :
    ∃ t g, getDipoleAngles days nt = .ok (t, g) ∧ -90 ≤ t ∧ t ≤ 90 ∧ -180 < g ∧ g ≤ 180 ∧
      ∀ s, ∀ a ∈ [Sys.gse, .gsm, .sm, .mhd], getDipoleMoment days a s nt = getDipoleMomentAng t g a s := by
  set p : Params := { days := days, notilt1967 := nt } with hp
  have h1 := dipTilt_tri p 99 (init p) (init_inv p)
  have h2 := dipGsm_tri p 99 (dipTilt p (init p)).2 h1.2
  have hpi := Real.pi_pos
  have hdis : p.disabled = false := rfl
  have d1 : p.dipTilt = none := rfl
  have d2 : p.dipGsm = none := rfl
  have b1 : -90 ≤ tiltP p ∧ tiltP p ≤ 90 := by
    by_cases hn : p.notilt = true
    · have : tiltP p = 0 := by simp [tiltP, Params.fillAngle, hn, d1]
      rw [this]; norm_num
    · have hn : p.notilt = false := by simpa using hn
      have e2 : tiltP p = rad2deg (arctan2 (qeP p 0) (√(qeP p 1 ^ 2 + qeP p 2 ^ 2))) := by
        simp [tiltP, Params.fillAngle, hn, hdis, d1]
      have hb : |arctan2 (qeP p 0) (√(qeP p 1 ^ 2 + qeP p 2 ^ 2))| ≤ Real.pi / 2 := by
        unfold arctan2
        exact Complex.abs_arg_le_pi_div_two_iff.2 (Real.sqrt_nonneg _)
      rw [abs_le] at hb
      rw [e2]; unfold rad2deg
      constructor
      · have := mul_le_mul_of_nonneg_right hb.1 (show (0:ℝ) ≤ 180 / Real.pi by positivity)
        have e : -(Real.pi / 2) * (180 / Real.pi) = -90 := by field_simp; norm_num
        linarith
      · have := mul_le_mul_of_nonneg_right hb.2 (show (0:ℝ) ≤ 180 / Real.pi by positivity)
        have e : Real.pi / 2 * (180 / Real.pi) = 90 := by field_simp; norm_num
        linarith
  have b2 : -180 < gsmP p ∧ gsmP p ≤ 180 := by
    by_cases hn : p.notilt = true
    · have : gsmP p = 0 := by simp [gsmP, Params.fillAngle, hn, d2]
      rw [this]; norm_num
    · have hn : p.notilt = false := by simpa using hn
      have e2 : gsmP p = rad2deg (arctan2 (qeP p 1) (qeP p 2)) := by
        simp [gsmP, Params.fillAngle, hn, hdis, d2]
      have hb1 : -Real.pi < arctan2 (qeP p 1) (qeP p 2) := Complex.neg_pi_lt_arg _
      have hb2 : arctan2 (qeP p 1) (qeP p 2) ≤ Real.pi := Complex.arg_le_pi _
      rw [e2]; unfold rad2deg
      have e : Real.pi * (180 / Real.pi) = 180 := by field_simp
      have hq : (0:ℝ) < 180 / Real.pi := by positivity
      constructor
      · have := mul_lt_mul_of_pos_right hb1 hq
        linarith
      · have := mul_le_mul_of_nonneg_right hb2 hq.le
        linarith
  refine ⟨tiltP p, gsmP p, ?_, b1.1, b1.2, b2.1, b2.2, ?_⟩
  · show (dipoleAngles p (init p)).1 = _
    unfold dipoleAngles
    rcases hx : dipTilt p (init p) with ⟨r, σ'⟩
    rw [hx] at h2
    have h1 : (dipTilt p (init p)).1 = _ := h1.1
    rw [hx] at h1; simp only at h1; subst h1
    rw [MV.bind_ok hx]
    rcases hy : dipGsm p σ' with ⟨r2, σ2⟩
    have h2 : (dipGsm p σ').1 = _ := h2.1
    rw [hy] at h2; simp only at h2; subst h2
    rw [MV.bind_ok hy]; rfl
  · intro s a ha
    have m := MV.moments p s []
    have m' := C234_angles (tiltP p) (gsmP p) s
    simp only [List.mem_cons, List.not_mem_nil, or_false] at ha
    rcases ha with rfl | rfl | rfl | rfl
    · exact m.1.trans m'.1.symm
    · exact m.2.1.trans m'.2.1.symm
    · exact m.2.2.1.trans m'.2.2.1.symm
    · refine (m.2.2.2.trans ?_).trans m'.2.2.2.symm
      congr 1
      apply ext3 <;> simp

/-- The hypotheses of C234 are met. -/
example : ∃ m, getDipoleMomentAng 30 40 .gse 2 = .ok m ∧ m 0 < 0 ∧ m 1 < 0 :=
  ⟨_, (C234_angles 30 40 2).1, C234_signs 30 40 2 _ (by norm_num) (by norm_num) (by norm_num) (by norm_num) (by norm_num) (C234_angles 30 40 2).1⟩

end Viscid.Props
