import Verif.Model.VecAlg
import Verif.Spec.VecAlg
import Verif.Props.ArithReduce
import Mathlib.Tactic.FieldSimp
/-!
# C171 the algebra of vector fields, C172 the choice of a backend
-/
namespace Viscid.Props
open Viscid.Arith Viscid.Spec.Arith Viscid.Spec.VecAlg Viscid.VecAlg
open Viscid.Layout (Arr prod reshape new detect)

/-- an array of shape `s` with the values `u` -/
def IsArr (a : Arr ℝ) (s : List Nat) (u : List Nat → ℝ) : Prop := a.shape = s ∧ ∀ idx, Within s idx → a.get idx = u idx

theorem apply_isArr (o : ℝ → ℝ → ℝ) {a b : Arr ℝ} {s : List Nat} {u w : List Nat → ℝ} (ha : IsArr a s u) (hb : IsArr b s w) :
    ∃ c, apply o a b = .ok c ∧ IsArr c s (fun idx => o (u idx) (w idx)) := by
  obtain ⟨ha1, ha2⟩ := ha
  obtain ⟨hb1, hb2⟩ := hb
  unfold apply
  rw [ha1, hb1, bcast_self]
  refine ⟨_, rfl, rfl, fun idx hi => ?_⟩
  simp only
  rw [bidx_self hi, ha2 idx hi, hb2 idx hi]

theorem mapArr_isArr (g : ℝ → ℝ) {a : Arr ℝ} {s : List Nat} {u : List Nat → ℝ} (ha : IsArr a s u) : IsArr (mapArr g a) s (fun idx => g (u idx)) :=
  ⟨ha.1, fun idx hi => by simp only [mapArr]; rw [ha.2 idx hi]⟩

theorem reshape_shape {a b : Arr α} {s : List Nat} (h : reshape a s = .ok b) : b.shape = s := by
  unfold reshape at h
  split at h
  · cases h; assumption
  · split at h
    · cases h; rfl
    · cases h

theorem layoutData_shape {f : Layout.Fld α} {a : Arr α} (h : f.data = .ok a) : f.shape = .ok a.shape := by
  unfold Layout.Fld.data at h
  simp only [bind, Except.bind] at h
  cases hs : f.shape with
  | error e =>
    rw [hs] at h
    simp only at h
    split at h
    · cases h
    · split at h
      · cases h
      · split at h
        · split at h <;> cases h
        · split at h
          · split at h <;> cases h
          · cases h
  | ok s =>
    rw [hs] at h
    simp only at h
    split at h
    · rw [reshape_shape h]
    · split at h
      · rw [reshape_shape h]
      · split at h
        · split at h
          · cases h
          · split at h
            · cases h; rfl
            · cases h
        · split at h
          · split at h
            · cases h
            · split at h
              · cases h; rfl
              · cases h
          · cases h

theorem lift_ok {x : Except Layout.Err β} {b : β} (h : lift x = .ok b) : x = .ok b := by
  cases x with
  | ok c => cases h; rfl
  | error e => cases e <;> cases h

theorem insert_len {s : List Nat} {i n m : Nat} {t : List Nat} (h : s.take i ++ n :: s.drop i = t) (hi : i = 0 ∧ t = m :: s ∨ i = s.length ∧ t = s ++ [m]) : n = m := by
  rcases hi with ⟨rfl, rfl⟩ | ⟨rfl, rfl⟩
  · simpa using h
  · simpa using h

theorem nrComps_of {f : Fld ℝ} {n : Nat} {u : Nat → List Nat → ℝ} (h : Flat f n u ∨ Interlaced f n u) : f.nrComps = .ok n := by
  have key : f.vector = true → ∀ a i, f.data = .ok a → f.nrComp = .ok (some i) →
      (i = 0 ∧ a.shape = n :: points f.axes ∨ i = (points f.axes).length ∧ a.shape = points f.axes ++ [n]) → f.nrComps = .ok n := by
    intro hv a i ha hi hh
    unfold Fld.data at ha
    rw [if_pos hv] at ha
    have hs := layoutData_shape (lift_ok ha)
    unfold Layout.Fld.shape at hs
    unfold Fld.nrComp at hi
    rw [if_pos hv] at hi
    unfold Fld.nrComps
    rw [if_pos hv]
    cases hc : (new f.sshape f.src f.force).nrComp with
    | error e => rw [hc] at hs; cases hs
    | ok j =>
      rw [hc] at hi hs
      simp only [lift, Except.ok.injEq, Option.some.injEq] at hi
      subst hi
      cases hn : (new f.sshape f.src f.force).nrComps with
      | error e => rw [hn] at hs; cases hs
      | ok m =>
        rw [hn] at hs
        simp only [bind, Except.bind, Except.ok.injEq] at hs
        have := insert_len (s := points f.axes) hs hh
        rw [this]; rfl
  rcases h with ⟨hv, hl, a, ha, has, -⟩ | ⟨hv, hl, a, ha, has, -⟩
  · exact key hv a 0 ha (nrComp_flat' hv hl) (Or.inl ⟨rfl, has⟩)
  · exact key hv a f.axes.length ha (nrComp_interlaced' hv hl) (Or.inr ⟨(points_length f.axes).symm, has⟩)

theorem components_of {f : Fld ℝ} {n : Nat} {u : Nat → List Nat → ℝ} (h : Flat f n u ∨ Interlaced f n u) (hn : n ≤ 6) :
    ∃ l, components f = .ok l ∧ l.length = n ∧ ∀ c a, l[c]? = some a → IsArr a (points f.axes) (u c) := by
  have hnc := nrComps_of h
  rcases h with ⟨hv, hl, a, ha, has, hau⟩ | ⟨hv, hl, a, ha, has, hau⟩
  · refine ⟨(List.range n).map fun i => ⟨a.shape.eraseIdx 0, fun idx => a.get (idx.insertIdx 0 i)⟩, ?_, by simp, ?_⟩
    · unfold components
      rw [hnc, nrComp_flat' hv hl, ha]
      simp only [bind, Except.bind]
      rw [if_neg (by unfold nrNames; omega)]
      rfl
    · intro c b hb
      rw [List.getElem?_map] at hb
      cases hr : (List.range n)[c]? with
      | none => rw [hr] at hb; cases hb
      | some k =>
        rw [hr] at hb
        obtain ⟨hlt, hk⟩ := List.getElem?_eq_some_iff.mp hr
        rw [List.getElem_range] at hk
        subst hk
        simp only [Option.map_some, Option.some.injEq] at hb
        subst hb
        refine ⟨by simp [has], fun idx hi => ?_⟩
        simp only [List.insertIdx_zero]
        exact hau c idx (by simpa using hlt) hi
  · refine ⟨(List.range n).map fun i => ⟨a.shape.eraseIdx f.axes.length, fun idx => a.get (idx.insertIdx f.axes.length i)⟩, ?_, by simp, ?_⟩
    · unfold components
      rw [hnc, nrComp_interlaced' hv hl, ha]
      simp only [bind, Except.bind]
      rw [if_neg (by unfold nrNames; omega)]
      rfl
    · intro c b hb
      rw [List.getElem?_map] at hb
      cases hr : (List.range n)[c]? with
      | none => rw [hr] at hb; cases hb
      | some k =>
        rw [hr] at hb
        obtain ⟨hlt, hk⟩ := List.getElem?_eq_some_iff.mp hr
        rw [List.getElem_range] at hk
        subst hk
        simp only [Option.map_some, Option.some.injEq] at hb
        subst hb
        have hpl := points_length f.axes
        refine ⟨?_, fun idx hi => ?_⟩
        · simp only
          rw [has, ← hpl, List.eraseIdx_append_of_length_le (Nat.le_refl _), Nat.sub_self]
          simp
        · have : idx.insertIdx f.axes.length c = idx ++ [c] := by
            rw [← hpl, ← within_length hi, List.insertIdx_length_self]
          simp only
          rw [this]
          exact hau c idx (by simpa using hlt) hi

theorem vector_or {f : Fld ℝ} {u : Nat → List Nat → ℝ} (h : Spec.VecAlg.Vector f u) : Flat f 3 u ∨ Interlaced f 3 u := by
  rcases h with h | ⟨h, -⟩
  · exact .inl h
  · exact .inr h

theorem xyz_of {f : Fld ℝ} {u : Nat → List Nat → ℝ} (h : Flat f 3 u ∨ Interlaced f 3 u) :
    ∃ x y z, xyz f = .ok (x, y, z) ∧ IsArr x (points f.axes) (u 0) ∧ IsArr y (points f.axes) (u 1) ∧ IsArr z (points f.axes) (u 2) := by
  obtain ⟨l, hl, hlen, hget⟩ := components_of h (by omega)
  match l, hlen, hl, hget with
  | [x, y, z], _, hl, hget =>
    refine ⟨x, y, z, ?_, hget 0 x rfl, hget 1 y rfl, hget 2 z rfl⟩
    unfold xyz
    rw [hl]
    rfl

theorem dotArr_of {ax ay az bx by' bz : Arr ℝ} {s : List Nat} {u w : Nat → List Nat → ℝ}
    (h1 : IsArr ax s (u 0)) (h2 : IsArr ay s (u 1)) (h3 : IsArr az s (u 2)) (k1 : IsArr bx s (w 0)) (k2 : IsArr by' s (w 1)) (k3 : IsArr bz s (w 2)) :
    ∃ c, dotArr (ax, ay, az) (bx, by', bz) = .ok c ∧ IsArr c s (fun idx => Spec.VecAlg.dot (atPoint u idx) (atPoint w idx)) := by
  obtain ⟨p, hp, hp'⟩ := apply_isArr (· * ·) h1 k1
  obtain ⟨q, hq, hq'⟩ := apply_isArr (· * ·) h2 k2
  obtain ⟨r, hr, hr'⟩ := apply_isArr (· * ·) h3 k3
  obtain ⟨t, ht, ht'⟩ := apply_isArr (· + ·) hp' hq'
  obtain ⟨v, hv, hv'⟩ := apply_isArr (· + ·) ht' hr'
  refine ⟨v, ?_, hv'⟩
  unfold dotArr
  simp only [hp, hq, hr, ht, hv, bind, Except.bind]

theorem wrapScalar_of (f : Fld ℝ) {a : Arr ℝ} {v : List Nat → ℝ} (h : IsArr a (points f.axes) v) (hp : prod (points f.axes) ≠ 1) :
    ∃ r, wrapScalar f a = .field r ∧ r.axes = f.axes ∧ r.center = f.center ∧ Scalar r v := by
  refine ⟨⟨f.axes, f.center, false, .default, a⟩, ?_, rfl, rfl, ?_⟩
  · unfold wrapScalar
    rw [if_neg (by rw [h.1]; exact hp)]
  · exact (scalar_mk f.center f.axes .default a h.1).congr h.2

theorem _root_.Viscid.Spec.VecAlg.ScalarResult.congr {f : Fld ℝ} {x : Except Exc (Ret ℝ)} {v w : List Nat → ℝ} (h : ScalarResult f x v)
    (e : ∀ idx, Within (points f.axes) idx → v idx = w idx) : ScalarResult f x w := by
  obtain ⟨r, h1, h2, h3, h4⟩ := h
  exact ⟨r, h1, h2, h3, h4.congr (by rw [h2]; exact e)⟩

theorem _root_.Viscid.Spec.VecAlg.ScalarResult.named {f : Fld ℝ} {x : Except Exc (Ret ℝ)} {v : List Nat → ℝ} (h : ScalarResult f x v) : ScalarResult f (named x) v := by
  obtain ⟨r, rfl, h2⟩ := h
  exact ⟨r, rfl, h2⟩

theorem _root_.Viscid.Spec.VecAlg.VectorResult.named {f : Fld ℝ} {x : Except Exc (Ret ℝ)} {v : Nat → List Nat → ℝ} (h : VectorResult f x v) : VectorResult f (named x) v := by
  obtain ⟨r, rfl, h2⟩ := h
  exact ⟨r, rfl, h2⟩

theorem layout_vector {f : Fld ℝ} {u : Nat → List Nat → ℝ} (h : Spec.VecAlg.Vector f u) : f.layout = .flat ∨ f.layout = .interlaced := by
  rcases h with ⟨-, h, -⟩ | ⟨⟨-, h, -⟩, -⟩
  · exact .inl h
  · exact .inr h

/-- both flat or both interlaced -/
theorem same_cases {a b : Fld ℝ} {u w : Nat → List Nat → ℝ} (ha : Spec.VecAlg.Vector a u) (hb : Spec.VecAlg.Vector b w) (h : SameLayout a b) :
    (Flat a 3 u ∧ Flat b 3 w) ∨ (Interlaced a 3 u ∧ Interlaced b 3 w ∧ points a.axes ≠ List.replicate a.axes.length 3) := by
  unfold SameLayout at h
  rcases ha with ha | ⟨ha, hne⟩ <;> rcases hb with hb | ⟨hb, hne'⟩
  · exact .inl ⟨ha, hb⟩
  · rw [ha.2.1, hb.2.1] at h; cases h
  · rw [ha.2.1, hb.2.1] at h; cases h
  · exact .inr ⟨ha, hb, hne⟩

theorem sumProd_of {a b c : Fld ℝ} {u w : Nat → List Nat → ℝ} (ha : Spec.VecAlg.Vector a u) (hb : Spec.VecAlg.Vector b w) (h : SameLayout a b)
    (hs : points b.axes = points a.axes) (hp : prod (points a.axes) ≠ 1) (hc : c = a ∨ c = b) :
    ScalarResult a (sumProd a b c) (fun idx => Spec.VecAlg.dot (atPoint u idx) (atPoint w idx)) := by
  have hsum : ∀ idx, ((List.range 3).map fun k => u k idx * w k idx).sum = Spec.VecAlg.dot (atPoint u idx) (atPoint w idx) := by
    intro idx
    have : List.range 3 = [0, 1, 2] := by decide
    simp [this, Spec.VecAlg.dot, atPoint, add_assoc]
  have hlen : a.axes.length = b.axes.length := by rw [← points_length, ← points_length, hs]
  rcases same_cases ha hb h with ⟨ha, hb⟩ | ⟨ha, hb, hne⟩
  · obtain ⟨r, hr, hax, hce, hfl⟩ := (C159_vector_partial (· * ·) a b 3 (by omega) u w hs).1 ha hb
    obtain ⟨q, hq, hqx, hqc, hqs⟩ := (C160_components List.sum r 3 _ (by rw [hax]; exact hp)).1 hfl
    refine ⟨q, ?_, hqx.trans hax, hqc.trans hce, hqs.congr fun idx _ => hsum idx⟩
    have hk : c.nrComp = .ok (some 0) := by
      rcases hc with rfl | rfl
      · exact nrComp_flat' ha.1 ha.2.1
      · exact nrComp_flat' hb.1 hb.2.1
    unfold sumProd
    rw [hr]
    simp only [bind, Except.bind, asField, hk]
    exact hq
  · obtain ⟨r, hr, hax, hce, hfl⟩ := (C159_vector_partial (· * ·) a b 3 (by omega) u w hs).2 ha hb hne
    obtain ⟨q, hq, hqx, hqc, hqs⟩ := (C160_components List.sum r 3 _ (by rw [hax]; exact hp)).2 hfl
    refine ⟨q, ?_, hqx.trans hax, hqc.trans hce, hqs.congr fun idx _ => hsum idx⟩
    have hk : c.nrComp = .ok (some a.axes.length) := by
      rcases hc with rfl | rfl
      · exact nrComp_interlaced' ha.1 ha.2.1
      · rw [hlen]; exact nrComp_interlaced' hb.1 hb.2.1
    unfold sumProd
    rw [hr]
    simp only [bind, Except.bind, asField, hk]
    rw [hax] at hq
    exact hq

theorem ufunc_of (g : ℝ → ℝ) {f : Fld ℝ} {x : Ret ℝ} {v : List Nat → ℝ} (h : ScalarResult f (.ok x) v) (hp : prod (points f.axes) ≠ 1) :
    ScalarResult f (ufunc g x) (fun idx => g (v idx)) := by
  obtain ⟨r, hr, hax, hc, hs⟩ := h
  cases hr
  obtain ⟨hv, a, ha, has, hau⟩ := hs
  obtain ⟨q, hq, hqx, hqc, hqs⟩ := wrapOn_scalar r.vector r.center r.axes (⟨a.shape, fun idx => g (a.get idx)⟩ : Arr ℝ) has (by
    simp only; rw [has, hax]; exact hp)
  refine ⟨q, ?_, hqx.trans hax, hqc.trans hc, hqs.congr fun idx hi => ?_⟩
  · unfold ufunc Fld.op1
    simp only [ha]
    exact hq
  · rw [hqx] at hi
    simp only [hau idx hi]

/-- C171: the magnitude of a vector field is the length of the vector at each point, with both backends and in both layouts -/
theorem C171_magnitude (k : Backend) (f : Fld ℝ) (u : Nat → List Nat → ℝ) (h : Spec.VecAlg.Vector f u) (hp : prod (points f.axes) ≠ 1) :
    ScalarResult f (magnitude k f) (fun idx => size (atPoint u idx)) := by
  cases k with
  | numexpr =>
    refine ScalarResult.named ?_
    obtain ⟨x, y, z, hxyz, hx, hy, hz⟩ := xyz_of (vector_or h)
    obtain ⟨c, hc, hc'⟩ := dotArr_of hx hy hz hx hy hz
    unfold magnitudeNe
    rw [hxyz]
    simp only [bind, Except.bind, hc]
    obtain ⟨r, hr, h2⟩ := wrapScalar_of f (mapArr_isArr Real.sqrt hc') hp
    exact ⟨r, by rw [hr], h2⟩
  | numpy =>
    refine ScalarResult.named ?_
    have hs := sumProd_of h h rfl rfl hp (c := f) (.inl rfl)
    unfold magnitudeNp
    obtain ⟨r, hr, -⟩ := id hs
    rw [hr] at hs ⊢
    simp only [bind, Except.bind]
    exact ufunc_of Real.sqrt hs hp

/-- C171: `dot` is the scalar product at each point. With numexpr the layouts may differ -/
theorem C171_dot (k : Backend) (a b : Fld ℝ) (u w : Nat → List Nat → ℝ) (ha : Spec.VecAlg.Vector a u) (hb : Spec.VecAlg.Vector b w)
    (hs : points b.axes = points a.axes) (hp : prod (points a.axes) ≠ 1) (hl : k = .numexpr ∨ SameLayout a b) :
    ScalarResult a (VecAlg.dot k a b) (fun idx => Spec.VecAlg.dot (atPoint u idx) (atPoint w idx)) := by
  cases k with
  | numexpr =>
    refine ScalarResult.named ?_
    obtain ⟨x, y, z, hxyz, hx, hy, hz⟩ := xyz_of (vector_or ha)
    obtain ⟨x', y', z', hxyz', hx', hy', hz'⟩ := xyz_of (vector_or hb)
    rw [hs] at hx' hy' hz'
    obtain ⟨c, hc, hc'⟩ := dotArr_of hx hy hz hx' hy' hz'
    unfold dotNe
    rw [hxyz, hxyz']
    simp only [bind, Except.bind, hc]
    obtain ⟨r, hr, h2⟩ := wrapScalar_of a hc' hp
    exact ⟨r, by rw [hr], h2⟩
  | numpy =>
    refine ScalarResult.named ?_
    have hl : SameLayout a b := by rcases hl with h | h; · cases h
                                   · exact h
    have hlen : a.axes.length = b.axes.length := by rw [← points_length, ← points_length, hs]
    have hk : a.nrComp = b.nrComp := by
      rcases same_cases ha hb hl with ⟨ha, hb⟩ | ⟨ha, hb, -⟩
      · rw [nrComp_flat' ha.1 ha.2.1, nrComp_flat' hb.1 hb.2.1]
      · rw [nrComp_interlaced' ha.1 ha.2.1, nrComp_interlaced' hb.1 hb.2.1, hlen]
    have hok : ∃ m, b.nrComp = .ok m := by
      rcases vector_or hb with hb | hb
      · exact ⟨_, nrComp_flat' hb.1 hb.2.1⟩
      · exact ⟨_, nrComp_interlaced' hb.1 hb.2.1⟩
    obtain ⟨m, hm⟩ := hok
    have := sumProd_of ha hb hl hs hp (c := a) (.inl rfl)
    unfold dotNp
    rw [hk, hm]
    simp only [bind, Except.bind, ne_eq, not_true_eq_false, if_false]
    exact this

/-- C171: with numpy the scalar product of fields with different layouts is a ValueError -/
theorem C171_dot_layouts (a b : Fld ℝ) (u w : Nat → List Nat → ℝ) (ha : Spec.VecAlg.Vector a u) (hb : Spec.VecAlg.Vector b w)
    (hs : points b.axes = points a.axes) (hd : a.axes ≠ []) (hl : ¬ SameLayout a b) : VecAlg.dot .numpy a b = .error .value := by
  have hlen : a.axes.length = b.axes.length := by rw [← points_length, ← points_length, hs]
  have hpos : a.axes.length ≠ 0 := by rwa [ne_eq, List.length_eq_zero_iff]
  unfold SameLayout at hl
  have : ∃ m m', a.nrComp = .ok m ∧ b.nrComp = .ok m' ∧ m ≠ m' := by
    rcases vector_or ha with ha | ha <;> rcases vector_or hb with hb | hb
    · exact absurd (ha.2.1.trans hb.2.1.symm) hl
    · exact ⟨_, _, nrComp_flat' ha.1 ha.2.1, nrComp_interlaced' hb.1 hb.2.1, by simp; omega⟩
    · exact ⟨_, _, nrComp_interlaced' ha.1 ha.2.1, nrComp_flat' hb.1 hb.2.1, by simp; omega⟩
    · exact absurd (ha.2.1.trans hb.2.1.symm) hl
  obtain ⟨m, m', h1, h2, h3⟩ := this
  have : dotNp a b = .error .value := by
    unfold dotNp
    rw [h1, h2]
    simp only [bind, Except.bind, if_pos h3]
  show named (dotNp a b) = _
  rw [this]
  rfl

/-- C171: `project` is the component along the direction of `b` at each point where `b` is not zero -/
theorem C171_project (k : Backend) (a b : Fld ℝ) (u w : Nat → List Nat → ℝ) (ha : Spec.VecAlg.Vector a u) (hb : Spec.VecAlg.Vector b w)
    (hs : points b.axes = points a.axes) (hp : prod (points a.axes) ≠ 1) (hl : k = .numexpr ∨ SameLayout a b) :
    ScalarResult a (project k a b) (fun idx => Spec.VecAlg.dot (atPoint u idx) (atPoint w idx) / size (atPoint w idx)) := by
  cases k with
  | numexpr =>
    refine ScalarResult.named ?_
    obtain ⟨x, y, z, hxyz, hx, hy, hz⟩ := xyz_of (vector_or ha)
    obtain ⟨x', y', z', hxyz', hx', hy', hz'⟩ := xyz_of (vector_or hb)
    rw [hs] at hx' hy' hz'
    obtain ⟨c, hc, hc'⟩ := dotArr_of hx hy hz hx' hy' hz'
    obtain ⟨d, hd, hd'⟩ := dotArr_of hx' hy' hz' hx' hy' hz'
    obtain ⟨e, he, he'⟩ := apply_isArr (· / ·) hc' (mapArr_isArr Real.sqrt hd')
    unfold projectNe
    rw [hxyz, hxyz']
    simp only [bind, Except.bind, hc, hd, he]
    obtain ⟨r, hr, h2⟩ := wrapScalar_of a he' hp
    exact ⟨r, by rw [hr], h2⟩
  | numpy =>
    refine ScalarResult.named ?_
    have hl : SameLayout a b := by rcases hl with h | h; · cases h
                                   · exact h
    have h1 := sumProd_of ha hb hl hs hp (c := b) (.inr rfl)
    have h2 := sumProd_of hb hb rfl rfl (by rw [hs]; exact hp) (c := b) (.inl rfl)
    unfold projectNp
    obtain ⟨p, hpe, hpx, hpc, hps⟩ := h1
    obtain ⟨q, hqe, -⟩ := id h2
    rw [hqe] at h2
    have h3 := ufunc_of Real.sqrt h2 (by rw [hs]; exact hp)
    obtain ⟨t, hte, htx, htc, hts⟩ := h3
    obtain ⟨r, hr, hrx, hrc, hrs⟩ := C159_scalar (· / ·) p t _ _ hps hts (by rw [htx, hpx, hs]) (by rw [hpx]; exact hp)
    rw [hpe, hqe]
    simp only [bind, Except.bind, hte, divide]
    exact ⟨r, hr, hrx.trans hpx, hrc.trans hpc, hrs⟩

/-- C171: `cross` is the vector product at each point, whatever the layouts; the components of the result come first -/
theorem C171_cross (a b : Fld ℝ) (u w : Nat → List Nat → ℝ) (ha : Spec.VecAlg.Vector a u) (hb : Spec.VecAlg.Vector b w)
    (hs : points b.axes = points a.axes) :
    ∃ r, VecAlg.cross a b = .ok (.field r) ∧ r.axes = a.axes ∧ r.center = a.center ∧
      Flat r 3 (fun c idx => Spec.VecAlg.cross (atPoint u idx) (atPoint w idx) c) := by
  obtain ⟨ax, ay, az, hxyz, hx, hy, hz⟩ := xyz_of (vector_or ha)
  obtain ⟨bx, by', bz, hxyz', hx', hy', hz'⟩ := xyz_of (vector_or hb)
  rw [hs] at hx' hy' hz'
  obtain ⟨m1, e1, i1⟩ := apply_isArr (· * ·) hy hz'
  obtain ⟨m2, e2, i2⟩ := apply_isArr (· * ·) hz hy'
  obtain ⟨x, ex, ix⟩ := apply_isArr (· - ·) i1 i2
  obtain ⟨m3, e3, i3⟩ := apply_isArr (· * ·) (mapArr_isArr (- ·) hx) hz'
  obtain ⟨m4, e4, i4⟩ := apply_isArr (· * ·) hz hx'
  obtain ⟨y, ey, iy⟩ := apply_isArr (· + ·) i3 i4
  obtain ⟨m5, e5, i5⟩ := apply_isArr (· * ·) hx hy'
  obtain ⟨m6, e6, i6⟩ := apply_isArr (· * ·) hy hx'
  obtain ⟨z, ez, iz⟩ := apply_isArr (· - ·) i5 i6
  refine ⟨⟨a.axes, a.center, true, .default, ⟨3 :: x.shape, fun idx => ([x, y, z].getD (idx.headD 0) x).get idx.tail⟩⟩, ?_, rfl, rfl, ?_⟩
  · unfold VecAlg.cross
    rw [hxyz, hxyz']
    simp only [bind, Except.bind, e1, e2, ex, e3, e4, ey, e5, e6, ez]
    unfold wrapList
    rw [if_pos ⟨ix.1.trans iy.1.symm, ix.1.trans iz.1.symm⟩]
  · refine (flat_mk a.center a.axes _ 3 (by simp only; rw [ix.1])).congr fun c idx hc hi => ?_
    match c, hc with
    | 0, _ =>
      simp only [List.headD_cons, List.tail_cons]
      exact ix.2 idx hi
    | 1, _ =>
      simp only [List.headD_cons, List.tail_cons]
      refine (iy.2 idx hi).trans ?_
      simp only [Spec.VecAlg.cross, atPoint]
      ring
    | 2, _ =>
      simp only [List.headD_cons, List.tail_cons]
      exact iz.2 idx hi

/-! ## unit vectors -/

theorem bcast_flat_drop (s : List Nat) (n : Nat) : bcast (n :: s) s = some (n :: s) := by
  have : ∀ l : List Nat, bcastRev (l ++ [n]) l = some (l ++ [n]) := by
    intro l
    induction l with
    | nil => rfl
    | cons a l ih => simp [bcastRev, bcast1_self, ih]
  simp [bcast, this]

theorem sumSq (u : Nat → List Nat → ℝ) (idx : List Nat) (g : Nat → ℝ) (hg : ∀ c, c < 3 → g c = u c idx) :
    Real.sqrt ((((List.range 3).map g).map fun x => x * x).sum) = size (atPoint u idx) := by
  have : List.range 3 = [0, 1, 2] := by decide
  simp [this, size, Spec.VecAlg.dot, atPoint, add_assoc, hg]

theorem flatData_of {f : Fld ℝ} {u : Nat → List Nat → ℝ} (h : Spec.VecAlg.Vector f u) :
    ∃ d, flatData f = .ok d ∧ d.shape = 3 :: points f.axes ∧ ∀ c idx, c < 3 → Within (points f.axes) idx → d.get (c :: idx) = u c idx := by
  rcases h with ⟨hv, hl, a, ha, has, hau⟩ | ⟨⟨hv, hl, a, ha, has, hau⟩, hne⟩
  · refine ⟨a, ?_, has, hau⟩
    unfold flatData
    rw [if_pos hl, ha]
  · obtain ⟨sh, g⟩ := a
    simp only at has hau
    subst has
    refine ⟨⟨3 :: points f.axes, fun idx => g (idx.tail ++ [idx.headD 0])⟩, ?_, rfl, fun c idx hc hi => ?_⟩
    · unfold flatData
      rw [if_neg (by rw [hl]; decide), ha]
      simp only [bind, Except.bind]
      unfold Fld.data
      have hsh : (Fld.mk f.axes f.center true .flat (⟨points f.axes ++ [3], g⟩ : Arr ℝ)).sshape = points f.axes := rfl
      rw [hsh]
      simp only [if_true]
      rw [← points_length] at hne
      rw [data_to_flat _ 3 g hne]
      rfl
    · simpa using hau c idx hc hi

/-- C171: `normalize` divides each vector by its length. With numexpr the components of the result come first, with numpy the layout stays -/
theorem C171_normalize (k : Backend) (a : Fld ℝ) (u : Nat → List Nat → ℝ) (ha : Spec.VecAlg.Vector a u) :
    VectorResult a (normalize k a) (fun c idx => u c idx / size (atPoint u idx)) ∧
    ∀ r, normalize k a = .ok (.field r) → r.layout = (match k with | .numexpr => .flat | .numpy => a.layout) := by
  cases k with
  | numexpr =>
    obtain ⟨d, hd, hds, hdv⟩ := flatData_of ha
    obtain ⟨x, y, z, hxyz, hx, hy, hz⟩ := xyz_of (vector_or ha)
    obtain ⟨c, hc, hc'⟩ := dotArr_of hx hy hz hx hy hz
    have hm := mapArr_isArr Real.sqrt hc'
    have hap : ∃ q : Arr ℝ, apply (· / ·) d (mapArr Real.sqrt c) = .ok q ∧ q.shape = 3 :: points a.axes ∧
        ∀ j idx, j < 3 → Within (points a.axes) idx → q.get (j :: idx) = u j idx / size (atPoint u idx) := by
      unfold apply
      rw [hds, hm.1, bcast_flat_drop]
      refine ⟨_, rfl, rfl, fun j idx hj hi => ?_⟩
      simp only
      rw [bidx_self (within_cons hj hi), bidx_drop_cons j hi, hdv j idx hj hi, hm.2 idx hi]
      rfl
    obtain ⟨q, hq, hqs, hqv⟩ := hap
    have hfl := (flat_mk a.center a.axes q 3 hqs).congr (fun j idx hj hi => hqv j idx hj hi)
    have hres : normalize .numexpr a = .ok (.field ⟨a.axes, a.center, true, .default, q⟩) := by
      have : normalizeNe a = .ok (.field ⟨a.axes, a.center, true, .default, q⟩) := by
        unfold normalizeNe
        rw [hd, hxyz]
        simp only [bind, Except.bind, hc, hq]
        unfold wrapVector
        rw [if_neg (by rw [hqs]; exact big_cons (by omega) _)]
        simp only [bind, Except.bind]
        rw [nrComps_of (.inl hfl)]
        rfl
      show named (normalizeNe a) = _
      rw [this]
      rfl
    refine ⟨⟨_, hres, rfl, rfl, .inl hfl⟩, fun r hr => ?_⟩
    rw [hres] at hr
    cases hr
    exact hfl.2.1
  | numpy =>
    rcases ha with ⟨hv, hl, d, hd, hds, hdv⟩ | ⟨⟨hv, hl, d, hd, hds, hdv⟩, hne⟩
    · let F : List ℝ → ℝ := fun l => Real.sqrt (l.map fun x => x * x).sum
      have hres : ∃ r, normalize .numpy a = .ok (.field r) ∧ r.axes = a.axes ∧ r.center = a.center ∧
          Flat r 3 (fun c idx => u c idx / size (atPoint u idx)) := by
        obtain ⟨r, hr, hrx, hrc, hrf⟩ := wrapOn_flat a.vector a.center a.axes
          (⟨3 :: points a.axes, fun idx => d.get (bidx (3 :: points a.axes) idx) / (reduceArr F 0 true d).get (bidx (1 :: points a.axes) idx)⟩ : Arr ℝ) 3 (by omega) rfl
        refine ⟨r, ?_, hrx, hrc, hrf.congr fun c idx hc hi => ?_⟩
        · have : normalizeNp a = .ok (.field r) := by
            unfold normalizeNp
            rw [hd, nrComp_flat' hv hl]
            simp only [bind, Except.bind]
            unfold Fld.opArr
            rw [hd]
            simp only
            unfold apply
            have hsh : (reduceArr F 0 true d).shape = 1 :: points a.axes := by simp [reduceArr, hds]
            rw [hsh, hds, bcast_flat_scalar]
            exact hr
          show named (normalizeNp a) = _
          rw [this]
          rfl
        · rw [hrx] at hi
          simp only
          rw [bidx_self (within_cons hc hi), bidx_one_cons c hi, hdv c idx hc hi]
          congr 1
          simp only [reduceArr, if_true]
          rw [hds]
          exact sumSq u idx _ fun j hj => by simpa using hdv j idx hj hi
      obtain ⟨r, hr, hrx, hrc, hrf⟩ := hres
      refine ⟨⟨r, hr, hrx, hrc, .inl hrf⟩, fun r' hr' => ?_⟩
      rw [hr] at hr'
      cases hr'
      exact hrf.2.1.trans hl.symm
    · let F : List ℝ → ℝ := fun l => Real.sqrt (l.map fun x => x * x).sum
      have hpl := points_length a.axes
      have hres : ∃ r, normalize .numpy a = .ok (.field r) ∧ r.axes = a.axes ∧ r.center = a.center ∧
          Interlaced r 3 (fun c idx => u c idx / size (atPoint u idx)) := by
        obtain ⟨r, hr, hrx, hrc, hrf⟩ := wrapOn_interlaced a.vector a.center a.axes
          (⟨points a.axes ++ [3], fun idx => d.get (bidx (points a.axes ++ [3]) idx) / (reduceArr F a.axes.length true d).get (bidx (points a.axes ++ [1]) idx)⟩ : Arr ℝ)
          3 (by omega) rfl hne
        refine ⟨r, ?_, hrx, hrc, hrf.congr fun c idx hc hi => ?_⟩
        · have : normalizeNp a = .ok (.field r) := by
            unfold normalizeNp
            rw [hd, nrComp_interlaced' hv hl]
            simp only [bind, Except.bind]
            unfold Fld.opArr
            rw [hd]
            simp only
            unfold apply
            have hsh : (reduceArr F a.axes.length true d).shape = points a.axes ++ [1] := by
              simp only [reduceArr, if_true]
              rw [hds, ← hpl, List.set_append_right _ _ (Nat.le_refl _), Nat.sub_self]
              rfl
            rw [hsh, hds, bcast_inter_scalar]
            exact hr
          show named (normalizeNp a) = _
          rw [this]
          rfl
        · rw [hrx] at hi
          simp only
          rw [bidx_self (within_snoc hc hi), bidx_one_snoc c hi, hdv c idx hc hi]
          congr 1
          simp only [reduceArr, if_true]
          have hg : d.shape.getD a.axes.length 0 = 3 := by rw [hds, ← hpl]; simp
          rw [hg]
          refine sumSq u idx _ fun j hj => ?_
          have : (idx ++ [0]).set a.axes.length j = idx ++ [j] := by
            rw [← hpl, ← within_length hi, List.set_append_right _ _ (Nat.le_refl _), Nat.sub_self]
            rfl
          rw [this]
          exact hdv j idx hj hi
      obtain ⟨r, hr, hrx, hrc, hrf⟩ := hres
      refine ⟨⟨r, hr, hrx, hrc, .inr ⟨hrf, by rw [hrx]; exact hne⟩⟩, fun r' hr' => ?_⟩
      rw [hr] at hr'
      cases hr'
      exact hrf.2.1.trans hl.symm

theorem norm_unit (w : Nat → ℝ) (h : Spec.VecAlg.dot w w ≠ 0) : size w ≠ 0 ∧ size w * size w = Spec.VecAlg.dot w w ∧ size (fun c => w c / size w) = 1 := by
  have h0 : 0 ≤ Spec.VecAlg.dot w w := by
    unfold Spec.VecAlg.dot
    have := mul_self_nonneg (w 0)
    have := mul_self_nonneg (w 1)
    have := mul_self_nonneg (w 2)
    linarith
  have hsq : size w * size w = Spec.VecAlg.dot w w := Real.mul_self_sqrt h0
  have hn : size w ≠ 0 := by
    intro e
    rw [e, zero_mul] at hsq
    exact h hsq.symm
  refine ⟨hn, hsq, ?_⟩
  have : Spec.VecAlg.dot (fun c => w c / size w) (fun c => w c / size w) = 1 := by
    have : Spec.VecAlg.dot (fun c => w c / size w) (fun c => w c / size w) = Spec.VecAlg.dot w w / (size w * size w) := by
      unfold Spec.VecAlg.dot
      field_simp
    rw [this, hsq, div_self h]
  unfold size at this ⊢
  rw [this, Real.sqrt_one]

/-- C171: the vectors of `normalize` have length one wherever the vector is not zero -/
theorem C171_unit (k : Backend) (a : Fld ℝ) (u : Nat → List Nat → ℝ) (ha : Spec.VecAlg.Vector a u) :
    ∃ v, VectorResult a (normalize k a) v ∧ ∀ idx, Spec.VecAlg.dot (atPoint u idx) (atPoint u idx) ≠ 0 →
      size (atPoint v idx) = 1 ∧ ∃ t > 0, ∀ c, u c idx = t * v c idx := by
  refine ⟨_, (C171_normalize k a u ha).1, fun idx h => ?_⟩
  obtain ⟨h1, h2, h3⟩ := norm_unit _ h
  refine ⟨h3, size (atPoint u idx), lt_of_le_of_ne (Real.sqrt_nonneg _) (Ne.symm h1), fun c => ?_⟩
  field_simp

/-- C171: `project_vector` is the part of `a` along `b`: with numexpr in all layouts, with numpy if the components come first -/
theorem C171_project_vector_partial (k : Backend) (a b : Fld ℝ) (u w : Nat → List Nat → ℝ) (ha : Spec.VecAlg.Vector a u) (hb : Spec.VecAlg.Vector b w)
    (hs : points b.axes = points a.axes) (hp : prod (points a.axes) ≠ 1) (hl : k = .numexpr ∨ (a.layout = .flat ∧ b.layout = .flat))
    (hz : ∀ idx, Within (points a.axes) idx → Spec.VecAlg.dot (atPoint w idx) (atPoint w idx) ≠ 0) :
    VectorResult a (projectVector k a b) (fun c idx =>
      Spec.VecAlg.dot (atPoint u idx) (atPoint w idx) / Spec.VecAlg.dot (atPoint w idx) (atPoint w idx) * w c idx) := by
  obtain ⟨⟨n, hn, hnx, hnc, hnv⟩, hlay⟩ := C171_normalize k b w hb
  have hlay := hlay n hn
  have hflat : n.layout = .flat := by
    rcases hl with rfl | ⟨-, hl⟩
    · exact hlay
    · cases k with
      | numexpr => exact hlay
      | numpy => exact hlay.trans hl
  have hnf : Flat n 3 (fun c idx => w c idx / size (atPoint w idx)) := by
    rcases hnv with h | ⟨h, -⟩
    · exact h
    · rw [h.2.1] at hflat; cases hflat
  obtain ⟨p, hpe, hpx, hpc, hps⟩ := C171_project k a n u _ ha hnv (by rw [hnx]; exact hs) hp (by
    rcases hl with h | ⟨h, -⟩
    · exact .inl h
    · exact .inr (h.trans hflat.symm))
  obtain ⟨r, hr, hrx, hrc, hrf⟩ := C159_scalar_vector_partial (· * ·) p n 3 (by omega) _ _ (by rw [hnx, hpx, hs]) hps hnf
  refine ⟨r, ?_, hrx.trans hpx, hrc.trans hpc, .inl (hrf.congr fun c idx hc hi => ?_)⟩
  · unfold projectVector
    rw [hn]
    simp only [bind, Except.bind, asField]
    rw [hpe]
    exact hr
  · rw [hrx, hpx] at hi
    obtain ⟨h1, h2, h3⟩ := norm_unit _ (hz idx hi)
    have h3' : size (atPoint (fun c idx => w c idx / size (atPoint w idx)) idx) = 1 := h3
    rw [h3', ← h2]
    have h4 : Spec.VecAlg.dot (atPoint u idx) (atPoint (fun c idx => w c idx / size (atPoint w idx)) idx) = Spec.VecAlg.dot (atPoint u idx) (atPoint w idx) / size (atPoint w idx) := by
      simp only [Spec.VecAlg.dot, atPoint]
      ring
    rw [h4]
    field_simp

/-- C171 fails: with numpy `project_vector` of fields with the components last is a ValueError -/
theorem C171_project_vector_violated (a b : Fld ℝ) (u w : Nat → List Nat → ℝ) (ha : Interlaced a 3 u) (hb : Interlaced b 3 w)
    (hs : points b.axes = points a.axes) (hp : prod (points a.axes) ≠ 1) (h2 : ∀ k ∈ points a.axes, 2 ≤ k) (hne : points a.axes ≠ List.replicate a.axes.length 3) :
    projectVector .numpy a b = .error .value := by
  have hlen : a.axes.length = b.axes.length := by rw [← points_length, ← points_length, hs]
  obtain ⟨⟨n, hn, hnx, hnc, hnv⟩, hlay⟩ := C171_normalize .numpy b w (.inr ⟨hb, by rw [hs, ← hlen]; exact hne⟩)
  have hlay : n.layout = b.layout := hlay n hn
  have hnf : Interlaced n 3 (fun c idx => w c idx / size (atPoint w idx)) := by
    rcases hnv with h | ⟨h, -⟩
    · rw [h.2.1, hb.2.1] at hlay; cases hlay
    · exact h
  obtain ⟨p, hpe, hpx, hpc, hps⟩ := C171_project .numpy a n u _ (.inr ⟨ha, hne⟩) hnv (by rw [hnx]; exact hs) hp (.inr (ha.2.1.trans hnf.2.1.symm))
  unfold projectVector
  rw [hn]
  simp only [bind, Except.bind, asField]
  rw [hpe]
  exact C159_scalar_interlaced_violated (· * ·) p n 3 (by omega) _ _ (by rw [hnx, hpx, hs]) hps hnf (by rw [hpx]; exact h2) (by rw [hpx]; exact hne)

/-- C171 fails on a grid with one point: the result is a number, whose name cannot be set -/
theorem C171_one_point_violated (f : Fld ℝ) (u : Nat → List Nat → ℝ) (h : Spec.VecAlg.Vector f u) (hp : prod (points f.axes) = 1) :
    magnitude .numexpr f = .error .attribute ∧ VecAlg.dot .numexpr f f = .error .attribute := by
  obtain ⟨x, y, z, hxyz, hx, hy, hz⟩ := xyz_of (vector_or h)
  obtain ⟨c, hc, hc'⟩ := dotArr_of hx hy hz hx hy hz
  constructor
  · have : ∃ v, magnitudeNe f = .ok (.number v) := by
      unfold magnitudeNe
      rw [hxyz]
      simp only [bind, Except.bind, hc, wrapScalar]
      rw [if_pos (by rw [(mapArr_isArr Real.sqrt hc').1]; exact hp)]
      exact ⟨_, rfl⟩
    obtain ⟨v, hv⟩ := this
    show named (magnitudeNe f) = _
    rw [hv]; rfl
  · have : ∃ v, dotNe f f = .ok (.number v) := by
      unfold dotNe
      rw [hxyz]
      simp only [bind, Except.bind, hc, wrapScalar]
      rw [if_pos (by rw [hc'.1]; exact hp)]
      exact ⟨_, rfl⟩
    obtain ⟨v, hv⟩ := this
    show named (dotNe f f) = _
    rw [hv]; rfl

/-- C171 fails with numexpr for vectors of two, four, five or six components: a ValueError, although numpy gives the magnitude -/
theorem C171_components_violated (f : Fld ℝ) (n : Nat) (u : Nat → List Nat → ℝ) (h : Flat f n u) (h2 : 2 ≤ n) (h6 : n ≤ 6) (h3 : n ≠ 3) (hp : prod (points f.axes) ≠ 1) :
    magnitude .numexpr f = .error .value ∧
    ScalarResult f (magnitude .numpy f) (fun idx => Real.sqrt ((List.range n).map fun c => u c idx * u c idx).sum) := by
  constructor
  · obtain ⟨l, hl, hlen, -⟩ := components_of (.inl h) h6
    have hx : xyz f = .error .value := by
      unfold xyz
      rw [hl]
      match l, hlen with
      | [], hlen => simp at hlen; omega
      | [_], _ => rfl
      | [_, _], _ => rfl
      | [_, _, _], hlen => simp at hlen; omega
      | _ :: _ :: _ :: _ :: _, _ => rfl
    have : magnitudeNe f = .error .value := by
      unfold magnitudeNe
      rw [hx]; rfl
    show named (magnitudeNe f) = _
    rw [this]; rfl
  · refine ScalarResult.named ?_
    obtain ⟨r, hr, hax, hce, hfl⟩ := (C159_vector_partial (· * ·) f f n h2 u u rfl).1 h h
    obtain ⟨q, hq, hqx, hqc, hqs⟩ := (C160_components List.sum r n _ (by rw [hax]; exact hp)).1 hfl
    have hs : sumProd f f f = .ok (.field q) := by
      unfold sumProd
      rw [hr]
      simp only [bind, Except.bind, asField, nrComp_flat' h.1 h.2.1]
      exact hq
    unfold magnitudeNp
    rw [hs]
    simp only [bind, Except.bind]
    exact ufunc_of Real.sqrt (f := f) ⟨q, rfl, hqx.trans hax, hqc.trans hce, hqs⟩ hp

/-- C171 fails with numpy on a grid with three points along each axis if the components are last: an IndexError -/
theorem C171_cube_violated (f : Fld ℝ) (u : Nat → List Nat → ℝ) (h : Interlaced f 3 u) (hd : 0 < f.axes.length) (hc : points f.axes = List.replicate f.axes.length 3) :
    magnitude .numpy f = .error .index := by
  obtain ⟨hv, hl, a, ha, has, hau⟩ := h
  have hsw : points f.axes ++ [3] = 3 :: points f.axes := by
    rw [hc]
    rw [← List.replicate_succ', List.replicate_succ]
  obtain ⟨r, hr, hrx, hrc, hrf⟩ := wrapOn_flat f.vector f.center f.axes
    (⟨3 :: points f.axes, fun idx => a.get (bidx (3 :: points f.axes) idx) * a.get (bidx (3 :: points f.axes) idx)⟩ : Arr ℝ) 3 (by omega) rfl
  have hop : f.op (· * ·) f = .ok (.field r) := by
    unfold Fld.op Fld.ow
    rw [ha, hv]
    simp only [Bool.not_true, Bool.and_false, Bool.false_eq_true, if_false]
    unfold apply
    rw [has, hsw, bcast_self]
    exact hr
  have hsp : sumProd f f f = .error .index := by
    unfold sumProd
    rw [hop]
    simp only [bind, Except.bind, asField, nrComp_interlaced' hv hl]
    rw [← hrx]
    exact C160_flat_last_violated List.sum r 3 (by omega) _ hrf (by rw [hrx]; exact hd)
  have : magnitudeNp f = .error .index := by
    unfold magnitudeNp
    rw [hsp]; rfl
  show named (magnitudeNp f) = _
  rw [this]; rfl

/-! ## the choice of a backend -/

theorem lookup_mem {ι : Type} (imps : List (String × ι)) {s : String} {i : ι} (h : imps.lookup s = some i) : (s, i) ∈ imps := by
  induction imps with
  | nil => cases h
  | cons p l ih =>
    obtain ⟨t, j⟩ := p
    rw [List.lookup_cons] at h
    split at h
    · rename_i he
      cases h
      rw [beq_iff_eq] at he
      rw [he]
      exact List.mem_cons_self
    · exact List.mem_cons_of_mem _ (ih h)

/-- C172: the first of the preferred backends that the operation has is used -/
theorem C172_preferred {ι : Type} (imps : List (String × ι)) (l r : List String) (s : String) (i : ι) (only : Bool)
    (hl : ∀ t ∈ l, ∀ j, (t, j) ∉ imps) (hs : imps.lookup s = some i) : getImp imps (.names (l ++ s :: r)) only = .ok i := by
  have hnone : l.findSome? (fun n => imps.lookup n) = none := by
    rw [List.findSome?_eq_none_iff]
    intro t ht
    cases h : imps.lookup t with
    | none => rfl
    | some j => exact absurd (lookup_mem imps h) (hl t ht j)
  unfold getImp
  simp only
  rw [List.findSome?_append, hnone, List.findSome?_cons, hs]
  rfl

/-- C172: one name is a list of one name; nothing preferred is the first that was added -/
theorem C172_forms {ι : Type} (imps : List (String × ι)) (only : Bool) :
    (∀ s, getImp imps (.name s) only = getImp imps (.names [s]) only) ∧
    (∀ s i l, imps = (s, i) :: l → getImp imps .none only = .ok i) := by
  refine ⟨fun s => rfl, ?_⟩
  rintro s i l rfl
  unfold getImp
  simp

/-- C172: if it has none of them, `only` makes it a BackendNotFound, and otherwise the first of numexpr, cython, numpy it has is used, or the first
that was added; only an operation without backends cannot be called -/
theorem C172_fallback {ι : Type} (imps : List (String × ι)) (l : List String) (hl : ∀ t ∈ l, imps.lookup t = none) :
    getImp imps (.names l) true = .error .backendNotFound ∧
    (∀ i, imps.lookup "numexpr" = some i → getImp imps (.names l) false = .ok i) ∧
    (∀ i, imps.lookup "numexpr" = none → imps.lookup "cython" = some i → getImp imps (.names l) false = .ok i) ∧
    (∀ i, imps.lookup "numexpr" = none → imps.lookup "cython" = none → imps.lookup "numpy" = some i → getImp imps (.names l) false = .ok i) ∧
    (∀ s i r, imps.lookup "numexpr" = none → imps.lookup "cython" = none → imps.lookup "numpy" = none → imps = (s, i) :: r →
      getImp imps (.names l) false = .ok i) ∧
    (getImp imps (.names l) false = .error .backendNotFound ↔ imps = []) := by
  have hnone : l.findSome? (fun n => imps.lookup n) = none := List.findSome?_eq_none_iff.mpr hl
  have hgen : getImp imps (.names l) false =
      match defaultBackends.findSome? (fun n => imps.lookup n) with
      | some i => .ok i
      | none => match imps.head? with | none => .error .backendNotFound | some i => .ok i.2 := by
    unfold getImp
    simp only [hnone]
    rw [if_neg (by decide)]
    rfl
  refine ⟨by unfold getImp; simp [hnone], ?_, ?_, ?_, ?_, ?_⟩
  · intro i h; rw [hgen]; simp [defaultBackends, h]
  · intro i h h'; rw [hgen]; simp [defaultBackends, h, h']
  · intro i h h' h''; rw [hgen]; simp [defaultBackends, h, h', h'']
  · intro s i r h h' h'' e
    rw [hgen]
    simp only [defaultBackends, List.findSome?_cons, h, h', h'', List.findSome?_nil]
    rw [e]
    rfl
  · rw [hgen]
    constructor
    · intro h
      split at h
      · cases h
      · split at h
        · rename_i hh
          exact List.head?_eq_none_iff.mp hh
        · cases h
    · rintro rfl
      rfl

/-- C172: whatever is asked for, an implementation that was added is used -/
theorem C172_one_of {ι : Type} (imps : List (String × ι)) (p : Preferred) (only : Bool) (i : ι) (h : getImp imps p only = .ok i) : ∃ s, (s, i) ∈ imps := by
  have hf : ∀ (l : List String) i, l.findSome? (fun n => imps.lookup n) = some i → ∃ s, (s, i) ∈ imps := by
    intro l i hi
    obtain ⟨s, -, hs⟩ := List.exists_of_findSome?_eq_some hi
    exact ⟨s, lookup_mem imps hs⟩
  unfold getImp at h
  simp only at h
  split at h
  · rename_i hfs
    cases h
    exact hf _ _ hfs
  · split at h
    · cases h
    · split at h
      · rename_i hfs
        cases h
        exact hf _ _ hfs
      · split at h
        · cases h
        · rename_i j hj
          cases h
          exact ⟨j.1, List.mem_of_head? hj⟩

example : getImp [("numexpr", 1), ("numpy", 2)] (.names ["cython", "numpy"]) true = .ok 2 ∧ getImp [("numexpr", 1), ("numpy", 2)] .none false = .ok 1 ∧
    getImp [("numexpr", 1), ("numpy", 2)] (.name "native") true = .error .backendNotFound ∧
    getImp [("numexpr", 1), ("numpy", 2)] (.name "native") false = .ok 1 := by decide

/-- a field on a grid of two by four points, in both layouts -/
def exampleVec (layout : Bool) : Fld ℝ :=
  ⟨[("x", [0, 1]), ("y", [0, 1, 2, 3])], .node, true, .default,
    if layout then ⟨[3, 2, 4], fun idx => (idx.headD 0 : ℝ) + 1⟩ else ⟨[2, 4, 3], fun idx => (idx.getLastD 0 : ℝ) + 1⟩⟩

example (layout : Bool) : Spec.VecAlg.Vector (exampleVec layout) (fun c _ => (c : ℝ) + 1) ∧ prod (points (exampleVec layout).axes) ≠ 1 := by
  refine ⟨?_, by cases layout <;> decide⟩
  cases layout with
  | true => exact .inl ((flat_mk .node _ _ 3 rfl).congr fun c idx _ _ => by simp)
  | false =>
    refine .inr ⟨(interlaced_mk .node _ _ 3 rfl ?_).congr fun c idx _ _ => by simp, ?_⟩
    · decide
    · decide

end Viscid.Props
