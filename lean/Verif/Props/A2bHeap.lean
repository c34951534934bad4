import Verif.Props.A2b
import Verif.Spec.A2bHeap
/-! # C204: arrays that functions of rotations change -/
namespace Viscid.Props
open Viscid.RotStack Viscid.Spec.RotStack Viscid.A2b Viscid.A2bHeap Viscid.Spec.A2bHeap
open Viscid.Rotation (M3 V3 Quat len renorm rotOf)
open Viscid.Euler (Unit')

namespace A2H

theorem unitR_idem (v : Option V3) : unitR (unitR v) = unitR v := by
  cases v with
  | none => rfl
  | some v =>
    show (unitO v).bind unitO = unitO v
    unfold unitO
    by_cases h : len v = 0
    · rw [if_pos h]; rfl
    · rw [if_neg h]
      have hd := Rotation.unit_dot h
      show (if len (Rotation.unit v) = 0 then none else some (Rotation.unit (Rotation.unit v))) = _
      rw [if_neg (by rw [Rotation.len_eq_one hd]; exact one_ne_zero), Rotation.unit_of_dot hd]

theorem rows_idem (l : List (Option V3)) : (l.map unitR).map unitR = l.map unitR := by
  rw [List.map_map]; exact List.map_congr_left fun v _ => unitR_idem v

theorem asDouble_spec (h : Heap) (p : Nat) (b : Buf) (hb : h[p]? = some b) :
    ∃ ext, (asDouble h p).1 = h ++ ext ∧ (h ++ ext)[(asDouble h p).2]? = some { b with dbl := true } ∧
      (b.dbl = true → (asDouble h p).2 = p) ∧ (b.dbl = false → h.length ≤ (asDouble h p).2) := by
  unfold asDouble
  rw [hb]
  cases hd : b.dbl with
  | true =>
    refine ⟨[], by simp [hd], ?_, (fun _ => by simp [hd]), fun h => by cases h⟩
    simp only [hd, if_true, List.append_nil]
    rw [hb]
    rw [← hd]
  | false =>
    refine ⟨[{ b with dbl := true }], by simp [hd], ?_, (fun h => by cases h), fun _ => by simp [hd]⟩
    simp [hd]

theorem normalise_spec (h : Heap) (p : Nat) (b : Buf) (hb : h[p]? = some b) (q : Nat) :
    (normalise h p)[q]? = if q = p then some { b with rows := b.rows.map unitR } else h[q]? := by
  unfold normalise
  rw [hb]
  simp only
  have hp : p < h.length := by
    by_contra hc
    rw [List.getElem?_eq_none (by omega)] at hb
    cases hb
  rw [List.getElem?_set]
  by_cases e : p = q
  · rw [if_pos e, if_pos e.symm, if_pos hp]
  · rw [if_neg e, if_neg (Ne.symm e)]

noncomputable def after (b : Buf) (arg : Bool) : Buf := if b.dbl && arg then { b with rows := b.rows.map unitR } else b

/-- one call -/
theorem run_spec (h : Heap) (c : Call) (A B : Buf) (ha : h[c.a]? = some A) (hb : h[c.b]? = some B) :
    (run h c).2 = some (a2bOn (A.single && B.single && c.roll.single) (A.rows.map unitR) (B.rows.map unitR) c.roll.list c.unit c.newx) ∧
    ∀ p P, h[p]? = some P → (run h c).1[p]? = some (after P (decide (p = c.a ∨ p = c.b))) := by
  have hla : c.a < h.length := by
    by_contra hc
    rw [List.getElem?_eq_none (by omega)] at ha
    cases ha
  have hlb : c.b < h.length := by
    by_contra hc
    rw [List.getElem?_eq_none (by omega)] at hb
    cases hb
  obtain ⟨e1, r1, r2, r3, r4⟩ := asDouble_spec h c.a A ha
  obtain ⟨e2, s1, s2, s3, s4⟩ := asDouble_spec (h ++ e1) c.b B (by rw [List.getElem?_append_left hlb]; exact hb)
  have hqa : (h ++ e1).length > (asDouble h c.a).2 := by
    by_contra hc
    rw [List.getElem?_eq_none (by omega)] at r2
    cases r2
  unfold run
  simp only
  rw [r1]
  rw [s1]
  generalize hga : (asDouble h c.a).2 = qa at *
  generalize hgb : (asDouble (h ++ e1) c.b).2 = qb at *
  have q1 : (h ++ e1 ++ e2)[qa]? = some { A with dbl := true } := by rw [List.getElem?_append_left hqa]; exact r2
  have n1 := normalise_spec (h ++ e1 ++ e2) qa _ q1
  have hq : ∃ rows, (normalise (h ++ e1 ++ e2) qa)[qb]? = some { B with dbl := true, rows := rows } ∧ rows.map unitR = B.rows.map unitR ∧ (qa ≠ qb → rows = B.rows) := by
    rw [n1 qb]
    by_cases e : qb = qa
    · rw [if_pos e]
      rw [e, q1] at s2
      simp only [Option.some.injEq, Buf.mk.injEq] at s2
      obtain ⟨-, i1, i2⟩ := s2
      refine ⟨A.rows.map unitR, by simp [i1], by rw [i2, rows_idem], fun h => absurd e.symm h⟩
    · rw [if_neg e]
      exact ⟨B.rows, s2, rfl, fun _ => rfl⟩
  obtain ⟨rows, q2, q3, q4⟩ := hq
  have n2 := normalise_spec (normalise (h ++ e1 ++ e2) qa) qb _ q2
  constructor
  · rw [n2 qb, if_pos rfl]
    have : ∃ d, (normalise (normalise (h ++ e1 ++ e2) qa) qb)[qa]? = some ⟨d, A.single, A.rows.map unitR⟩ := by
      rw [n2 qa]
      by_cases e : qa = qb
      · rw [if_pos e]
        rw [← e, n1 qa, if_pos rfl] at q2
        simp only [Option.some.injEq, Buf.mk.injEq] at q2
        obtain ⟨i0, i1, i2⟩ := q2
        refine ⟨true, ?_⟩
        rw [← i1, ← i2, rows_idem]
      · rw [if_neg e, n1 qa, if_pos rfl]; exact ⟨true, rfl⟩
    obtain ⟨d, e⟩ := this
    rw [e]
    simp only [q3]
  · intro p P hp
    have hlp : p < h.length := by
      by_contra hc
      rw [List.getElem?_eq_none (by omega)] at hp
      cases hp
    have hpp : (h ++ e1 ++ e2)[p]? = some P := by
      rw [List.append_assoc, List.getElem?_append_left hlp]; exact hp
    have dA : qa < h.length → A.dbl = true ∧ qa = c.a := by
      intro hh
      cases hd : A.dbl with
      | true => exact ⟨rfl, r3 hd⟩
      | false => have := r4 hd; omega
    have dB : qb < h.length → B.dbl = true ∧ qb = c.b := by
      intro hh
      cases hd : B.dbl with
      | true => exact ⟨rfl, s3 hd⟩
      | false => have := s4 hd; rw [List.length_append] at this; omega
    rw [n2 p]
    by_cases e : p = qb
    · rw [if_pos e]
      obtain ⟨i1, i2⟩ := dB (by omega)
      have : P = B := by rw [e, i2, hb] at hp; exact (Option.some.inj hp).symm
      subst this
      unfold after
      rw [i1]
      have : decide (p = c.a ∨ p = c.b) = true := by rw [decide_eq_true_eq]; right; omega
      simp only [this, Bool.and_self, if_true, q3]
    · rw [if_neg e, n1 p]
      by_cases e' : p = qa
      · rw [if_pos e']
        obtain ⟨i1, i2⟩ := dA (by omega)
        have : P = A := by rw [e', i2, ha] at hp; exact (Option.some.inj hp).symm
        subst this
        unfold after
        have : decide (p = c.a ∨ p = c.b) = true := by rw [decide_eq_true_eq]; left; omega
        simp only [this, i1, Bool.and_self, if_true]
      · rw [if_neg e', hpp]
        unfold after
        by_cases hdc : (P.dbl && decide (p = c.a ∨ p = c.b)) = true
        · exfalso
          rw [Bool.and_eq_true, decide_eq_true_eq] at hdc
          rcases hdc.2 with h1 | h1
          · rw [h1, ha] at hp
            cases hp
            exact e' (h1.trans (r3 hdc.1).symm)
          · rw [h1, hb] at hp
            cases hp
            exact e (h1.trans (s3 hdc.1).symm)
        · rw [if_neg hdc]

theorem holds_rows (h : Heap) (p : Nat) (s : Stk V3) (hs : Holds h p s) : ∃ B, h[p]? = some B ∧ B.single = s.single ∧ B.rows.map unitR = s.list.map unitO := by
  obtain ⟨d, hs⟩ := hs
  cases s with
  | one x => exact ⟨_, hs, rfl, rfl⟩
  | many l => exact ⟨_, hs, rfl, by simp [Stk.list, Function.comp_def, unitR]⟩

theorem after_dbl (P : Buf) (a : Bool) : (after P a).dbl = P.dbl ∧ (after P a).single = P.single ∧ (after P a).rows.map unitR = P.rows.map unitR := by
  unfold after
  split
  · exact ⟨rfl, rfl, rows_idem _⟩
  · exact ⟨rfl, rfl, rfl⟩

/-- the same vectors up to their lengths -/
def Alike (h h' : Heap) : Prop := ∀ (p : Nat) (P : Buf), h[p]? = some P → ∃ P' : Buf, h'[p]? = some P' ∧ P'.dbl = P.dbl ∧ P'.single = P.single ∧ P'.rows.map unitR = P.rows.map unitR

theorem run_alike (h : Heap) (c : Call) (ha : c.a < h.length) (hb : c.b < h.length) : Alike h (run h c).1 := by
  intro p P hp
  obtain ⟨_, h2⟩ := run_spec h c h[c.a] h[c.b] (by simp) (by simp)
  exact ⟨_, h2 p P hp, after_dbl P _⟩

theorem alike_len (h h' : Heap) (hh : Alike h h') (p : Nat) (hp : p < h.length) : p < h'.length := by
  obtain ⟨P, h1, _⟩ := hh p h[p] (by simp)
  by_contra hc
  rw [List.getElem?_eq_none (by omega)] at h1
  cases h1

theorem alike_trans (h h' h'' : Heap) (a : Alike h h') (b : Alike h' h'') : Alike h h'' := by
  intro p P hp
  obtain ⟨P', h1, h2, h3, h4⟩ := a p P hp
  obtain ⟨P'', g1, g2, g3, g4⟩ := b p P' h1
  exact ⟨P'', g1, g2.trans h2, g3.trans h3, g4.trans h4⟩

theorem alike_run (h h' : Heap) (hh : Alike h h') (c : Call) (ha : c.a < h.length) (hb : c.b < h.length) : (run h' c).2 = (run h c).2 := by
  obtain ⟨A, a1, a2, a3, a4⟩ := hh c.a h[c.a] (by simp [ha])
  obtain ⟨B, b1, b2, b3, b4⟩ := hh c.b h[c.b] (by simp [hb])
  rw [(run_spec h' c A B a1 b1).1, (run_spec h c h[c.a] h[c.b] (by simp) (by simp)).1, a3, a4, b3, b4]

theorem runAll_alike (h h0 : Heap) (hh : Alike h0 h) (cs : List Call) (hc : ∀ c ∈ cs, c.a < h0.length ∧ c.b < h0.length) :
    Alike h0 (runAll h cs).1 ∧ (runAll h cs).2 = cs.map fun c => (run h0 c).2 := by
  induction cs generalizing h with
  | nil => exact ⟨hh, rfl⟩
  | cons c cs ih =>
    obtain ⟨ca, cb⟩ := hc c (by simp)
    have h1 := run_alike h c (alike_len _ _ hh _ ca) (alike_len _ _ hh _ cb)
    obtain ⟨i1, i2⟩ := ih (run h c).1 (alike_trans _ _ _ hh h1) (fun d hd => hc d (by simp [hd]))
    refine ⟨i1, ?_⟩
    show (run h c).2 :: (runAll (run h c).1 cs).2 = _
    rw [i2, alike_run h0 h hh c ca cb]
    rfl

end A2H

/-- C204: `a2b_rot` of arrays is `a2b_rot` of the vectors they hold, also if both are the same array -/
theorem C204_result (h : Heap) (c : Call) (a b : Stk V3) (ha : Holds h c.a a) (hb : Holds h c.b b) :
    (run h c).2 = some (a2b a b c.roll c.unit c.newx) := by
  obtain ⟨A, a1, a2, a3⟩ := A2H.holds_rows h c.a a ha
  obtain ⟨B, b1, b2, b3⟩ := A2H.holds_rows h c.b b hb
  rw [(A2H.run_spec h c A B a1 b1).1, a2, a3, b2, b3]
  rfl

/-- C204: whatever calls were made before, a call gives what it would have given first -/
theorem C204_history (h : Heap) (cs : List Call) (hc : ∀ c ∈ cs, c.a < h.length ∧ c.b < h.length) :
    (runAll h cs).2 = cs.map fun c => (run h c).2 :=
  (A2H.runAll_alike h h (fun _ P hp => ⟨P, hp, rfl, rfl, rfl⟩) cs hc).2

/-- C204: after any calls, an array is as before if it is not of doubles, or was no argument, or has vectors of length 1 -/
theorem C204_kept_partial (h : Heap) (cs : List Call) (hc : ∀ c ∈ cs, c.a < h.length ∧ c.b < h.length) (p : Nat) (P : Buf) (hp : h[p]? = some P)
    (hk : P.dbl = false ∨ (∀ c ∈ cs, c.a ≠ p ∧ c.b ≠ p) ∨ ∀ v ∈ P.rows, ∀ x, v = some x → len x = 1) : (runAll h cs).1[p]? = some P := by
  induction cs generalizing h with
  | nil => exact hp
  | cons c cs ih =>
    obtain ⟨ca, cb⟩ := hc c (by simp)
    have al := A2H.run_alike h c ca cb
    refine ih (run h c).1 (fun d hd => ?_) ?_ ?_
    · obtain ⟨da, db⟩ := hc d (by simp [hd])
      exact ⟨A2H.alike_len _ _ al _ da, A2H.alike_len _ _ al _ db⟩
    · rw [(A2H.run_spec h c h[c.a] h[c.b] (by simp) (by simp)).2 p P hp]
      unfold A2H.after
      rcases hk with hk | hk | hk
      · rw [hk]; rfl
      · have := hk c (by simp)
        rw [if_neg]
        rw [Bool.and_eq_true, decide_eq_true_eq]
        rintro ⟨_, h | h⟩
        · exact this.1 h.symm
        · exact this.2 h.symm
      · have : P.rows.map unitR = P.rows := by
          conv_rhs => rw [← List.map_id P.rows]
          refine List.map_congr_left fun v hv => ?_
          cases v with
          | none => rfl
          | some x =>
            have h1 := hk _ hv x rfl
            show unitO x = some x
            unfold unitO
            rw [if_neg (by rw [h1]; exact one_ne_zero)]
            congr 1
            funext i
            unfold Rotation.unit
            rw [h1, div_one]
        rw [this]
        split <;> rfl
    · rcases hk with hk | hk | hk
      · exact Or.inl hk
      · exact Or.inr (Or.inl fun d hd => hk d (by simp [hd]))
      · exact Or.inr (Or.inr hk)

/-- C204 is violated: an array of doubles passed as a vector to rotate from, or to, is changed unless its vectors have length 1 -/
theorem C204_changed_violated (h : Heap) (c : Call) (p : Nat) (P : Buf) (ha : c.a < h.length) (hb : c.b < h.length) (hp : h[p]? = some P)
    (harg : p = c.a ∨ p = c.b) (hd : P.dbl = true) (x : V3) (hx : some x ∈ P.rows) (hl : len x ≠ 1) : (run h c).1[p]? ≠ some P := by
  rw [(A2H.run_spec h c h[c.a] h[c.b] (by simp) (by simp)).2 p P hp]
  unfold A2H.after
  rw [hd, decide_eq_true harg]
  simp only [Bool.and_self, if_true]
  intro e
  have e : P.rows.map unitR = P.rows := by
    have := congrArg Buf.rows (Option.some.inj e)
    exact this
  obtain ⟨k, hk, ek⟩ := List.mem_iff_getElem.1 hx
  have : (P.rows.map unitR)[k]? = some (some x) := by rw [e, List.getElem?_eq_getElem hk, ek]
  rw [List.getElem?_map, List.getElem?_eq_getElem hk, ek] at this
  simp only [Option.map_some, Option.some.injEq] at this
  have : unitO x = some x := this
  unfold unitO at this
  split at this
  · cases this
  · rename_i h0
    have e2 := Rotation.len_eq_one (Rotation.unit_dot h0)
    rw [Option.some.inj this] at e2
    exact hl e2

/-! ### quaternions -/

namespace A2H

theorem norm_scale (q : Quat) (h : q.norm ≠ 0) : (q.scale (1 / q.norm)).norm = 1 := by
  unfold Rotation.Quat.norm at *
  simp only [Rotation.Quat.scale]
  have hp : 0 ≤ q.w ^ 2 + q.x ^ 2 + q.y ^ 2 + q.z ^ 2 := by positivity
  have e := Real.sq_sqrt hp
  generalize √(q.w ^ 2 + q.x ^ 2 + q.y ^ 2 + q.z ^ 2) = m at *
  rw [Real.sqrt_eq_one]
  field_simp
  linarith

theorem close_one : Rotation.isClose 1 1 := by norm_num [Rotation.isClose]

theorem renorm_idem (q : Quat) : renorm (renorm q) = renorm q := by
  unfold renorm
  by_cases h : Rotation.isClose q.norm 0 ∨ Rotation.isClose q.norm 1
  · rw [if_pos h, if_pos h]
  · rw [if_neg h]
    have h0 : q.norm ≠ 0 := by
      intro h0; apply h; left; rw [h0]; norm_num [Rotation.isClose]
    rw [if_pos (Or.inr (by rw [norm_scale q h0]; exact close_one))]

end A2H

/-- C204: the matrices of an array of quaternions, entry by entry; asked again, the changed array gives the same -/
theorem C204_quaternions (q : Stk Quat) (h : q.list ≠ []) :
    ∃ r, (quat2rot (.dbl q.single q.list)).2 = .ok r ∧ (IsOne r ↔ IsOne q) ∧ (∀ k x, Entry q k x → Entry r k (Rotation.quat2rot x)) ∧
      (quat2rot (quat2rot (.dbl q.single q.list)).1).2 = .ok r := by
  have hn : 0 < q.list.length := List.length_pos_iff.2 h
  obtain ⟨r, f1, f2, f3, f4, f5⟩ := RSt.close_spec q.single q.list.length ((q.list.map renorm).map rotOf) (Or.inr (by simp)) (by
    intro hs; obtain ⟨x, rfl⟩ := (RSt.single_iff q).1 hs; rfl)
  refine ⟨r, f1, by rw [f2, RSt.single_iff], ?_, ?_⟩
  · intro k x hx
    exact f5 k _ (Ang.has_map rotOf _ _ _ (Ang.has_map renorm _ _ _ (RSt.entry_has _ _ _ hx)))
  · show close q.single (((q.list.map renorm).map renorm).map rotOf) = .ok r
    have : (q.list.map renorm).map renorm = q.list.map renorm := by
      rw [List.map_map]; exact List.map_congr_left fun x _ => A2H.renorm_idem x
    rw [this]
    exact f1

/-- C204: quaternions whose norm is close to 0 or 1 are left as they are -/
theorem C204_quaternions_kept_partial (s : Bool) (l : List Quat) (h : ∀ q ∈ l, Rotation.isClose q.norm 0 ∨ Rotation.isClose q.norm 1) :
    (quat2rot (.dbl s l)).1 = .dbl s l := by
  show QArr.dbl s (l.map renorm) = _
  congr 1
  conv_rhs => rw [← List.map_id l]
  refine List.map_congr_left fun q hq => ?_
  unfold renorm
  rw [if_pos (h q hq)]
  rfl

/-- C204 is violated: `quat2rot` changes an array of doubles with any other quaternion -/
theorem C204_quaternions_violated (s : Bool) (l : List Quat) (q : Quat) (hq : q ∈ l) (h : ¬ (Rotation.isClose q.norm 0 ∨ Rotation.isClose q.norm 1)) :
    (quat2rot (.dbl s l)).1 ≠ .dbl s l := by
  intro e
  have e : l.map renorm = l := by
    have : QArr.dbl s (l.map renorm) = .dbl s l := e
    exact (QArr.dbl.inj this).2
  obtain ⟨k, hk, ek⟩ := List.mem_iff_getElem.1 hq
  have : (l.map renorm)[k]? = some q := by rw [e, List.getElem?_eq_getElem hk, ek]
  rw [List.getElem?_map, List.getElem?_eq_getElem hk, ek] at this
  have e2 : renorm q = q := by simpa using this
  unfold renorm at e2
  rw [if_neg h] at e2
  have h0 : q.norm ≠ 0 := by
    intro h0; apply h; left; rw [h0]; norm_num [Rotation.isClose]
  have := A2H.norm_scale q h0
  rw [e2] at this
  apply h
  right
  rw [this]
  exact A2H.close_one

namespace A2H

theorem viewed_small (k : Fin (2 ^ 52)) : 0 ≤ viewed k ∧ viewed k ≤ 1 / 10 ^ 9 := by
  unfold viewed
  have h1 : ((k : Nat) : ℝ) < 2 ^ 52 := by
    have := k.isLt
    exact_mod_cast this
  refine ⟨by positivity, ?_⟩
  rw [div_le_iff₀ (by positivity)]
  have : (2 : ℝ) ^ 1074 = 2 ^ 52 * 2 ^ 1022 := by rw [← pow_add]
  rw [this]
  have h2 : (2 : ℝ) ^ 30 ≤ 2 ^ 1022 := pow_le_pow_right₀ (by norm_num) (by norm_num)
  have h3 : (10 : ℝ) ^ 9 ≤ 2 ^ 1022 := le_trans (by norm_num) h2
  clear h2 this
  generalize (2 : ℝ) ^ 1022 = M at *
  rw [show (2 : ℝ) ^ 52 = 4503599627370496 by norm_num] at *
  rw [show (10 : ℝ) ^ 9 = 1000000000 by norm_num] at *
  linarith

end A2H

/-- C204 is violated: of a quaternion of integers (not negative, below 2^52), `quat2rot` is the identity but for 1e-8, whatever it is -/
theorem C204_integers_violated (q : Fin 4 → Fin (2 ^ 52)) (i j : Fin 3) :
    ∃ R, (quat2rot (.ints true [q])).2 = .ok (.one R) ∧ |R i j - (1 : M3) i j| ≤ 1 / 10 ^ 8 := by
  refine ⟨rotOf (renorm (viewedQ q)), rfl, ?_⟩
  obtain ⟨w0, w1⟩ := A2H.viewed_small (q 0)
  obtain ⟨x0, x1⟩ := A2H.viewed_small (q 1)
  obtain ⟨y0, y1⟩ := A2H.viewed_small (q 2)
  obtain ⟨z0, z1⟩ := A2H.viewed_small (q 3)
  have hr : renorm (viewedQ q) = viewedQ q := by
    unfold renorm
    rw [if_pos]
    left
    unfold Rotation.Quat.norm
    rw [isClose_zero (Real.sqrt_nonneg _)]
    rw [Real.sqrt_le_left (by positivity)]
    simp only [viewedQ]
    nlinarith
  rw [hr]
  simp only [viewedQ]
  generalize viewed (q 0) = w at *
  generalize viewed (q 1) = x at *
  generalize viewed (q 2) = y at *
  generalize viewed (q 3) = z at *
  rw [abs_le]
  fin_cases i <;> fin_cases j <;> simp [rotOf] <;> constructor <;> nlinarith

/-- half a turn around x given by integers -/
example : Rotation.quat2rot ⟨0, 1, 0, 0⟩ 1 1 = -1 := by
  unfold Rotation.quat2rot renorm
  rw [if_pos (Or.inr (by simp [Rotation.Quat.norm]; exact A2H.close_one))]
  norm_num [rotOf]

/-! ### examples -/

/-- two arrays, the first of doubles -/
example : Holds [⟨true, true, [some ![2, 0, 0]]⟩, ⟨false, false, [some ![0, 1, 0], some ![0, 0, 3]]⟩] 0 (.one ![2, 0, 0]) ∧
    Holds [⟨true, true, [some ![2, 0, 0]]⟩, ⟨false, false, [some ![0, 1, 0], some ![0, 0, 3]]⟩] 1 (.many [![0, 1, 0], ![0, 0, 3]]) :=
  ⟨⟨true, rfl⟩, ⟨false, rfl⟩⟩
example : len ![2, 0, 0] ≠ 1 := by
  simp only [len, Matrix.cons_val]
  rw [show ((2 : ℝ) ^ 2 + 0 ^ 2 + 0 ^ 2) = 2 ^ 2 by norm_num, Real.sqrt_sq (by norm_num)]
  norm_num
example : ¬ (Rotation.isClose (⟨2, 0, 0, 0⟩ : Quat).norm 0 ∨ Rotation.isClose (⟨2, 0, 0, 0⟩ : Quat).norm 1) := by
  have : (⟨2, 0, 0, 0⟩ : Quat).norm = 2 := by
    simp only [Rotation.Quat.norm]
    rw [show ((2 : ℝ) ^ 2 + 0 ^ 2 + 0 ^ 2 + 0 ^ 2) = 2 ^ 2 by norm_num, Real.sqrt_sq (by norm_num)]
  rw [this]
  norm_num [Rotation.isClose]

end Viscid.Props
