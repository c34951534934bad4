import Verif.Model.LazySlice
import Verif.Spec.LazySlice
import Verif.Props.FwdSlice
namespace Viscid.LazySlice
open Viscid.FwdSlice (Slc makeFwd fwdInt selected requested)
open Viscid.Spec.Slice
open Viscid.Spec.LazySlice
open Viscid.Layout (Arr)

theorem _root_.Viscid.Spec.LazySlice.Same.refl (a : Arr α) : Same a a := ⟨rfl, fun _ _ => rfl⟩
theorem _root_.Viscid.Spec.LazySlice.Same.symm {a b : Arr α} (h : Same a b) : Same b a := ⟨h.1.symm, fun idx hv => (h.2 idx (h.1 ▸ hv)).symm⟩
theorem _root_.Viscid.Spec.LazySlice.Same.trans {a b c : Arr α} (h : Same a b) (k : Same b c) : Same a c :=
  ⟨h.1.trans k.1, fun idx hv => (h.2 idx hv).trans (k.2 idx (h.1 ▸ hv))⟩

/-! ## Positions of slices -/

theorem mem_pyIndices (L : Nat) (a b : Option Int) (d : Int) (hd : d ≠ 0) (x : Int) (h : x ∈ pyIndices L a b d) :
    0 ≤ x ∧ x < L := by
  unfold pyIndices pyRange ap at h
  have hq : ∀ (lo hi v : Int), lo ≤ hi → lo ≤ 0 → (L : Int) - 1 ≤ hi → hi ≤ L → lo ≤ clampIdx L lo hi v ∧ clampIdx L lo hi v ≤ hi := by
    intro lo hi v _ _ _ _; unfold clampIdx; split <;> omega
  split at h
  · rename_i hp
    have ha : 0 ≤ a.elim 0 (clampIdx L 0 L) := by cases a with | none => simp | some v => exact (hq 0 L v (by omega) (by omega) (by omega) (by omega)).1
    have hb : b.elim (L : Int) (clampIdx L 0 L) ≤ L := by cases b with | none => simp | some v => exact (hq 0 L v (by omega) (by omega) (by omega) (by omega)).2
    generalize a.elim 0 (clampIdx L 0 L) = A at *
    generalize b.elim (L : Int) (clampIdx L 0 L) = B at *
    simp only [List.mem_map, List.mem_range] at h
    obtain ⟨k, hk, rfl⟩ := h
    unfold rangeLen at hk
    rw [if_pos hp] at hk
    split at hk
    · have h0 : 0 ≤ (B - A - 1) / d := Int.ediv_nonneg (by omega) (by omega)
      have hk' : (k : Int) ≤ (B - A - 1) / d := by omega
      have h1 : (k : Int) * d ≤ (B - A - 1) / d * d := Int.mul_le_mul_of_nonneg_right hk' (by omega)
      have h2 := Int.ediv_mul_le (B - A - 1) hd
      have h3 : 0 ≤ (k : Int) * d := Int.mul_nonneg (by omega) (by omega)
      omega
    · omega
  · have ha : a.elim ((L : Int) - 1) (clampIdx L (-1) (L - 1)) ≤ L - 1 := by cases a with | none => simp | some v => exact (hq (-1) (L - 1) v (by omega) (by omega) (by omega) (by omega)).2
    have hb : -1 ≤ b.elim (-1) (clampIdx L (-1) (L - 1)) := by cases b with | none => simp | some v => exact (hq (-1) (L - 1) v (by omega) (by omega) (by omega) (by omega)).1
    generalize a.elim ((L : Int) - 1) (clampIdx L (-1) (L - 1)) = A at *
    generalize b.elim (-1) (clampIdx L (-1) (L - 1)) = B at *
    simp only [List.mem_map, List.mem_range] at h
    obtain ⟨k, hk, rfl⟩ := h
    unfold rangeLen at hk
    rename_i hp
    rw [if_neg hp] at hk
    split at hk
    · have h0 : 0 ≤ (A - B - 1) / (-d) := Int.ediv_nonneg (by omega) (by omega)
      have hk' : (k : Int) ≤ (A - B - 1) / (-d) := by omega
      have h1 : (k : Int) * (-d) ≤ (A - B - 1) / (-d) * (-d) := Int.mul_le_mul_of_nonneg_right hk' (by omega)
      have h2 := Int.ediv_mul_le (A - B - 1) (show -d ≠ 0 by omega)
      have h3 : 0 ≤ (k : Int) * (-d) := Int.mul_nonneg (by omega) (by omega)
      rw [Int.mul_neg] at h1 h3
      omega
    · omega

theorem pyIndices_fwd (m : Nat) (b : Option Int) (hb : b = none ∨ ∃ v : Int, b = some v ∧ (m : Int) ≤ v) (a : Option Int)
    (ha : a = none ∨ a = some 0) : pyIndices m a b 1 = (List.range m).map fun k : Nat => (k : Int) := by
  have e1 : a.elim 0 (clampIdx m 0 m) = 0 := by
    rcases ha with rfl | rfl
    · rfl
    · simp only [Option.elim, clampIdx]; rw [if_neg (by omega)]; omega
  have e2 : b.elim (m : Int) (clampIdx m 0 m) = m := by
    rcases hb with rfl | ⟨v, rfl, hv⟩
    · rfl
    · simp only [Option.elim, clampIdx]; rw [if_neg (by omega)]; omega
  unfold pyIndices
  rw [if_pos (by omega), e1, e2]
  unfold pyRange ap rangeLen
  have : (if (1 : Int) > 0 then if (0 : Int) < m then (((m : Int) - 0 - 1) / 1 + 1).toNat else 0
      else if (m : Int) < 0 then ((0 - (m : Int) - 1) / (-1) + 1).toNat else 0) = m := by
    rw [if_pos (by omega)]
    split
    · rw [Int.ediv_one]; omega
    · omega
  rw [this]
  apply List.map_congr_left
  intro k _
  omega

theorem pyIndices_bwd (m : Nat) : pyIndices m none none (-1) = ((List.range m).map fun k : Nat => (k : Int)).reverse := by
  unfold pyIndices
  rw [if_neg (by omega)]
  have h1 : ((List.range m).map fun k : Nat => (k : Int)) = ap 0 1 m := by
    unfold ap
    apply List.map_congr_left
    intro k _
    omega
  rw [h1, FwdSlice.ap_reverse]
  unfold pyRange
  have : rangeLen ((m : Int) - 1) (-1) (-1) = m := by
    unfold rangeLen
    rw [if_neg (by omega)]
    split
    · rw [show (-(-1 : Int)) = 1 from rfl, Int.ediv_one]; omega
    · omega
  simp only [Option.elim]
  rw [this]
  congr 1
  omega

theorem toNat_cast (m : Nat) : ((List.range m).map fun k : Nat => (k : Int)).map Int.toNat = List.range m := by
  rw [List.map_map]
  conv => rhs; rw [← List.map_id (List.range m)]
  apply List.map_congr_left
  intro k _
  rfl

theorem range_getD (l : List Nat) : (List.range l.length).map (fun k => l.getD k 0) = l := by
  apply List.ext_getElem
  · simp
  · intro k h1 h2
    simp at h1
    simp [h1]

/-- The second slice -/
theorem axisSel_second (m : Nat) (flip : Bool) :
    axisSel m (.slc ⟨none, none, some (if flip then -1 else 1)⟩) =
      .ok (.many (if flip then (List.range m).reverse else List.range m)) := by
  unfold axisSel
  cases flip with
  | true =>
    simp only [if_true]
    rw [if_neg (by simp)]
    simp only [Option.getD_some, pyIndices_bwd, List.map_reverse, toNat_cast]
  | false =>
    simp only [Bool.false_eq_true, if_false]
    rw [if_neg (by simp)]
    simp only [Option.getD_some]
    rw [pyIndices_fwd m none (Or.inl rfl) none (Or.inl rfl), toNat_cast]

/-! ## Picking twice -/

/-- Picks inside a shape -/
def InRange : List Nat → List Sel → Prop
  | [], [] => True
  | n :: S, .one p :: ss => p < n ∧ InRange S ss
  | n :: S, .many l :: ss => (∀ p ∈ l, p < n) ∧ InRange S ss
  | _, _ => False

/-- Picks from picks -/
def comp : List Sel → List Sel → List Sel
  | [], _ => []
  | .one p :: ss, tt => .one p :: comp ss tt
  | .many l :: ss, .one i :: tt => .one (l.getD i 0) :: comp ss tt
  | .many l :: ss, .many m :: tt => .many (m.map fun i => l.getD i 0) :: comp ss tt
  | .many l :: ss, [] => .many l :: comp ss []

theorem comp_spec : ∀ (ss tt : List Sel), InRange (shapeOf ss) tt →
    shapeOf (comp ss tt) = shapeOf tt ∧ ∀ j, Valid (shapeOf tt) j → subst ss (subst tt j) = subst (comp ss tt) j
  | [], [], _ => by simp [comp, shapeOf, subst]
  | [], _ :: _, h => by simp [shapeOf, InRange] at h
  | .one p :: ss, tt, h => by
    have := comp_spec ss tt (by simpa [shapeOf] using h)
    refine ⟨by simpa [comp, shapeOf] using this.1, ?_⟩
    intro j hj
    simp only [comp, subst, this.2 j hj]
  | .many l :: ss, [], h => by simp [shapeOf, InRange] at h
  | .many l :: ss, .one i :: tt, h => by
    simp only [shapeOf, InRange] at h
    have := comp_spec ss tt h.2
    refine ⟨by simpa [comp, shapeOf] using this.1, ?_⟩
    intro j hj
    simp only [shapeOf] at hj
    simp only [comp, subst, List.headD_cons, List.tail_cons, this.2 j hj]
  | .many l :: ss, .many m :: tt, h => by
    simp only [shapeOf, InRange] at h
    have := comp_spec ss tt h.2
    refine ⟨by simpa [comp, shapeOf] using this.1, ?_⟩
    intro j hj
    cases j with
    | nil => simp [shapeOf, Valid] at hj
    | cons k j =>
      simp only [shapeOf, Valid] at hj
      simp only [comp, subst, List.headD_cons, List.tail_cons, this.2 j hj.2]
      congr 1
      simp [List.getD_eq_getElem?_getD, hj.1]

theorem gather_gather (a : Arr α) (ss tt : List Sel) (h : InRange (shapeOf ss) tt) :
    Same (gather (gather a ss) tt) (gather a (comp ss tt)) :=
  ⟨(comp_spec ss tt h).1.symm, fun j hj => by simp only [gather, (comp_spec ss tt h).2 j hj]⟩

theorem subst_valid : ∀ (S : List Nat) (ss : List Sel) (j : List Nat), InRange S ss → Valid (shapeOf ss) j → Valid S (subst ss j)
  | [], [], _, _, _ => trivial
  | [], _ :: _, _, h, _ => by simp [InRange] at h
  | _ :: _, [], _, h, _ => by simp [InRange] at h
  | n :: S, .one p :: ss, j, h, hj => ⟨h.1, subst_valid S ss j h.2 hj⟩
  | n :: S, .many l :: ss, j, h, hj => by
    cases j with
    | nil => simp [shapeOf, Valid] at hj
    | cons k j =>
      simp only [shapeOf, Valid] at hj
      refine ⟨h.1 _ ?_, subst_valid S ss j h.2 hj.2⟩
      simp [List.getD_eq_getElem?_getD, hj.1]

theorem gather_congr {a b : Arr α} (h : Same a b) (ss : List Sel) (hr : InRange a.shape ss) : Same (gather a ss) (gather b ss) :=
  ⟨rfl, fun j hj => h.2 _ (subst_valid _ ss j hr hj)⟩

theorem axisSel_range (L : Nat) (i : Idx) (s : Sel) (h : axisSel L i = .ok s) : InRange [L] [s] := by
  cases i with
  | int i =>
    simp only [axisSel] at h
    split at h
    · simp only [Except.ok.injEq] at h
      subst h
      refine ⟨?_, trivial⟩
      split <;> omega
    · simp at h
  | slc s' =>
    simp only [axisSel] at h
    split at h
    · simp at h
    · rename_i hs
      simp only [Except.ok.injEq] at h
      subst h
      refine ⟨?_, trivial⟩
      intro p hp
      simp only [List.mem_map] at hp
      obtain ⟨x, hx, rfl⟩ := hp
      have := mem_pyIndices L _ _ _ (by cases hst : s'.step with | none => simp | some v => rw [hst] at hs; simpa using hs) x hx
      omega

theorem sels_range : ∀ (S : List Nat) (I : List Idx) (ss : List Sel), sels S I = .ok ss → InRange S ss
  | [], [], ss, h => by simp only [sels, Except.ok.injEq] at h; subst h; trivial
  | [], _ :: _, _, h => by simp [sels] at h
  | L :: S, [], ss, h => by
    simp only [sels, bind, Except.bind] at h
    split at h
    · cases h
    · split at h
      · cases h
      · rename_i s hs _ r hr
        simp only [Except.ok.injEq] at h
        subst h
        have := axisSel_range _ _ _ hs
        have ih := sels_range S [] r hr
        cases s <;> exact ⟨this.1, ih⟩
  | L :: S, i :: I, ss, h => by
    simp only [sels, bind, Except.bind] at h
    split at h
    · cases h
    · split at h
      · cases h
      · rename_i s hs _ r hr
        simp only [Except.ok.injEq] at h
        subst h
        have := axisSel_range _ _ _ hs
        have ih := sels_range S I r hr
        cases s <;> exact ⟨this.1, ih⟩

/-! ## One row per axis -/

/-- An axis: its length, the requested entry, if it is reflected, the entry of the first and second slices, and what is
    picked in the end. -/
structure Row where
  L : Nat
  i : Idx
  rev : Bool
  a : Idx
  b : Option Bool
  s : Sel

/-- Picking from a reflected axis -/
def mir (L : Nat) (rev : Bool) : Sel → Sel
  | .one p => .one (if rev then L - 1 - p else p)
  | .many l => .many (l.map fun p => if rev then L - 1 - p else p)

/-- First and second slices pick `s`. -/
def Row.Lazy (r : Row) : Prop :=
  match r.b with
  | none => ∃ p, axisSel r.L r.a = .ok (.one p) ∧ r.s = .one p
  | some flip => ∃ l, axisSel r.L r.a = .ok (.many l) ∧ r.s = .many (if flip then l.reverse else l)

/-- The requested entry picks `s` from the reflected axis. -/
def Row.Eager (r : Row) : Prop := ∃ t, axisSel r.L r.i = .ok t ∧ r.s = mir r.L r.rev t

theorem sels_rows (rows : List Row) (g : Row → Idx) (t : Row → Sel) (h : ∀ r ∈ rows, axisSel r.L (g r) = .ok (t r)) :
    sels (rows.map Row.L) (rows.map g) = .ok (rows.map t) := by
  induction rows with
  | nil => rfl
  | cons r rows ih =>
    simp only [List.map_cons, sels, h r (by simp), ih (fun r hr => h r (by simp [hr])), bind, Except.bind]

theorem sels_rows_ok (rows : List Row) (g : Row → Idx) (ss : List Sel) (h : sels (rows.map Row.L) (rows.map g) = .ok ss) :
    ∀ r ∈ rows, ∃ t, axisSel r.L (g r) = .ok t := by
  induction rows generalizing ss with
  | nil => simp
  | cons r rows ih =>
    simp only [List.map_cons, sels, bind, Except.bind] at h
    cases ha : axisSel r.L (g r) with
    | error e => simp [ha] at h
    | ok t =>
      cases hs : sels (rows.map Row.L) (rows.map g) with
      | error e => simp [ha, hs] at h
      | ok tt =>
        intro q hq
        rcases List.mem_cons.mp hq with rfl | hq
        · exact ⟨t, ha⟩
        · exact ih tt hs q hq

/-- What the first slice picks -/
def Row.s0 (r : Row) : Sel :=
  match axisSel r.L r.a with
  | .ok s => s
  | .error _ => .many []

theorem Row.Lazy.ok {r : Row} (h : r.Lazy) : axisSel r.L r.a = .ok r.s0 := by
  unfold Row.Lazy at h
  unfold Row.s0
  split at h <;> (obtain ⟨_, h, _⟩ := h; rw [h])

/-- What the second slice picks -/
def tt (rows : List Row) : List Sel :=
  rows.filterMap fun r => match r.b, r.s0 with
    | some flip, .many l => some (.many (if flip then (List.range l.length).reverse else List.range l.length))
    | _, _ => none

theorem second_rows (rows : List Row) (h : ∀ r ∈ rows, r.Lazy) :
    sels (shapeOf (rows.map Row.s0)) ((rows.map Row.b).filterMap second) = .ok (tt rows) ∧
    comp (rows.map Row.s0) (tt rows) = rows.map Row.s := by
  induction rows with
  | nil => exact ⟨rfl, rfl⟩
  | cons r rows ih =>
    obtain ⟨i1, i2⟩ := ih (fun r hr => h r (by simp [hr]))
    have hr := h r (by simp)
    have hok := hr.ok
    unfold Row.Lazy at hr
    cases hb : r.b with
    | none =>
      rw [hb] at hr
      obtain ⟨p, h1, h2⟩ := hr
      rw [h1] at hok
      simp only [Except.ok.injEq] at hok
      simp only [List.map_cons, ← hok, shapeOf, hb, second, List.filterMap_cons, tt, comp, h2]
      exact ⟨i1, by rw [← i2]; rfl⟩
    | some flip =>
      rw [hb] at hr
      obtain ⟨l, h1, h2⟩ := hr
      rw [h1] at hok
      simp only [Except.ok.injEq] at hok
      simp only [List.map_cons, ← hok, shapeOf, hb, second, List.filterMap_cons, tt, comp, h2, sels, axisSel_second, bind,
        Except.bind]
      unfold tt at i1 i2
      simp only [i1, i2, true_and]
      congr 2
      cases flip with
      | true => simp only [if_true, List.map_reverse, range_getD]
      | false => simp only [Bool.false_eq_true, if_false, range_getD]

/-- Reading by first and second slices -/
theorem lazy_rows (src : Arr α) (rows : List Row) (h : ∀ r ∈ rows, r.Lazy) (hs : src.shape = rows.map Row.L) :
    index src (rows.map Row.a) = .ok (gather src (rows.map Row.s0)) ∧
    index (gather src (rows.map Row.s0)) ((rows.map Row.b).filterMap second) = .ok (gather (gather src (rows.map Row.s0)) (tt rows)) ∧
    Same (gather (gather src (rows.map Row.s0)) (tt rows)) (gather src (rows.map Row.s)) := by
  have h1 := sels_rows rows Row.a Row.s0 (fun r hr => (h r hr).ok)
  obtain ⟨h2, h3⟩ := second_rows rows h
  refine ⟨?_, ?_, ?_⟩
  · simp only [index, hs, h1, bind, Except.bind]
  · simp only [index, gather, h2, bind, Except.bind]
  · rw [← h3]
    exact gather_gather _ _ _ (sels_range _ _ _ h2)

/-! ## The axes of `make_fwd_slice` -/

/-- What the requested entry picks -/
def Row.t (r : Row) : Sel :=
  match axisSel r.L r.i with
  | .ok s => s
  | .error _ => .many []

/-- A row made by `make_fwd_slice` -/
def Row.Made (r : Row) : Prop := fwdAxis r.L r.i r.rev = .ok (r.a, r.b) ∧ r.s = mir r.L r.rev r.t

theorem fwd_rows : ∀ (S : List Nat) (I : List Idx) (R : List Bool) (xs : List (Idx × Option Bool)),
    I.length = S.length → R.length = S.length → fwd S I R = .ok xs →
    ∃ rows : List Row, rows.map Row.L = S ∧ rows.map Row.i = I ∧ rows.map Row.rev = R ∧
      rows.map (fun r => (r.a, r.b)) = xs ∧ ∀ r ∈ rows, r.Made
  | [], I, R, xs, hI, hR, h => by
    have hI := List.length_eq_zero_iff.mp hI
    have hR := List.length_eq_zero_iff.mp hR
    subst hI hR
    simp only [fwd, List.map_nil, Except.ok.injEq] at h
    subst h
    exact ⟨[], rfl, rfl, rfl, rfl, by simp⟩
  | L :: S, [], R, xs, hI, hR, h => by simp at hI
  | L :: S, _ :: _, [], xs, hI, hR, h => by simp at hR
  | L :: S, i :: I, v :: R, xs, hI, hR, h => by
    simp only [fwd, List.headD_cons, List.tail_cons, bind, Except.bind] at h
    cases hx : fwdAxis L i v with
    | error e => simp [hx] at h
    | ok x =>
      cases hr : fwd S I R with
      | error e => simp [hx, hr] at h
      | ok r =>
        simp only [hx, hr, Except.ok.injEq] at h
        obtain ⟨rows, h1, h2, h3, h4, h5⟩ := fwd_rows S I R r (by simpa using hI) (by simpa using hR) hr
        let r0 : Row := ⟨L, i, v, x.1, x.2, mir L v (Row.t ⟨L, i, v, x.1, x.2, .many []⟩)⟩
        refine ⟨r0 :: rows, by simp [r0, h1], by simp [r0, h2], by simp [r0, h3], by simp [r0, h4, h], ?_⟩
        intro q hq
        rcases List.mem_cons.mp hq with rfl | hq
        · exact ⟨hx, rfl⟩
        · exact h5 q hq

/-- Entries for which C14 holds: on an axis of length `L` that is not reflected no slice with explicit start `L` and a step
    of at most -2, on a reflected one no index at or past the end. -/
def Good (L : Nat) (rev : Bool) : Idx → Prop
  | .int i => rev = true → i < L
  | .slc s => ¬ (rev = false ∧ s.start = some (L : Int) ∧ s.step.getD 1 ≤ -2)

theorem made_lazy (r : Row) (h : r.Made) (hg : Good r.L r.rev r.i) (hok : ∃ t, axisSel r.L r.a = .ok t) :
    r.Lazy ∧ axisSel r.L r.i = .ok r.t := by
  obtain ⟨h1, h2⟩ := h
  obtain ⟨t, ht⟩ := hok
  unfold fwdAxis at h1
  cases hi : r.i with
  | int i =>
    rw [hi] at h1 hg
    simp only [Except.ok.injEq, Prod.mk.injEq] at h1
    obtain ⟨ha, hb⟩ := h1
    rw [← ha] at ht
    simp only [axisSel] at ht
    split at ht
    · rename_i hr
      unfold fwdInt at hr
      have hax : axisSel r.L r.i = .ok (.one (if i < 0 then i + r.L else i).toNat) := by
        rw [hi]
        simp only [axisSel]
        rw [if_pos]
        cases hv : r.rev with
        | true => have := hg hv; rw [hv] at hr; simp only [if_true] at hr; omega
        | false => rw [hv] at hr; simpa using hr
      have het : r.t = .one (if i < 0 then i + r.L else i).toNat := by unfold Row.t; rw [hax]
      refine ⟨?_, by rw [← hi, hax, het]⟩
      unfold Row.Lazy
      rw [← hb]
      refine ⟨(if fwdInt r.L i r.rev < 0 then fwdInt r.L i r.rev + r.L else fwdInt r.L i r.rev).toNat, ?_, ?_⟩
      · rw [← ha]
        simp only [axisSel]
        exact if_pos (by unfold fwdInt; exact hr)
      · rw [h2, het]
        unfold mir fwdInt
        cases hv : r.rev with
        | true =>
          have := hg hv
          rw [hv] at hr
          simp only [if_true] at hr ⊢
          rw [if_neg (by omega), if_neg (by omega)]
          congr 1
          omega
        | false => simp only [Bool.false_eq_true, if_false]
    · cases ht
  | slc s =>
    rw [hi] at h1 hg
    dsimp only at h1
    cases hm : makeFwd r.L s r.rev with
    | error e => simp [hm] at h1
    | ok p =>
      obtain ⟨first, flip⟩ := p
      simp only [hm, Except.ok.injEq, Prod.mk.injEq] at h1
      obtain ⟨ha, hb⟩ := h1
      obtain ⟨g1, g2⟩ := FwdSlice.C14_sound_partial r.L (by omega) s r.rev first flip hm hg
      have hs0 : s.step ≠ some 0 := by
        intro e
        obtain ⟨_, _, start, stop, step, fl, hf, hfin⟩ := FwdSlice.makeFwd_ok r.L s r.rev first flip hm
        rw [e] at hf
        unfold FwdSlice.flipMath at hf
        cases hv : r.rev with
        | true => simp [hv] at hf
        | false =>
          simp only [hv, Option.getD_some, Bool.false_eq_true, if_false, Int.lt_irrefl, Except.ok.injEq, Prod.mk.injEq] at hf
          obtain ⟨_, _, rfl, _⟩ := hf
          have := FwdSlice.finish_ok _ _ _ _ _ _ _ hfin
          omega
      have hax : axisSel r.L r.i = .ok (.many ((pyIndices r.L s.start s.stop (s.step.getD 1)).map Int.toNat)) := by
        rw [hi]; simp only [axisSel]; exact if_neg hs0
      have het : r.t = .many ((pyIndices r.L s.start s.stop (s.step.getD 1)).map Int.toNat) := by unfold Row.t; rw [hax]
      refine ⟨?_, by rw [← hi, hax, het]⟩
      unfold Row.Lazy
      rw [← hb]
      refine ⟨(pyIndices r.L first.start first.stop (first.step.getD 1)).map Int.toNat, ?_, ?_⟩
      · rw [← ha]
        simp only [axisSel]
        rw [if_neg]
        intro e
        rw [e] at g1
        simp at g1
      · rw [h2, het]
        unfold mir
        unfold selected requested at g2
        have : (if flip = true then ((pyIndices r.L first.start first.stop (first.step.getD 1)).map Int.toNat).reverse
            else (pyIndices r.L first.start first.stop (first.step.getD 1)).map Int.toNat) =
            (if flip = true then (pyIndices r.L first.start first.stop (first.step.getD 1)).reverse
            else pyIndices r.L first.start first.stop (first.step.getD 1)).map Int.toNat := by
          cases flip <;> simp
        rw [this]
        dsimp only at g2
        rw [g2]
        cases hv : r.rev with
        | true =>
          simp only [if_true, List.map_map]
          congr 1
          apply List.map_congr_left
          intro x hx
          have hst : s.step.getD 1 ≠ 0 := by
            cases hst : s.step with
            | none => simp
            | some v => rw [hst] at hs0; simpa using hs0
          have := mem_pyIndices r.L _ _ _ hst x hx
          simp only [Function.comp]
          omega
        | false => simp only [Bool.false_eq_true, if_false, List.map_map]; rfl

/-! ## Reflecting the whole array -/

theorem makeFwd_full (L : Nat) (rev : Bool) : makeFwd L ⟨none, none, none⟩ rev = .ok (⟨some 0, some L, some 1⟩, rev) := by
  unfold makeFwd FwdSlice.norm
  simp only [Option.getD_none]
  rw [if_neg (show ¬ (0 : Int) < 0 by omega), if_neg (show ¬ (L : Int) < 0 by omega), if_neg (by omega), if_neg (by omega)]
  cases rev with
  | true =>
    simp only [FwdSlice.flipMath, if_true]
    rw [if_neg (by omega), if_neg (by omega)]
    simp only [Int.emod_one, Int.add_zero, Int.sub_self, Int.sub_zero]
    unfold FwdSlice.finish
    rw [if_neg (by omega), if_neg (by simp), if_neg (by omega)]
  | false =>
    simp only [FwdSlice.flipMath, Bool.false_eq_true, if_false]
    rw [if_neg (by omega)]
    dsimp only
    unfold FwdSlice.finish
    rw [if_neg (by omega), if_neg (by simp), if_neg (by omega)]

/-- At least as long along every axis -/
def Le : List Nat → List Nat → Prop
  | [], [] => True
  | a :: s, b :: t => a ≤ b ∧ Le s t
  | _, _ => False

theorem Le.refl : ∀ s, Le s s
  | [] => trivial
  | _ :: s => ⟨Nat.le_refl _, Le.refl s⟩

def revRange (L : Nat) (rev : Bool) : List Nat := if rev then (List.range L).reverse else List.range L

theorem reflect_rows : ∀ (S S' : List Nat) (R : List Bool), Le S S' → R.length = S.length →
    ∃ xs, fwd S' [] R = .ok xs ∧ ∃ rows : List Row, rows.map Row.L = S ∧ rows.map Row.a = xs.map (·.1) ∧
      rows.map Row.b = xs.map (·.2) ∧ (∀ r ∈ rows, r.Lazy) ∧
      rows.map Row.s = List.zipWith (fun L v => Sel.many (revRange L v)) S R
  | [], [], R, _, hR => by
    have hR := List.length_eq_zero_iff.mp hR
    subst hR
    exact ⟨[], rfl, [], rfl, rfl, rfl, by simp, rfl⟩
  | [], _ :: _, _, h, _ => by simp [Le] at h
  | _ :: _, [], _, h, _ => by simp [Le] at h
  | _ :: _, _ :: _, [], _, h => by simp at h
  | L :: S, L' :: S', v :: R, hle, hR => by
    obtain ⟨xs, h1, rows, h2, h3, h4, h5, h6⟩ := reflect_rows S S' R hle.2 (by simpa using hR)
    refine ⟨(.slc ⟨some 0, some L', some 1⟩, some v) :: xs, ?_,
      ⟨L, full, v, .slc ⟨some 0, some L', some 1⟩, some v, .many (revRange L v)⟩ :: rows, by simp [h2], by simp [h3],
      by simp [h4], ?_, by simp [h6]⟩
    · simp only [fwd, List.headD_nil, List.headD_cons, List.tail_nil, List.tail_cons, fwdAxis, full, makeFwd_full, h1, bind,
        Except.bind]
    · intro q hq
      rcases List.mem_cons.mp hq with rfl | hq
      · unfold Row.Lazy
        refine ⟨List.range L, ?_, rfl⟩
        simp only [axisSel]
        rw [if_neg (by simp)]
        simp only [Option.getD_some]
        rw [pyIndices_fwd L (some (L' : Int)) (Or.inr ⟨L', rfl, by have := hle.1; omega⟩) (some 0) (Or.inr rfl), toNat_cast]
      · exact h5 q hq

theorem revRange_getD (L : Nat) (v : Bool) (p : Nat) (h : p < L) : (revRange L v).getD p 0 = if v then L - 1 - p else p := by
  unfold revRange
  cases v with
  | true => simp [List.getD_eq_getElem?_getD, h]
  | false => simp [List.getD_eq_getElem?_getD, h]

theorem shapeOf_many (rows : List Row) : shapeOf (rows.map fun r => Sel.many (revRange r.L r.rev)) = rows.map Row.L := by
  induction rows with
  | nil => rfl
  | cons r rows ih =>
    simp only [List.map_cons, shapeOf, ih]
    congr 1
    unfold revRange
    split <;> simp

theorem comp_mir (rows : List Row) (t : Row → Sel) (h : ∀ r ∈ rows, InRange [r.L] [t r]) :
    comp (rows.map fun r => Sel.many (revRange r.L r.rev)) (rows.map t) = rows.map fun r => mir r.L r.rev (t r) := by
  induction rows with
  | nil => rfl
  | cons r rows ih =>
    have hr := h r (by simp)
    have ih := ih (fun r hr => h r (by simp [hr]))
    simp only [List.map_cons]
    cases ht : t r with
    | one p =>
      rw [ht] at hr
      simp only [comp, ih, mir, revRange_getD r.L r.rev p hr.1]
    | many l =>
      rw [ht] at hr
      simp only [comp, ih, mir]
      congr 2
      apply List.map_congr_left
      intro p hp
      exact revRange_getD r.L r.rev p (hr.1 p hp)

/-- Slicing the reflected array -/
theorem eager_rows (x d : Arr α) (rows : List Row)
    (hd : Same d (gather x (rows.map fun r => Sel.many (revRange r.L r.rev))))
    (h : ∀ r ∈ rows, axisSel r.L r.i = .ok r.t ∧ r.s = mir r.L r.rev r.t) :
    ∃ y, index d (rows.map Row.i) = .ok y ∧ Same y (gather x (rows.map Row.s)) := by
  have hshape : d.shape = rows.map Row.L := by rw [hd.1]; exact shapeOf_many rows
  have h1 := sels_rows rows Row.i Row.t (fun r hr => (h r hr).1)
  refine ⟨gather d (rows.map Row.t), by simp only [index, hshape, h1, bind, Except.bind], ?_⟩
  have hr := sels_range _ _ _ h1
  refine (gather_congr hd _ (by rw [hshape]; exact hr)).trans ?_
  refine (gather_gather x _ _ (by rw [shapeOf_many]; exact hr)).trans ?_
  rw [comp_mir rows Row.t (fun r hr => axisSel_range _ _ _ (h r hr).1)]
  have : (rows.map fun r => mir r.L r.rev r.t) = rows.map Row.s :=
    List.map_congr_left fun r hr => (h r hr).2.symm
  rw [this]
  exact Same.refl _

/-! ## Transposing -/

theorem _root_.Viscid.Spec.LazySlice.Valid.length : ∀ {S j : List Nat}, Valid S j → j.length = S.length
  | [], [], _ => rfl
  | [], _ :: _, h => by simp [Valid] at h
  | _ :: _, [], h => by simp [Valid] at h
  | _ :: S, _ :: j, h => by simp [Viscid.Spec.LazySlice.Valid.length h.2]

theorem shapeOf_append (ss tt : List Sel) : shapeOf (ss ++ tt) = shapeOf ss ++ shapeOf tt := by
  induction ss with
  | nil => rfl
  | cons s ss ih => cases s <;> simp [shapeOf, ih]

theorem shapeOf_reverse (ss : List Sel) : shapeOf ss.reverse = (shapeOf ss).reverse := by
  induction ss with
  | nil => rfl
  | cons s ss ih => rw [List.reverse_cons, shapeOf_append, ih]; cases s <;> simp [shapeOf]

theorem subst_append : ∀ (ss tt : List Sel) (j k : List Nat), j.length = (shapeOf ss).length →
    subst (ss ++ tt) (j ++ k) = subst ss j ++ subst tt k
  | [], tt, j, k, h => by
    have := List.length_eq_zero_iff.mp h
    subst this
    rfl
  | .one p :: ss, tt, j, k, h => by simp only [List.cons_append, subst, subst_append ss tt j k h]
  | .many l :: ss, tt, [], k, h => by simp [shapeOf] at h
  | .many l :: ss, tt, i :: j, k, h => by
    simp only [List.cons_append, subst, List.headD_cons, List.tail_cons]
    rw [subst_append ss tt j k (by simpa [shapeOf] using h)]

theorem subst_length : ∀ (ss : List Sel) (j : List Nat), (subst ss j).length = ss.length
  | [], _ => rfl
  | .one _ :: ss, j => by simp [subst, subst_length ss j]
  | .many _ :: ss, j => by simp [subst, subst_length ss j.tail]

theorem subst_reverse : ∀ (ss : List Sel) (j : List Nat), j.length = (shapeOf ss).length →
    subst ss.reverse j.reverse = (subst ss j).reverse
  | [], j, _ => rfl
  | .one p :: ss, j, h => by
    simp only [shapeOf] at h
    have := subst_append ss.reverse [.one p] j.reverse [] (by rw [shapeOf_reverse]; simpa using h)
    simp only [List.append_nil] at this
    rw [List.reverse_cons, this, subst_reverse ss j h]
    simp [subst]
  | .many l :: ss, [], h => by simp [shapeOf] at h
  | .many l :: ss, i :: j, h => by
    have h' : j.length = (shapeOf ss).length := by simpa [shapeOf] using h
    rw [List.reverse_cons, List.reverse_cons, subst_append _ _ _ _ (by rw [shapeOf_reverse]; simpa using h'), subst_reverse ss j h']
    simp [subst]

theorem gather_revAll (src : Arr α) (ss : List Sel) : Same (revAll (gather src ss.reverse)) (gather (revAll src) ss) := by
  refine ⟨by simp [revAll, gather, shapeOf_reverse], ?_⟩
  intro j hj
  have hl := hj.length
  simp only [revAll, gather, shapeOf_reverse, List.reverse_reverse] at hl ⊢
  rw [subst_reverse ss j hl]

theorem gather_revTail_int (src : Arr α) (p : Nat) (ss : List Sel) :
    Same (revAll (gather src (.one p :: ss.reverse))) (gather (revTail src) (.one p :: ss)) := by
  refine ⟨by simp [revAll, gather, shapeOf, shapeOf_reverse], ?_⟩
  intro j hj
  have hl := hj.length
  simp only [revAll, gather, shapeOf, shapeOf_reverse, List.reverse_reverse] at hl
  simp only [revAll, revTail, gather, subst, subst_reverse ss j hl]
  simp

theorem gather_revTail (src : Arr α) (l : List Nat) (ss : List Sel) :
    Same (revTail (gather src (.many l :: ss.reverse))) (gather (revTail src) (.many l :: ss)) := by
  refine ⟨by simp [revTail, gather, shapeOf, shapeOf_reverse], ?_⟩
  intro j hj
  have hl := hj.length
  cases j with
  | nil => simp [revTail, gather, shapeOf] at hl
  | cons i j =>
    have hl : j.length = (shapeOf ss).length := by simpa [revTail, gather, shapeOf, shapeOf_reverse] using hl
    simp only [revTail, gather, subst, List.take_succ_cons, List.take_zero, List.drop_succ_cons, List.drop_zero,
      List.cons_append, List.nil_append, List.headD_cons, List.tail_cons, subst_reverse ss j hl]

theorem gather_revInit_int (src : Arr α) (p : Nat) (ss : List Sel) :
    Same (revAll (gather src (ss.reverse ++ [.one p]))) (gather (revInit src) (ss ++ [.one p])) := by
  refine ⟨by simp [revAll, gather, shapeOf_append, shapeOf, shapeOf_reverse], ?_⟩
  intro j hj
  have hl := hj.length
  have hl : j.length = (shapeOf ss).length := by simpa [revAll, gather, shapeOf_append, shapeOf, shapeOf_reverse] using hl
  have e1 := subst_append ss.reverse [.one p] j.reverse [] (by rw [shapeOf_reverse]; simpa using hl)
  have e2 := subst_append ss [.one p] j [] hl
  simp only [List.append_nil] at e1 e2
  simp only [revAll, revInit, gather, e1, e2, subst_reverse ss j hl, subst]
  simp

theorem gather_revInit (src : Arr α) (l : List Nat) (ss : List Sel) :
    Same (revInit (gather src (ss.reverse ++ [.many l]))) (gather (revInit src) (ss ++ [.many l])) := by
  refine ⟨by simp [revInit, gather, shapeOf_append, shapeOf, shapeOf_reverse], ?_⟩
  intro j hj
  have hl := hj.length
  have hl : j.length = (shapeOf ss).length + 1 := by
    simpa [revInit, gather, shapeOf_append, shapeOf, shapeOf_reverse] using hl
  obtain ⟨j, i, rfl⟩ : ∃ j' i, j = j' ++ [i] := by
    refine ⟨j.dropLast, j.getLast (by intro e; rw [e] at hl; simp at hl), ?_⟩
    exact (List.dropLast_concat_getLast _).symm
  have hl : j.length = (shapeOf ss).length := by simpa using hl
  have e1 := subst_append ss.reverse [.many l] j.reverse [i] (by rw [shapeOf_reverse]; simpa using hl)
  have e2 := subst_append ss [.many l] j [i] hl
  simp only [revInit, gather]
  simp only [List.dropLast_concat, List.length_append, List.length_cons, List.length_nil, Nat.zero_add,
    Nat.add_sub_cancel, List.drop_left, e1, e2, subst_reverse ss j hl, subst]

theorem valid_append : ∀ (S T j k : List Nat), j.length = S.length → (Valid (S ++ T) (j ++ k) ↔ Valid S j ∧ Valid T k)
  | [], T, [], k, _ => by simp [Valid]
  | [], _, _ :: _, _, h => by simp at h
  | _ :: _, _, [], _, h => by simp at h
  | n :: S, T, i :: j, k, h => by
    simp only [List.cons_append, Valid, valid_append S T j k (by simpa using h), and_assoc]

theorem valid_reverse : ∀ (S j : List Nat), Valid S j → Valid S.reverse j.reverse
  | [], [], _ => trivial
  | [], _ :: _, h => by simp [Valid] at h
  | _ :: _, [], h => by simp [Valid] at h
  | n :: S, i :: j, h => by
    rw [List.reverse_cons, List.reverse_cons, valid_append _ _ _ _ (by simp [h.2.length])]
    exact ⟨valid_reverse S j h.2, h.1, trivial⟩

theorem revAll_congr {a b : Arr α} (h : Same a b) : Same (revAll a) (revAll b) := by
  refine ⟨by simp only [revAll, h.1], ?_⟩
  intro j hj
  have := valid_reverse _ _ hj
  simp only [revAll, List.reverse_reverse] at this
  exact h.2 _ this

theorem revTail_congr {a b : Arr α} (h : Same a b) : Same (revTail a) (revTail b) := by
  refine ⟨by simp only [revTail, h.1], ?_⟩
  intro j hj
  refine h.2 _ ?_
  simp only [revTail] at hj
  cases hs : a.shape with
  | nil =>
    rw [hs] at hj
    cases j with
    | nil => exact hj
    | cons => simp [Valid] at hj
  | cons n S =>
    rw [hs] at hj
    cases j with
    | nil => simp [Valid] at hj
    | cons i j =>
      simp only [List.take_succ_cons, List.take_zero, List.drop_succ_cons, List.drop_zero, List.cons_append, List.nil_append,
        Valid] at hj ⊢
      refine ⟨hj.1, ?_⟩
      have := valid_reverse _ _ hj.2
      simpa using this

theorem revInit_congr {a b : Arr α} (h : Same a b) (hne : a.shape ≠ []) : Same (revInit a) (revInit b) := by
  refine ⟨by simp only [revInit, h.1], ?_⟩
  intro j hj
  refine h.2 _ ?_
  simp only [revInit] at hj
  obtain ⟨S, n, hs⟩ : ∃ S n, a.shape = S ++ [n] := ⟨_, _, (List.dropLast_concat_getLast hne).symm⟩
  rw [hs] at hj
  have hl := hj.length
  simp only [List.dropLast_concat, List.length_append, List.length_cons, List.length_nil, Nat.zero_add, Nat.add_sub_cancel,
    List.drop_left] at hj hl
  obtain ⟨j, i, rfl⟩ : ∃ j' i, j = j' ++ [i] := by
    refine ⟨j.dropLast, j.getLast (by intro e; rw [e] at hl; simp at hl), ?_⟩
    exact (List.dropLast_concat_getLast _).symm
  simp only [List.length_append, List.length_reverse, List.length_cons, List.length_nil] at hl
  rw [valid_append _ _ _ _ (by simp; omega)] at hj
  rw [hs]
  simp only [List.dropLast_concat, List.length_append, List.length_cons, List.length_nil, Nat.zero_add, Nat.add_sub_cancel,
    List.drop_left]
  rw [valid_append _ _ _ _ (by simp; omega)]
  refine ⟨?_, hj.2⟩
  have := valid_reverse _ _ hj.1
  simpa using this

end Viscid.LazySlice
