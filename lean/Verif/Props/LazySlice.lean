import Verif.Lemmas.LazySlice
import Mathlib.Tactic.Tauto
/-!
# C96: slicing before and after loading
-/
namespace Viscid.Props
open Viscid.LazySlice
open Viscid.FwdSlice (Slc)
open Viscid.Spec.LazySlice
open Viscid.Layout (Arr)

/-- A field as the readers make it: the data set has the field's shape (in the order it is stored), every axis is reflected or
    not, there are at most as many cells as nodes. -/
structure WF (f : Fld α) : Prop where
  src : f.src.shape = f.nativeShape
  rev : f.reflect.length = f.sshape.length
  cells : Le f.cc f.nc

/-- The row of the component -/
def cmpRow (n : Nat) (c : Idx) : Row :=
  ⟨n, c, false, c, if c.isInt then none else some false, match axisSel n c with | .ok s => s | .error _ => .many []⟩

theorem cmp_lazy (n : Nat) (c : Idx) (t : Sel) (h : axisSel n c = .ok t) : (cmpRow n c).Lazy ∧
    axisSel n c = .ok (cmpRow n c).t ∧ (cmpRow n c).s = mir n false (cmpRow n c).t ∧
    (c.isInt = true → ∃ p, (cmpRow n c).s = .one p) ∧ (c.isInt = false → ∃ l, (cmpRow n c).s = .many l) := by
  have hs : (cmpRow n c).s = t := by simp only [cmpRow, h]
  have ht : (cmpRow n c).t = t := by simp only [Row.t, cmpRow, h]
  have hm : mir n false t = t := by cases t <;> simp [mir]
  rw [ht, hs, hm]
  cases c with
  | int i =>
    have h' := h
    simp only [axisSel] at h'
    split at h'
    · simp only [Except.ok.injEq] at h'
      refine ⟨?_, h, rfl, fun _ => ⟨_, h'.symm⟩, by simp [Idx.isInt]⟩
      exact ⟨_, h.trans (congrArg _ h'.symm), by rw [hs, ← h']⟩
    · cases h'
  | slc sl =>
    have h' := h
    simp only [axisSel] at h'
    split at h'
    · cases h'
    · simp only [Except.ok.injEq] at h'
      refine ⟨?_, h, rfl, by simp [Idx.isInt], fun _ => ⟨_, h'.symm⟩⟩
      exact ⟨_, h.trans (congrArg _ h'.symm), by rw [hs, ← h']; rfl⟩

theorem reshape_self (a : Arr α) (s : List Nat) (h : a.shape = s) : Layout.reshape a s = .ok a := by
  unfold Layout.reshape; rw [if_pos h]

theorem le_put (b : Bool) (n : Nat) : ∀ (s t : List Nat), Le s t → Le (put b n s) (put b n t) := by
  cases b with
  | true => intro s t h; exact ⟨Nat.le_refl _, h⟩
  | false =>
    intro s
    induction s with
    | nil =>
      intro t h
      cases t with
      | nil => exact ⟨Nat.le_refl _, trivial⟩
      | cons => simp [Le] at h
    | cons a s ih =>
      intro t h
      cases t with
      | nil => simp [Le] at h
      | cons b t => exact ⟨h.1, ih t h.2⟩

/-- The xyz ordered source -/
def xyzOf (f : Fld α) : Arr α :=
  if f.zyx then match f.comps with
    | none => revAll f.src
    | some (true, _) => revTail f.src
    | some (false, _) => revInit f.src
  else f.src

theorem xyz_ok (f : Fld α) (hf : WF f) : f.xyz = .ok (xyzOf f) ∧ (xyzOf f).shape = f.shape := by
  have hs := hf.src
  unfold Fld.nativeShape Fld.withComp at hs
  unfold Fld.xyz xyzOf Fld.shape Fld.withComp
  cases hz : f.zyx with
  | false =>
    rw [hz] at hs
    simp only [Bool.false_eq_true, if_false] at hs ⊢
    exact ⟨trivial, hs⟩
  | true =>
    rw [hz] at hs
    simp only [if_true] at hs ⊢
    cases hc : f.comps with
    | none =>
      rw [hc] at hs
      refine ⟨rfl, ?_⟩
      dsimp only at hs ⊢
      simp [revAll, hs]
    | some p =>
      obtain ⟨b, n⟩ := p
      rw [hc] at hs
      dsimp only at hs ⊢
      cases b with
      | true =>
        refine ⟨rfl, ?_⟩
        simp only [put, if_true, id] at hs ⊢
        simp [revTail, hs]
      | false =>
        simp only [put, Bool.false_eq_true, if_false, id] at hs ⊢
        constructor
        · rw [if_pos (by rw [hs]; simp)]
        · simp [revInit, hs]

/-- Loading reflects the stored array. -/
theorem data_ok (f : Fld α) (hf : WF f) : ∃ d, f.data = .ok d ∧
    Same d (gather (xyzOf f) (List.zipWith (fun L v => Sel.many (revRange L v)) f.shape (f.withComp (fun _ => false) f.reflect))) := by
  obtain ⟨h1, h2⟩ := xyz_ok f hf
  have hle : Le f.shape (f.withComp id (if f.center = .cell then f.cc else f.nc)) := by
    have : Le f.sshape (if f.center = .cell then f.cc else f.nc) := by
      unfold Fld.sshape
      cases f.center <;> first | exact Le.refl _ | exact hf.cells
    unfold Fld.shape Fld.withComp
    cases f.comps with
    | none => exact this
    | some p => exact le_put _ _ _ _ this
  have hlen : (f.withComp (fun _ => false) f.reflect).length = f.shape.length := by
    unfold Fld.shape Fld.withComp
    cases f.comps with
    | none => exact hf.rev
    | some p =>
      obtain ⟨b, n⟩ := p
      cases b <;> simp [put, hf.rev]
  obtain ⟨xs, h3, rows, h4, h5, h6, h7, h8⟩ := reflect_rows _ _ _ hle hlen
  obtain ⟨g1, g2, g3⟩ := lazy_rows (xyzOf f) rows h7 (by rw [h2, h4])
  refine ⟨_, ?_, by rw [← h8]; exact g3⟩
  unfold Fld.data
  simp only [h1, bind, Except.bind, reshape_self _ _ h2, Fld.reflectArr, h3]
  rw [h5] at g1
  simp only [g1]
  rw [← g2]
  congr 1
  rw [h6, List.filterMap_map]
  rfl

theorem zip_rows (rows : List Row) : List.zipWith (fun L v => Sel.many (revRange L v)) (rows.map Row.L) (rows.map Row.rev) =
    rows.map fun r => Sel.many (revRange r.L r.rev) := by
  induction rows with
  | nil => rfl
  | cons r rows ih => simp [ih]

theorem index_ok (a : Arr α) (idx : List Idx) (x : Arr α) (h : index a idx = .ok x) :
    ∃ ss, sels a.shape idx = .ok ss ∧ x = gather a ss := by
  unfold index at h
  cases hs : sels a.shape idx with
  | error e => simp [hs, bind, Except.bind] at h
  | ok ss =>
    simp only [hs, bind, Except.bind, Except.ok.injEq] at h
    exact ⟨ss, rfl, h.symm⟩

theorem h5_ok (a : Arr α) (idx : List Idx) (x : Arr α) (h : h5index a idx = .ok x) : index a idx = .ok x := by
  unfold h5index at h
  split at h
  · exact h
  · cases h

theorem reverse_map {β γ : Type _} (l : List β) (g : β → γ) : (l.map g).reverse = l.reverse.map g := by simp

/-- C96, what was read from disk is what slicing the loaded data gives: for scalar fields, and for vector fields stored z
    first, if a slice of the field whose data have not been loaded gives an array then the same slice after loading gives an
    array of the same shape and values. Missing: vector fields stored x first, sources with fewer axes, selections for which
    C14 fails. -/
theorem C96_same_partial (f : Fld α) (hf : WF f) (hk : f.zyx = true ∨ f.comps = none) (slices : List Idx) (c : Idx)
    (hlen : slices.length = f.sshape.length)
    (hgood : ∀ (k L : Nat) (v : Bool) (i : Idx), f.sshape[k]? = some L → f.reflect[k]? = some v → slices[k]? = some i → Good L v i)
    (a : Arr α) (h : f.lazy slices c = .ok a) : ∃ b, f.loaded slices c = .ok b ∧ Same a b := by
  unfold Fld.lazy at h
  cases hx : fwd f.sshape slices f.reflect with
  | error e => simp [hx, bind, Except.bind] at h
  | ok xs =>
  obtain ⟨rows, r1, r2, r3, r4, r5⟩ := fwd_rows _ _ _ _ hlen hf.rev hx
  have hg : ∀ r ∈ rows, Good r.L r.rev r.i := by
    intro r hr
    obtain ⟨k, hk, rfl⟩ := List.mem_iff_getElem.mp hr
    refine hgood k _ _ _ ?_ ?_ ?_
    · rw [← r1]; simp [hk]
    · rw [← r3]; simp [hk]
    · rw [← r2]; simp [hk]
  have e1 : xs.map (·.1) = rows.map Row.a := by rw [← r4, List.map_map]; rfl
  have e2 : xs.map (·.2) = rows.map Row.b := by rw [← r4, List.map_map]; rfl
  simp only [hx, bind, Except.bind] at h
  obtain ⟨d, d1, d2⟩ := data_ok f hf
  have hsrc := hf.src
  unfold Fld.nativeShape Fld.withComp at hsrc
  -- it is enough to know the rows in the order they are stored
  have key : ∀ (rowsN : List Row) (g : Arr α → Arr α),
      (f.native xs c).1 = rowsN.map Row.a → (f.native xs c).2.filterMap second = (rowsN.map Row.b).filterMap second →
      f.src.shape = rowsN.map Row.L → f.back c = g →
      ((∀ r ∈ rowsN, ∃ t, axisSel r.L r.a = .ok t) → (∀ r ∈ rowsN, r.Lazy)) →
      ∃ y, Same y (gather f.src (rowsN.map Row.s)) ∧ a = g y ∧ ∀ r ∈ rowsN, ∃ t, axisSel r.L r.a = .ok t := by
    intro rowsN g n1 n2 n3 n4 n5
    have hl : f.src.shape.length = (f.native xs c).1.length := by rw [n1, n3]; simp
    simp only [hl, ne_eq, not_true_eq_false, if_false, if_true] at h
    cases hh : h5index f.src (f.native xs c).1 with
    | error e => simp [hh] at h
    | ok x =>
      simp only [hh] at h
      have hi := h5_ok _ _ _ hh
      rw [n1] at hi
      obtain ⟨ss, hss, rfl⟩ := index_ok _ _ _ hi
      rw [n3] at hss
      have hall := sels_rows_ok rowsN Row.a ss hss
      have hlazy := n5 hall
      obtain ⟨g1, g2, g3⟩ := lazy_rows f.src rowsN hlazy n3
      rw [g1] at hi
      simp only [Except.ok.injEq] at hi
      rw [← hi, n2, g2] at h
      simp only [Except.ok.injEq] at h
      refine ⟨_, g3, ?_, hall⟩
      rw [← n4, ← h]
  cases hc : f.comps with
  | none =>
    have hxyz : f.shape = rows.map Row.L := by unfold Fld.shape Fld.withComp; rw [hc, r1]
    have hlz : (∀ r ∈ rows, ∃ t, axisSel r.L r.a = .ok t) → ∀ r ∈ rows, r.Lazy := fun hall r hr =>
      (made_lazy r (r5 r hr) (hg r hr) (hall r hr)).1
    have fin : (∀ r ∈ rows, ∃ t, axisSel r.L r.a = .ok t) →
        ∃ b, f.loaded slices c = .ok b ∧ Same b (gather (xyzOf f) (rows.map Row.s)) := by
      intro hall
      obtain ⟨y, y1, y2⟩ := eager_rows (xyzOf f) d rows (by
          rw [← zip_rows, r3, ← hxyz]
          have : f.withComp (fun _ => false) f.reflect = f.reflect := by unfold Fld.withComp; rw [hc]
          rw [← this]; exact d2)
        (fun r hr => ⟨(made_lazy r (r5 r hr) (hg r hr) (hall r hr)).2, (r5 r hr).2⟩)
      refine ⟨y, ?_, y2⟩
      unfold Fld.loaded Fld.withComp
      simp only [d1, bind, Except.bind, hc]
      rw [← r2]; exact y1
    rw [hc] at hsrc
    dsimp only at hsrc
    cases hz : f.zyx with
    | false =>
      rw [hz] at hsrc
      simp only [Bool.false_eq_true, if_false] at hsrc
      obtain ⟨y, y1, rfl, y3⟩ := key rows id (by simp [Fld.native, hc, hz]; exact e1)
        (by simp only [Fld.native, hc, hz, Bool.false_eq_true, if_false, e2])
        (by rw [hsrc, r1]) (by funext z; simp [Fld.back, hz]) hlz
      obtain ⟨b, b1, b2⟩ := fin y3
      refine ⟨b, b1, ?_⟩
      have : xyzOf f = f.src := by simp [xyzOf, hz]
      rw [this] at b2
      exact y1.trans b2.symm
    | true =>
      rw [hz] at hsrc
      simp only [if_true] at hsrc
      obtain ⟨y, y1, rfl, y3⟩ := key rows.reverse revAll
        (by simp only [Fld.native, hc, hz, if_true, e1]; rw [reverse_map])
        (by simp only [Fld.native, hc, hz, if_true, e2]; rw [reverse_map])
        (by rw [hsrc, ← r1, reverse_map]) (by funext z; simp [Fld.back, hc, hz])
        (fun hall r hr => hlz (fun r hr => hall r (by simpa using hr)) r (by simpa using hr))
      obtain ⟨b, b1, b2⟩ := fin (fun r hr => y3 r (by simpa using hr))
      refine ⟨b, b1, ?_⟩
      have : xyzOf f = revAll f.src := by simp [xyzOf, hz, hc]
      rw [this] at b2
      rw [← reverse_map] at y1
      exact (revAll_congr y1).trans ((gather_revAll f.src (rows.map Row.s)).trans b2.symm)
  | some p =>
    obtain ⟨first, n⟩ := p
    have hz : f.zyx = true := by rcases hk with h | h; exact h; rw [hc] at h; cases h
    rw [hc, hz] at hsrc
    simp only [if_true, id] at hsrc
    let all : List Row := put first (cmpRow n c) rows
    let allN : List Row := put first (cmpRow n c) rows.reverse
    have hmem : ∀ r, r ∈ allN ↔ r = cmpRow n c ∨ r ∈ rows := by
      intro r; cases first <;> simp [allN, put, or_comm]
    have hmem' : ∀ r, r ∈ all ↔ r = cmpRow n c ∨ r ∈ rows := by
      intro r; cases first <;> simp [all, put, or_comm]
    have pm : ∀ {β : Type} (g : Row → β) (l : List Row), (put first (cmpRow n c) l).map g = put first (g (cmpRow n c)) (l.map g) := by
      intro β g l; cases first <;> simp [put]
    have hxyz : f.shape = all.map Row.L := by
      unfold Fld.shape Fld.withComp
      rw [hc, pm, r1]
      rfl
    have hlz : (∀ r ∈ allN, ∃ t, axisSel r.L r.a = .ok t) → ∀ r ∈ allN, r.Lazy := by
      intro hall r hr
      rcases (hmem r).mp hr with rfl | hr'
      · obtain ⟨t, ht⟩ := hall _ hr
        exact (cmp_lazy n c t ht).1
      · exact (made_lazy r (r5 r hr') (hg r hr') (hall r hr)).1
    have fin : (∀ r ∈ allN, ∃ t, axisSel r.L r.a = .ok t) →
        ∃ b, f.loaded slices c = .ok b ∧ Same b (gather (xyzOf f) (all.map Row.s)) := by
      intro hall
      obtain ⟨y, y1, y2⟩ := eager_rows (xyzOf f) d all (by
          rw [← zip_rows, pm Row.rev, r3, ← hxyz]
          have : f.withComp (fun _ => false) f.reflect = put first false f.reflect := by unfold Fld.withComp; rw [hc]
          rw [this] at d2; exact d2)
        (fun r hr => by
          have hr' := (hmem' r).mp hr
          have ht := hall r ((hmem r).mpr hr')
          rcases hr' with rfl | hr'
          · obtain ⟨t, ht⟩ := ht
            have := cmp_lazy n c t ht
            exact ⟨this.2.1, this.2.2.1⟩
          · exact ⟨(made_lazy r (r5 r hr') (hg r hr') ht).2, (r5 r hr').2⟩)
      refine ⟨y, ?_, y2⟩
      unfold Fld.loaded Fld.withComp
      simp only [d1, bind, Except.bind, hc]
      rw [pm Row.i, r2] at y1; exact y1
    have n1 : (f.native xs c).1 = allN.map Row.a := by
      rw [pm]
      simp only [Fld.native, hc, hz, if_true, e1]
      rw [reverse_map]; rfl
    have n2 : (f.native xs c).2.filterMap second = (allN.map Row.b).filterMap second := by
      rw [pm]
      simp only [Fld.native, hc, hz, if_true, e2]
      rw [reverse_map]
      simp only [cmpRow]
      cases hci : c.isInt with
      | true => cases first <;> simp [put, second, List.filterMap_cons]
      | false => simp
    have n3 : f.src.shape = allN.map Row.L := by
      rw [pm, hsrc, ← r1, reverse_map]; rfl
    obtain ⟨y, y1, rfl, y3⟩ := key allN (f.back c) n1 n2 n3 rfl hlz
    obtain ⟨b, b1, b2⟩ := fin y3
    refine ⟨b, b1, ?_⟩
    obtain ⟨t, ht⟩ := y3 (cmpRow n c) ((hmem _).mpr (Or.inl rfl))
    obtain ⟨_, _, _, c4, c5⟩ := cmp_lazy n c t ht
    rw [pm, ← reverse_map] at y1
    rw [pm] at b2
    cases hci : c.isInt with
    | true =>
      obtain ⟨q, hq⟩ := c4 hci
      have hb : f.back c = revAll := by funext z; simp [Fld.back, hc, hz, hci]
      rw [hb]
      rw [hq] at y1 b2
      cases first with
      | true =>
        have : xyzOf f = revTail f.src := by simp [xyzOf, hz, hc]
        rw [this] at b2
        exact (revAll_congr y1).trans ((gather_revTail_int f.src q (rows.map Row.s)).trans b2.symm)
      | false =>
        have : xyzOf f = revInit f.src := by simp [xyzOf, hz, hc]
        rw [this] at b2
        exact (revAll_congr y1).trans ((gather_revInit_int f.src q (rows.map Row.s)).trans b2.symm)
    | false =>
      obtain ⟨l, hq⟩ := c5 hci
      rw [hq] at y1 b2
      cases first with
      | true =>
        have hb : f.back c = revTail := by funext z; simp [Fld.back, hc, hz, hci]
        rw [hb]
        have : xyzOf f = revTail f.src := by simp [xyzOf, hz, hc]
        rw [this] at b2
        exact (revTail_congr y1).trans ((gather_revTail f.src l (rows.map Row.s)).trans b2.symm)
      | false =>
        have hb : f.back c = revInit := by funext z; simp [Fld.back, hc, hz, hci]
        rw [hb]
        have : xyzOf f = revInit f.src := by simp [xyzOf, hz, hc]
        rw [this] at b2
        refine (revInit_congr y1 ?_).trans ((gather_revInit f.src l (rows.map Row.s)).trans b2.symm)
        rw [y1.1]
        simp [gather, put, shapeOf_append, shapeOf]

/-- A scalar field of 2 x 3 values stored z first whose first axis is reflected -/
def exScalar : Fld Nat :=
  { nc := [3, 4], cc := [2, 3], center := .cell, reflect := [true, false], zyx := true, comps := none,
    src := ⟨[3, 2], fun j => 10 * j.headD 0 + j.tail.headD 0⟩ }

/-- Non-vacuity: slicing it with `[0, 2:0:-1]`, the values stored at [2, 1] and [1, 1] -/
example : WF exScalar ∧
    (exScalar.lazy [.int 0, .slc ⟨some 2, some 0, some (-1)⟩] full).toOption.map (fun a => (a.shape, a.get [0], a.get [1])) =
      some ([2], 21, 11) :=
  ⟨⟨rfl, rfl, by simp [exScalar, Le]⟩, by decide⟩

example : Good 2 true (.int 0) ∧ Good 3 false (.slc ⟨some 2, some 0, some (-1)⟩) := by simp [Good]

/-- A vector field stored z first, components last: one component of a reflected axis -/
def exVector : Fld Nat :=
  { nc := [2, 2], cc := [1, 1], center := .node, reflect := [false, true], zyx := true, comps := some (false, 3),
    src := ⟨[2, 2, 3], fun j => 100 * j.headD 0 + 10 * j.tail.headD 0 + j.getLastD 0⟩ }

example : WF exVector ∧
    (exVector.lazy [full, .int 1] (.int 2)).toOption.map (fun a => (a.shape, a.get [0], a.get [1])) = some ([2], 2, 12) :=
  ⟨⟨rfl, rfl, by simp [exVector, Le]⟩, by decide⟩

theorem subst_mirror : ∀ (S : List Nat) (R : List Bool) (j : List Nat), R.length = S.length → Valid S j →
    subst (List.zipWith (fun L v => Sel.many (revRange L v)) S R) j = mirror S R j
  | [], [], [], _, _ => rfl
  | [], [], _ :: _, _, h => by simp [Valid] at h
  | [], _ :: _, _, h, _ => by simp at h
  | _ :: _, [], _, h, _ => by simp at h
  | _ :: _, _ :: _, [], _, h => by simp [Valid] at h
  | L :: S, v :: R, i :: j, hR, h => by
    simp only [List.zipWith_cons_cons, subst, List.headD_cons, List.tail_cons, mirror]
    rw [subst_mirror S R j (by simpa using hR) h.2, revRange_getD L v i h.1]

theorem shapeOf_zip : ∀ (S : List Nat) (R : List Bool), R.length = S.length →
    shapeOf (List.zipWith (fun L v => Sel.many (revRange L v)) S R) = S
  | [], [], _ => rfl
  | [], _ :: _, h => by simp at h
  | _ :: _, [], h => by simp at h
  | L :: S, v :: R, h => by
    simp only [List.zipWith_cons_cons, shapeOf, shapeOf_zip S R (by simpa using h)]
    congr 1
    unfold revRange
    split <;> simp

theorem mirror_append : ∀ (S : List Nat) (R : List Bool) (j : List Nat) (n i : Nat), R.length = S.length → j.length = S.length →
    mirror (S ++ [n]) (R ++ [false]) (j ++ [i]) = mirror S R j ++ [i]
  | [], [], [], _, _, _, _ => rfl
  | [], [], _ :: _, _, _, _, h => by simp at h
  | [], _ :: _, _, _, _, h, _ => by simp at h
  | _ :: _, [], _, _, _, h, _ => by simp at h
  | _ :: _, _ :: _, [], _, _, _, h => by simp at h
  | L :: S, v :: R, k :: j, n, i, hR, hj => by
    simp only [List.cons_append, mirror, mirror_append S R j n i (by simpa using hR) (by simpa using hj)]

theorem mirror_length : ∀ (S : List Nat) (R : List Bool) (j : List Nat), R.length = S.length → j.length = S.length →
    (mirror S R j).length = S.length
  | [], _, _, _, _ => by simp [mirror]
  | _ :: _, [], _, h, _ => by simp at h
  | _ :: _, _ :: _, [], _, h => by simp at h
  | L :: S, v :: R, k :: j, hR, hj => by simp [mirror, mirror_length S R j (by simpa using hR) (by simpa using hj)]

/-- C96, what loading gives: the array has the shape of the field, and the value at an index is the one stored for it, that is
    mirrored along reflected axes and with the axes in the order they are stored; components keep their place. -/
theorem C96_loaded_values (f : Fld α) (hf : WF f) : ∃ d, f.data = .ok d ∧ d.shape = f.shape ∧
    ∀ idx, Valid f.sshape idx → match f.comps with
      | none => d.get idx = f.src.get (stored f.zyx f.sshape f.reflect idx)
      | some (true, n) => ∀ k, k < n → d.get (k :: idx) = f.src.get (k :: stored f.zyx f.sshape f.reflect idx)
      | some (false, n) => ∀ k, k < n → d.get (idx ++ [k]) = f.src.get (stored f.zyx f.sshape f.reflect idx ++ [k]) := by
  obtain ⟨d, h1, h2⟩ := data_ok f hf
  have hlen : (f.withComp (fun _ => false) f.reflect).length = f.shape.length := by
    unfold Fld.shape Fld.withComp
    cases f.comps with
    | none => exact hf.rev
    | some p =>
      obtain ⟨b, n⟩ := p
      cases b <;> simp [put, hf.rev]
  have hs : d.shape = f.shape := by rw [h2.1]; exact shapeOf_zip _ _ hlen
  have hget : ∀ j, Valid f.shape j → d.get j = (xyzOf f).get (mirror f.shape (f.withComp (fun _ => false) f.reflect) j) := by
    intro j hj
    rw [h2.2 j (hs ▸ hj)]
    simp only [gather, subst_mirror _ _ j hlen hj]
  refine ⟨d, h1, hs, ?_⟩
  intro idx hv
  have hil := hv.length
  have hml := mirror_length f.sshape f.reflect idx hf.rev hil
  cases hc : f.comps with
  | none =>
    dsimp only
    have e1 : f.shape = f.sshape := by unfold Fld.shape Fld.withComp; rw [hc]
    have e2 : f.withComp (fun _ => false) f.reflect = f.reflect := by unfold Fld.withComp; rw [hc]
    rw [hget idx (e1 ▸ hv), e1, e2]
    unfold xyzOf stored
    rw [hc]
    cases f.zyx <;> simp [revAll]
  | some p =>
    obtain ⟨b, n⟩ := p
    cases b with
    | true =>
      dsimp only
      intro k hk
      have e1 : f.shape = n :: f.sshape := by unfold Fld.shape Fld.withComp; rw [hc]; rfl
      have e2 : f.withComp (fun _ => false) f.reflect = false :: f.reflect := by unfold Fld.withComp; rw [hc]; rfl
      rw [hget (k :: idx) (by rw [e1]; exact ⟨hk, hv⟩), e1, e2]
      unfold xyzOf stored
      rw [hc]
      cases f.zyx <;> simp [revTail, mirror]
    | false =>
      dsimp only
      intro k hk
      have e1 : f.shape = f.sshape ++ [n] := by unfold Fld.shape Fld.withComp; rw [hc]; rfl
      have e2 : f.withComp (fun _ => false) f.reflect = f.reflect ++ [false] := by unfold Fld.withComp; rw [hc]; rfl
      rw [hget (idx ++ [k]) (by rw [e1, valid_append _ _ _ _ hil]; exact ⟨hv, hk, trivial⟩), e1, e2,
        mirror_append _ _ _ _ _ hf.rev hil]
      unfold xyzOf stored
      rw [hc]
      cases f.zyx <;> simp [revInit]

/-! ## When it is refused -/

/-- Entries that make_fwd_slice accepts on an axis of length `L`: an index from 0 on (on axes that are not reflected also one
    that counts from the end), a slice with bounds in [-L, L] that selects something, not starting at `L` going back. -/
def Accepted (L : Nat) (rev : Bool) : Idx → Prop
  | .int i => (0 ≤ i ∧ i < L) ∨ (rev = false ∧ -(L : Int) ≤ i ∧ i < L)
  | .slc s => s.step ≠ some 0 ∧ (∀ v, s.start = some v → -(L : Int) ≤ v ∧ v ≤ L) ∧ (∀ v, s.stop = some v → -(L : Int) ≤ v ∧ v ≤ L) ∧
      Spec.Slice.pyIndices L s.start s.stop (s.step.getD 1) ≠ [] ∧ ¬ (s.start = some (L : Int) ∧ s.step.getD 1 < 0)

theorem accepted_axis (L : Nat) (rev : Bool) (i : Idx) (h : Accepted L rev i) : Good L rev i ∧
    ∃ a b, fwdAxis L i rev = .ok (a, b) ∧ forward a = true ∧ ∃ t, axisSel L a = .ok t := by
  cases i with
  | int i =>
    simp only [Accepted] at h
    refine ⟨fun _ => by omega, _, _, rfl, rfl, ?_⟩
    refine ⟨_, by simp only [axisSel]; rw [if_pos]; unfold FwdSlice.fwdInt; cases rev <;> simp_all <;> omega⟩
  | slc s =>
    obtain ⟨h1, h2, h3, h4, h5⟩ := h
    have hg : Good L rev (.slc s) := fun hb => h5 ⟨hb.2.1, by omega⟩
    refine ⟨hg, ?_⟩
    obtain ⟨first, flip, hm⟩ := FwdSlice.C14_accepts_partial L (by omega) s rev h1 h2 h3
      (by unfold FwdSlice.requested; dsimp only; split <;> simpa using h4) (fun hb => h5 hb.2)
    have hpos := (FwdSlice.C14_sound_partial L (by omega) s rev first flip hm hg).1
    refine ⟨.slc first, some flip, by simp only [fwdAxis, hm], by simpa [forward] using hpos, ?_⟩
    refine ⟨_, by simp only [axisSel]; rw [if_neg]; intro e; rw [e] at hpos; simp at hpos⟩

theorem fwd_accepts : ∀ (S : List Nat) (I : List Idx) (R : List Bool), I.length = S.length → R.length = S.length →
    (∀ (k L : Nat) (v : Bool) (i : Idx), S[k]? = some L → R[k]? = some v → I[k]? = some i → Accepted L v i) →
    ∃ xs, fwd S I R = .ok xs
  | [], I, R, _, _, _ => ⟨_, rfl⟩
  | _ :: _, [], _, h, _, _ => by simp at h
  | _ :: _, _ :: _, [], _, h, _ => by simp at h
  | L :: S, i :: I, v :: R, hI, hR, h => by
    obtain ⟨xs, hx⟩ := fwd_accepts S I R (by simpa using hI) (by simpa using hR) (fun k => h (k + 1))
    obtain ⟨_, a, b, hab, _⟩ := accepted_axis L v i (h 0 L v i rfl rfl rfl)
    exact ⟨(a, b) :: xs, by simp only [fwd, List.headD_cons, List.tail_cons, hab, hx, bind, Except.bind]⟩

/-- C96, reading from disk is not refused without need: for scalar fields, and for vector fields stored z first, a selection
    with an accepted entry for every axis gives an array; a component's entry has to be valid and not go back. -/
theorem C96_accepts_partial (f : Fld α) (hf : WF f) (hk : f.zyx = true ∨ f.comps = none) (slices : List Idx) (c : Idx)
    (hlen : slices.length = f.sshape.length)
    (hgood : ∀ (k L : Nat) (v : Bool) (i : Idx), f.sshape[k]? = some L → f.reflect[k]? = some v → slices[k]? = some i →
      Accepted L v i)
    (hc : ∀ b n, f.comps = some (b, n) → forward c = true ∧ ∃ t, axisSel n c = .ok t) :
    ∃ a, f.lazy slices c = .ok a := by
  obtain ⟨xs, hx⟩ := fwd_accepts _ _ _ hlen hf.rev hgood
  obtain ⟨rows, r1, r2, r3, r4, r5⟩ := fwd_rows _ _ _ _ hlen hf.rev hx
  have hrow : ∀ r ∈ rows, forward r.a = true ∧ r.Lazy := by
    intro r hr
    have ha : Accepted r.L r.rev r.i := by
      obtain ⟨k, hk, rfl⟩ := List.mem_iff_getElem.mp hr
      refine hgood k _ _ _ ?_ ?_ ?_
      · rw [← r1]; simp [hk]
      · rw [← r3]; simp [hk]
      · rw [← r2]; simp [hk]
    obtain ⟨g, a, b, h1, h2, h3⟩ := accepted_axis _ _ _ ha
    have hm := r5 r hr
    have := hm.1
    rw [h1] at this
    simp only [Except.ok.injEq, Prod.mk.injEq] at this
    rw [this.1] at h2 h3
    exact ⟨h2, (made_lazy r hm g h3).1⟩
  have e1 : xs.map (·.1) = rows.map Row.a := by rw [← r4, List.map_map]; rfl
  have e2 : xs.map (·.2) = rows.map Row.b := by rw [← r4, List.map_map]; rfl
  have hsrc := hf.src
  unfold Fld.nativeShape Fld.withComp at hsrc
  have key : ∀ (rowsN : List Row),
      (f.native xs c).1 = rowsN.map Row.a → (f.native xs c).2.filterMap second = (rowsN.map Row.b).filterMap second →
      f.src.shape = rowsN.map Row.L → (∀ r ∈ rowsN, forward r.a = true ∧ r.Lazy) → ∃ a, f.lazy slices c = .ok a := by
    intro rowsN n1 n2 n3 n4
    obtain ⟨g1, g2, g3⟩ := lazy_rows f.src rowsN (fun r hr => (n4 r hr).2) n3
    have hl : f.src.shape.length = (f.native xs c).1.length := by rw [n1, n3]; simp
    have h5 : h5index f.src (f.native xs c).1 = .ok (gather f.src (rowsN.map Row.s0)) := by
      unfold h5index
      rw [if_pos, n1, g1]
      rw [n1, List.all_map]
      exact List.all_eq_true.mpr fun r hr => (n4 r hr).1
    unfold Fld.lazy
    simp only [hx, bind, Except.bind, hl, ne_eq, not_true_eq_false, if_false, if_true, h5, n2, g2]
    exact ⟨_, rfl⟩
  cases hcm : f.comps with
  | none =>
    rw [hcm] at hsrc
    dsimp only at hsrc
    cases hz : f.zyx with
    | false =>
      rw [hz] at hsrc
      simp only [Bool.false_eq_true, if_false] at hsrc
      exact key rows (by simp [Fld.native, hcm, hz]; exact e1)
        (by simp only [Fld.native, hcm, hz, Bool.false_eq_true, if_false, e2]) (by rw [hsrc, r1]) hrow
    | true =>
      rw [hz] at hsrc
      simp only [if_true] at hsrc
      exact key rows.reverse (by simp only [Fld.native, hcm, hz, if_true, e1]; rw [reverse_map])
        (by simp only [Fld.native, hcm, hz, if_true, e2]; rw [reverse_map])
        (by rw [hsrc, ← r1, reverse_map]) (fun r hr => hrow r (by simpa using hr))
  | some p =>
    obtain ⟨first, n⟩ := p
    have hz : f.zyx = true := by rcases hk with h | h; exact h; rw [hcm] at h; cases h
    rw [hcm, hz] at hsrc
    simp only [if_true, id] at hsrc
    obtain ⟨c1, t, c2⟩ := hc first n hcm
    have pm : ∀ {β : Type} (g : Row → β) (l : List Row), (put first (cmpRow n c) l).map g = put first (g (cmpRow n c)) (l.map g) := by
      intro β g l; cases first <;> simp [put]
    refine key (put first (cmpRow n c) rows.reverse) ?_ ?_ ?_ ?_
    · rw [pm]
      simp only [Fld.native, hcm, hz, if_true, e1]
      rw [reverse_map]; rfl
    · rw [pm]
      simp only [Fld.native, hcm, hz, if_true, e2]
      rw [reverse_map]
      simp only [cmpRow]
      cases hci : c.isInt with
      | true => cases first <;> simp [put, second, List.filterMap_cons]
      | false => simp
    · rw [pm, hsrc, ← r1, reverse_map]; rfl
    · intro r hr
      have : r = cmpRow n c ∨ r ∈ rows := by cases first <;> simp [put] at hr <;> tauto
      rcases this with rfl | hr
      · exact ⟨c1, (cmp_lazy n c t c2).1⟩
      · exact hrow r hr

/-- Non-vacuity -/
example : Accepted 2 true (.int 0) ∧ Accepted 3 false (.slc ⟨some 2, some 0, some (-1)⟩) := by
  refine ⟨by simp [Accepted], by simp, ?_, ?_, by decide, by simp⟩ <;> intro v hv <;> cases hv <;> decide

/-! ## Where it fails -/

theorem fwd_length : ∀ (S : List Nat) (I : List Idx) (R : List Bool) (xs : List (Idx × Option Bool)), I.length = S.length →
    fwd S I R = .ok xs → xs.length = S.length
  | [], I, _, xs, hI, h => by
    simp only [fwd, Except.ok.injEq] at h
    subst h
    simpa using hI
  | L :: S, [], _, _, h, _ => by simp at h
  | L :: S, i :: I, R, xs, hI, h => by
    simp only [fwd, bind, Except.bind, List.tail_cons] at h
    split at h
    · cases h
    · split at h
      · cases h
      · rename_i hr
        simp only [Except.ok.injEq] at h
        subst h
        simp [fwd_length S I R.tail _ (by simpa using hI) hr]

theorem zipLongest_length : ∀ (a : List Idx) (b : List (Option Bool)), (zipLongest a b).length = a.length
  | [], _ => by simp [zipLongest]
  | _ :: a, [] => by simp [zipLongest, zipLongest_length a []]
  | _ :: a, _ :: b => by simp [zipLongest, zipLongest_length a b]

/-- The loop runs out of the source's axes. -/
theorem hack_over : ∀ (s t : List Nat) (xs : List (Idx × Option (Option Bool))), s.length < xs.length →
    hack s (s ++ t) xs = .error .indexError
  | [], t, [], h => by simp at h
  | [], t, _ :: _, _ => by simp [hack]
  | _ :: s, t, [], h => by simp at h
  | a :: s, t, x :: xs, h => by
    simp only [List.cons_append, hack, if_true, hack_over s t xs (by simpa using h), bind, Except.bind]

/-- C96 fails for every vector field stored x first: any selection raises IndexError (unless `make_fwd_slice` has already
    raised), because the entry for the component is put into one list twice. After loading such a selection works, see below. -/
theorem C96_xyz_vector_violated (f : Fld α) (hs : f.src.shape = f.nativeShape) (hz : f.zyx = false) (b : Bool) (n : Nat)
    (hc : f.comps = some (b, n)) (slices : List Idx) (c : Idx) (hlen : slices.length = f.sshape.length)
    (xs : List (Idx × Option Bool)) (hx : fwd f.sshape slices f.reflect = .ok xs) :
    f.lazy slices c = .error .indexError := by
  have hl := fwd_length _ _ _ _ hlen hx
  have h1 : (f.native xs c).1.length = f.sshape.length + 2 := by
    cases b <;> simp [Fld.native, hc, hz, put, hl]
  have h2 : f.src.shape.length = f.sshape.length + 1 := by
    rw [hs]; unfold Fld.nativeShape Fld.withComp; rw [hc, hz]; cases b <;> simp [put]
  have h3 : hack f.src.shape f.nativeShape (zipLongest (f.native xs c).1 (f.native xs c).2) = .error .indexError := by
    have := hack_over f.src.shape [] (zipLongest (f.native xs c).1 (f.native xs c).2) (by
      rw [zipLongest_length, h1, h2]; omega)
    rw [List.append_nil] at this
    rw [← hs]; exact this
  unfold Fld.lazy
  simp only [hx, bind, Except.bind]
  rw [if_pos (by omega), h3]

/-- Such a field: three components last, 2 x 2 values. The first component of row 1 can be had after loading only. -/
def exXyz : Fld Nat :=
  { nc := [2, 2], cc := [1, 1], center := .node, reflect := [false, false], zyx := false, comps := some (false, 3),
    src := ⟨[2, 2, 3], fun j => 100 * j.headD 0 + 10 * j.tail.headD 0 + j.getLastD 0⟩ }

example : WF exXyz ∧
    (exXyz.loaded [.int 1, full] (.int 0)).toOption.map (fun a => (a.shape, a.get [0], a.get [1])) = some ([2], 100, 110) ∧
    (fwd exXyz.sshape [.int 1, full] exXyz.reflect).toBool = true :=
  ⟨⟨rfl, rfl, by simp [exXyz, Le]⟩, by decide⟩

/-- C96 fails if the data set lacks an axis of length 1 at the end: any selection raises IndexError. -/
theorem C96_missing_axis_violated (f : Fld α) (hs : f.src.shape ++ [1] = f.nativeShape) (hc : f.comps = none)
    (slices : List Idx) (c : Idx) (hlen : slices.length = f.sshape.length)
    (xs : List (Idx × Option Bool)) (hx : fwd f.sshape slices f.reflect = .ok xs) :
    f.lazy slices c = .error .indexError := by
  have hl := fwd_length _ _ _ _ hlen hx
  have hn : f.nativeShape.length = f.sshape.length := by
    unfold Fld.nativeShape Fld.withComp; rw [hc]; cases f.zyx <;> simp
  have h1 : (f.native xs c).1.length = f.sshape.length := by
    cases hz : f.zyx <;> simp [Fld.native, hc, hz, hl]
  have h2 : f.src.shape.length + 1 = f.sshape.length := by rw [← hn, ← hs]; simp
  have h3 : hack f.src.shape f.nativeShape (zipLongest (f.native xs c).1 (f.native xs c).2) = .error .indexError := by
    rw [← hs]
    exact hack_over _ _ _ (by rw [zipLongest_length, h1]; omega)
  unfold Fld.lazy
  simp only [hx, bind, Except.bind]
  rw [if_pos (by omega), h3]

/-- Such a field, of 2 x 3 x 1 values: row 1 can be had after loading only. -/
def exFlat : Fld Nat :=
  { nc := [2, 3, 1], cc := [1, 2, 1], center := .node, reflect := [false, false, false], zyx := false, comps := none,
    src := ⟨[2, 3], fun j => 10 * j.headD 0 + j.tail.headD 0⟩ }

example : exFlat.src.shape ++ [1] = exFlat.nativeShape ∧
    (exFlat.loaded [.int 1, full, full] full).toOption.map (fun a => (a.shape, a.get [2, 0])) = some ([3, 1], 12) ∧
    (fwd exFlat.sshape [.int 1, full, full] exFlat.reflect).toBool = true := by decide

/-- C96 fails one past the end of a reflected axis: the loaded field raises IndexError, the one on disk gives the value that
    is stored last. -/
theorem C96_past_end_violated (L : Nat) (hL : 2 ≤ L) (g : List Nat → α) :
    let f : Fld α := { nc := [L + 1], cc := [L], center := .cell, reflect := [true], zyx := true, comps := none, src := ⟨[L], g⟩ }
    WF f ∧ (∃ a, f.lazy [.int L] full = .ok a ∧ a.get [] = g [L - 1]) ∧ f.loaded [.int L] full = .error .indexError := by
  intro f
  have hf : WF f := ⟨by simp [f, Fld.nativeShape, Fld.withComp, Fld.sshape], rfl, by simp [f, Le]⟩
  refine ⟨hf, ?_, ?_⟩
  · refine ⟨revAll (gather (gather ⟨[L], g⟩ [.one (L - 1)]) []), ?_, ?_⟩
    · have e : sels [L] [.int (-1)] = .ok [.one (L - 1)] := by
        simp only [sels, axisSel, bind, Except.bind]
        rw [if_pos (by omega)]
        rw [if_pos (by omega), show ((-1 : Int) + L).toNat = L - 1 by omega]
      have e2 : FwdSlice.fwdInt (L : Int) L true = -1 := by unfold FwdSlice.fwdInt; simp; omega
      have e3 : fwd f.sshape [.int L] f.reflect = .ok [(.int (-1), none)] := by
        simp [f, Fld.sshape, fwd, fwdAxis, bind, Except.bind, e2]
      unfold Fld.lazy
      simp only [e3, bind, Except.bind]
      have e4 : f.native [(.int (-1), none)] full = ([.int (-1)], [none]) := rfl
      rw [e4]
      have e5 : h5index f.src [.int (-1)] = .ok (gather ⟨[L], g⟩ [.one (L - 1)]) := by
        simp only [h5index, index, f, e, bind, Except.bind]
        rfl
      simp only [e5]
      rfl
    · simp [revAll, gather, subst]
  · obtain ⟨d, h1, h2, _⟩ := C96_loaded_values f hf
    have hs : d.shape = [L] := by rw [h2]; rfl
    unfold Fld.loaded
    simp only [h1, bind, Except.bind, index, Fld.withComp, f, hs, sels, axisSel]
    rw [if_neg (by omega)]

example : (2 : Nat) ≤ 5 := by decide

end Viscid.Props
