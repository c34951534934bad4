import Verif.Props.AmrSlice
/-!
# C182 to C185: slices, attributes and functions of fields of patches, and their skeletons
-/
namespace Viscid.Props
open Viscid.AmrSlice Viscid.Spec.AmrSlice

theorem newIdxs_mem {N S : Type} [DecidableEq N] [DecidableEq S] (es : List (FillSel.Entry N S)) (i : Nat) :
    (i : Int) ∈ FillSel.newIdxs es ↔ ∃ e, es[i]? = some e ∧ e.kind = .newax := by
  unfold FillSel.newIdxs
  simp only [List.mem_map, List.mem_filter, decide_eq_true_eq, Prod.exists, Int.natCast_inj]
  constructor
  · rintro ⟨e, j, ⟨h1, h2⟩, rfl⟩
    rw [List.mk_mem_zipIdx_iff_getElem?] at h1
    exact ⟨e, h1, h2⟩
  · rintro ⟨e, h1, h2⟩
    exact ⟨e, i, ⟨List.mk_mem_zipIdx_iff_getElem?.mpr h1, h2⟩, rfl⟩

/-- the loop over the axes of the longest, for a list of the same axes some of which are missing -/
theorem putback_loop (nn : Nat → String) (ax : List String) (p : String → Bool) (isNew : Nat → Bool) (suf : List String) :
    ∀ (i : Nat) (st : FillSel.St String Unit), suf.Nodup → st.remaining.Sublist suf → (∀ r ∈ suf, p r = true ↔ r ∈ st.remaining) → (∀ r ∈ suf, p r = true ↔ r ∈ ax) →
      (∀ r ∈ suf, r ∉ st.rows.map FillSel.Row.name) → (∀ j r, suf[j]? = some r → isNew (i + j) = !p r) →
      ∃ st', FillSel.loop () nn ax isNew i (suf.map fun r => ⟨some r, if p r then .sel () else .newax⟩) st = .ok st' ∧
        st'.rows.map FillSel.Row.name = st.rows.map FillSel.Row.name ++ suf ∧ st'.remaining = [] := by
  induction suf with
  | nil =>
    intro i st _ h2 _ _ _ _
    exact ⟨st, rfl, by simp, by simpa using h2⟩
  | cons r suf ih =>
    intro i st h1 h2 h3 h4 h5 h6
    have hn := h6 0 r rfl
    rw [List.nodup_cons] at h1
    cases hp : p r with
    | true =>
      have hrem : ∃ rem, st.remaining = r :: rem := by
        have hm := (h3 r (by simp)).mp hp
        match hq : st.remaining, hm, h2 with
        | x :: rem, hm, h2 =>
          rw [List.sublist_cons_iff] at h2
          rcases h2 with h2 | ⟨rem', h2, -⟩
          · exact absurd (h2.subset hm) h1.1
          · exact ⟨rem', h2⟩
      obtain ⟨rem, hrem⟩ := hrem
      have hstep : FillSel.step () nn ax (isNew i) ⟨some r, .sel ()⟩ st = .ok { st with rows := st.rows ++ [⟨r, .sel (), false⟩], remaining := rem } := by
        rw [hp] at hn
        simp only [Nat.add_zero, Bool.not_true] at hn
        unfold FillSel.step
        simp only [hn, Bool.false_eq_true, if_false]
        rw [if_neg (h5 r (by simp)), hrem]
        simp
      have h2' : rem.Sublist suf := by
        rw [hrem] at h2
        exact List.Sublist.of_cons_cons h2
      obtain ⟨st', e1, e2, e3⟩ := ih (i + 1) { st with rows := st.rows ++ [⟨r, .sel (), false⟩], remaining := rem } h1.2 h2'
        (fun q hq => by
          rw [h3 q (List.mem_cons_of_mem _ hq), hrem]
          have : q ≠ r := fun h => h1.1 (h ▸ hq)
          simp [this])
        (fun q hq => h4 q (List.mem_cons_of_mem _ hq))
        (fun q hq => by
          have : q ≠ r := fun h => h1.1 (h ▸ hq)
          have := h5 q (List.mem_cons_of_mem _ hq)
          simp_all)
        (fun j q hq => by
          have := h6 (j + 1) q (by simpa using hq)
          rw [← this]; congr 1; omega)
      refine ⟨st', ?_, by simp [e2], e3⟩
      simp only [List.map_cons, hp, if_true, FillSel.loop, hstep]
      exact e1
    | false =>
      have hnr : r ∉ st.remaining := fun h => by have := (h3 r (by simp)).mpr h; rw [hp] at this; cases this
      have hna : r ∉ ax := fun h => by have := (h4 r (by simp)).mpr h; rw [hp] at this; cases this
      have hstep : FillSel.step () nn ax (isNew i) ⟨some r, .newax⟩ st = .ok { st with rows := st.rows ++ [⟨r, .newax, true⟩] } := by
        rw [hp] at hn
        simp only [Nat.add_zero, Bool.not_false] at hn
        unfold FillSel.step
        simp only [hn, if_true]
        rw [if_neg]
        rintro (h | h)
        · exact h5 r (by simp) h
        · exact hna h
      have h2' : st.remaining.Sublist suf := by
        rw [List.sublist_cons_iff] at h2
        rcases h2 with h2 | ⟨rem', h2, -⟩
        · exact h2
        · rw [h2] at hnr; simp at hnr
      obtain ⟨st', e1, e2, e3⟩ := ih (i + 1) { st with rows := st.rows ++ [⟨r, .newax, true⟩] } h1.2 h2'
        (fun q hq => h3 q (List.mem_cons_of_mem _ hq))
        (fun q hq => h4 q (List.mem_cons_of_mem _ hq))
        (fun q hq => by
          have : q ≠ r := fun h => h1.1 (h ▸ hq)
          have := h5 q (List.mem_cons_of_mem _ hq)
          simp_all)
        (fun j q hq => by
          have := h6 (j + 1) q (by simpa using hq)
          rw [← this]; congr 1; omega)
      refine ⟨st', ?_, by simp [e2], e3⟩
      simp only [List.map_cons, hp, Bool.false_eq_true, if_false, FillSel.loop, hstep]
      exact e1

theorem missing_count {ax ref : List String} (h : ax.Sublist ref) (hn : ref.Nodup) (p : String → Bool) (hp : ∀ r ∈ ref, p r = true ↔ r ∈ ax) :
    ref.length = ax.length + ref.countP fun r => !p r := by
  induction h with
  | slnil => simp
  | @cons l₁ l₂ a h ih =>
    rw [List.nodup_cons] at hn
    have := ih hn.2 fun r hr => hp r (List.mem_cons_of_mem _ hr)
    have hpa : p a = false := by
      rw [← Bool.not_eq_true, hp a (by simp)]
      exact fun hm => hn.1 (h.subset hm)
    rw [List.countP_cons_of_pos (by simp [hpa])]
    simp only [List.length_cons]
    omega
  | @cons_cons l₁ l₂ a h ih =>
    rw [List.nodup_cons] at hn
    have := ih hn.2 fun r hr => by
      rw [hp r (List.mem_cons_of_mem _ hr)]
      have : r ≠ a := fun e => hn.1 (e ▸ hr)
      simp [this]
    rw [List.countP_cons_of_neg (by simp [(hp a (by simp)).mpr (by simp)])]
    simp only [List.length_cons]
    omega

/-- putting back the axes that are missing gives the axes of the longest, in their order -/
theorem putback_ref {ref ax : List String} (h : ax.Sublist ref) (hn : ref.Nodup) : putback ref ax = .ok ref := by
  have hes : (ref.map fun r => (⟨some r, if r ∈ ax then .sel () else .newax⟩ : FillSel.Entry String Unit)) =
      ref.map fun r => ⟨some r, if decide (r ∈ ax) then .sel () else .newax⟩ := by simp
  obtain ⟨st', e1, e2, e3⟩ := putback_loop (fun k => "new-x" ++ toString k) ax (fun r => decide (r ∈ ax))
    (fun i => decide ((i : Int) ∈ FillSel.newIdxs (ref.map fun r => (⟨some r, if decide (r ∈ ax) then .sel () else .newax⟩ : FillSel.Entry String Unit))))
    ref 0 ⟨[], ax, 0⟩ hn h (by simp) (by simp) (by simp) (by
      intro j r hr
      have : decide ((((0 + j : Nat)) : Int) ∈ FillSel.newIdxs (ref.map fun r => (⟨some r, if decide (r ∈ ax) then .sel () else .newax⟩ : FillSel.Entry String Unit))) =
          decide (∃ e, (ref.map fun r => (⟨some r, if decide (r ∈ ax) then .sel () else .newax⟩ : FillSel.Entry String Unit))[0 + j]? = some e ∧ e.kind = .newax) :=
        decide_eq_decide.mpr (newIdxs_mem _ _)
      rw [this]
      simp only [Nat.zero_add, List.getElem?_map, hr, Option.map_some, Option.some.injEq, exists_eq_left']
      by_cases hm : r ∈ ax <;> simp [hm])
  have hell : (ref.map fun r => (⟨some r, if decide (r ∈ ax) then .sel () else .newax⟩ : FillSel.Entry String Unit)).countP (fun e => e.kind = .ellipsis) = 0 := by
    rw [List.countP_eq_zero]
    intro e he
    obtain ⟨r, -, rfl⟩ := List.mem_map.mp he
    by_cases hm : r ∈ ax <;> simp [hm]
  have hnew : (ref.map fun r => (⟨some r, if decide (r ∈ ax) then .sel () else .newax⟩ : FillSel.Entry String Unit)).countP (fun e => e.kind = .newax) =
      ref.countP fun r => !decide (r ∈ ax) := by
    rw [List.countP_map]
    refine List.countP_congr fun r _ => ?_
    by_cases hm : r ∈ ax <;> simp [hm]
  have hne : (ref.map fun r => (⟨some r, if decide (r ∈ ax) then .sel () else .newax⟩ : FillSel.Entry String Unit)) ≠ [⟨none, .ellipsis⟩] := by
    cases ref with
    | nil => simp
    | cons r l => simp
  unfold putback
  rw [hes]
  unfold FillSel.fill
  rw [if_neg hne]
  simp only [hell, hnew]
  rw [if_neg (by omega), if_neg (by simp)]
  simp only [Nat.zero_ne_one, if_false, e1, e3, List.map_nil, List.append_nil]
  have hlen : st'.rows.length = ref.length := by
    have := congrArg List.length e2
    simpa using this
  rw [if_pos (by rw [hlen]; exact missing_count h hn _ (by simp))]
  simp only [e2, List.map_nil, List.nil_append]

/-- the axes of the longest are those all others are part of -/
theorem longest_ref {ref : List String} (l : List (List String)) (h : ref ∈ l) (hs : ∀ a ∈ l, a.Sublist ref) : longest l = ref := by
  have key : ∀ l : List (List String), l ≠ [] → longest l ∈ l ∧ ∀ a ∈ l, a.length ≤ (longest l).length := by
    intro l
    induction l with
    | nil => exact fun h => absurd rfl h
    | cons a l ih =>
      intro _
      cases l with
      | nil => simp [longest]
      | cons b l =>
        obtain ⟨h1, h2⟩ := ih (by simp)
        show (if (longest (b :: l)).length ≤ a.length then a else longest (b :: l)) ∈ _ ∧ _
        have hu : longest (a :: b :: l) = if (longest (b :: l)).length ≤ a.length then a else longest (b :: l) := rfl
        rw [hu]
        split
        · rename_i hle
          refine ⟨by simp, fun c hc => ?_⟩
          rcases List.mem_cons.mp hc with rfl | hc
          · exact le_refl _
          · exact le_trans (h2 c hc) hle
        · rename_i hle
          refine ⟨List.mem_cons_of_mem _ h1, fun c hc => ?_⟩
          rcases List.mem_cons.mp hc with rfl | hc
          · omega
          · exact h2 c hc
  obtain ⟨h1, h2⟩ := key l (List.ne_nil_of_mem h)
  exact (hs _ h1).eq_of_length_le (h2 ref h)

/-- a part of a slice that has values -/
def HasValues (p : Piece D) : Prop := p.isEmpty = false

theorem putbacks_ref {D : Type} {ref : List String} (hn : ref.Nodup) (l : List (Piece D)) (hs : ∀ p ∈ l, p.axes.Sublist ref) :
    putbacks ref l = .ok (l.map fun p => (ref, p.data)) := by
  induction l with
  | nil => rfl
  | cons p l ih =>
    have h1 := hs p (by simp)
    have : (if p.axes.length < ref.length then putback ref p.axes else .ok p.axes) = .ok ref := by
      split
      · exact putback_ref h1 hn
      · rename_i h
        rw [h1.eq_of_length_le (not_lt.mp h)]
    simp only [putbacks, this, ih fun q hq => hs q (List.mem_cons_of_mem _ hq), List.map_cons]

/-- C182: a slice of more than one patch is a field of the slices of these patches that have values, in order, and all have the axes of the longest, given that
the axes of the others are some of these, in order -/
theorem C182_axes_partial [DecidableEq D] (atol : ℚ) (ps : List Patch) (sel : List Sel) (f : Nat → Piece D) (l : List Nat)
    (hl : patchInds atol ps false sel = .ok l) (h2 : 2 ≤ l.length) (hnum : ∀ i ∈ l, ∀ d, f i ≠ .number d) (ref : List String) (hn : ref.Nodup)
    (href : ∃ i ∈ l, ∃ n d, f i = .fld n ref d ∧ n ≠ 0) (hs : ∀ i ∈ l, ∀ n ax d, f i = .fld n ax d → n ≠ 0 → ax.Sublist ref) :
    slice atol ps false sel f = .ok (.amr (l.filterMap fun i => match f i with | .fld n _ d => if n = 0 then none else some (ref, d) | .number _ => none)) := by
  have hmem : ∀ p ∈ (l.map f).filter (fun p => !p.isEmpty), ∃ i ∈ l, ∃ n ax d, f i = .fld n ax d ∧ n ≠ 0 ∧ p = .fld n ax d := by
    intro p hp
    rw [List.mem_filter] at hp
    obtain ⟨i, hi, rfl⟩ := List.mem_map.mp hp.1
    cases hf : f i with
    | number d => exact absurd hf (hnum i hi d)
    | fld n ax d =>
      rw [hf] at hp
      exact ⟨i, hi, n, ax, d, hf, by simpa [Piece.isEmpty] using hp.2, rfl⟩
  have hfin : finalize (l.map f) = .ok (((l.map f).filter fun p => !p.isEmpty).map fun p => (ref, p.data)) := by
    unfold finalize
    simp only
    rw [if_neg, if_neg]
    · have hlong : longest (((l.map f).filter fun p => !p.isEmpty).map Piece.axes) = ref := by
        refine longest_ref _ ?_ ?_
        · obtain ⟨i, hi, n, d, hf, hne⟩ := href
          exact List.mem_map.mpr ⟨f i, List.mem_filter.mpr ⟨List.mem_map.mpr ⟨i, hi, rfl⟩, by simp [hf, Piece.isEmpty, hne]⟩, by rw [hf]; rfl⟩
        · intro a ha
          obtain ⟨p, hp, rfl⟩ := List.mem_map.mp ha
          obtain ⟨i, hi, n, ax, d, hf, hne, rfl⟩ := hmem p hp
          exact hs i hi n ax d hf hne
      rw [hlong]
      refine putbacks_ref hn _ fun p hp => ?_
      obtain ⟨i, hi, n, ax, d, hf, hne, rfl⟩ := hmem p hp
      exact hs i hi n ax d hf hne
    · obtain ⟨i, hi, n, d, hf, hne⟩ := href
      exact List.ne_nil_of_mem (List.mem_filter.mpr ⟨List.mem_map.mpr ⟨i, hi, rfl⟩, by simp [hf, Piece.isEmpty, hne]⟩)
    · intro h
      obtain ⟨p, hp, h⟩ := List.any_eq_true.mp h
      obtain ⟨i, hi, n, ax, d, hf, hne, rfl⟩ := hmem p hp
      simp [Piece.isNumber] at h
  have hfound : found l = .many l := by
    match l, h2 with
    | _ :: _ :: _, _ => rfl
  unfold slice
  simp only [hl, hfound, hfin, Except.map]
  congr 2
  clear hfin hmem hfound h2 hl href hs
  induction l with
  | nil => rfl
  | cons i l ih =>
    have ih := ih fun j hj => hnum j (List.mem_cons_of_mem _ hj)
    cases hf : f i with
    | number d => exact absurd hf (hnum i (by simp) d)
    | fld n ax d =>
      by_cases hne : n = 0
      · rw [List.map_cons, List.filter_cons_of_neg (by simp [hf, Piece.isEmpty, hne]), ih, List.filterMap_cons_none (by simp [hf, hne])]
      · rw [List.map_cons, List.filter_cons_of_pos (by simp [hf, Piece.isEmpty, hne]), List.map_cons, ih,
          List.filterMap_cons_some (b := (ref, d)) (by simp [hf, hne])]
        simp [hf, Piece.data]

/-- C182: a slice in a single patch is the slice of that patch -/
theorem C182_single [DecidableEq D] (atol : ℚ) (ps : List Patch) (sel : List Sel) (f : Nat → Piece D) (i : Nat) (hl : patchInds atol ps false sel = .ok [i]) :
    slice atol ps false sel f = .ok (.single (f i)) := by
  unfold slice
  rw [hl]
  rfl

/-- C182: if no slice has values it is a ValueError -/
theorem C182_no_values [DecidableEq D] (atol : ℚ) (ps : List Patch) (sel : List Sel) (f : Nat → Piece D) (l : List Nat) (hl : patchInds atol ps false sel = .ok l)
    (h2 : 2 ≤ l.length) (h0 : ∀ i ∈ l, ∃ ax d, f i = .fld 0 ax d) : slice atol ps false sel f = .error .value := by
  have hnil : (l.map f).filter (fun p => !p.isEmpty) = [] := by
    rw [List.filter_eq_nil_iff]
    intro p hp
    obtain ⟨i, hi, rfl⟩ := List.mem_map.mp hp
    obtain ⟨ax, d, h⟩ := h0 i hi
    simp [h, Piece.isEmpty]
  have hfound : found l = .many l := by
    match l, h2 with
    | _ :: _ :: _, _ => rfl
  unfold slice
  simp only [hl, hfound, finalize, hnil]
  rfl

/-- C182 is violated: a single point in more than one patch is an AttributeError -/
theorem C182_number_violated [DecidableEq D] (atol : ℚ) (ps : List Patch) (sel : List Sel) (f : Nat → Piece D) (l : List Nat) (hl : patchInds atol ps false sel = .ok l)
    (h2 : 2 ≤ l.length) (i : Nat) (hi : i ∈ l) (d : D) (hf : f i = .number d) : slice atol ps false sel f = .error .attribute := by
  have hany : ((l.map f).filter fun p => !p.isEmpty).any Piece.isNumber = true :=
    List.any_eq_true.mpr ⟨f i, List.mem_filter.mpr ⟨List.mem_map.mpr ⟨i, hi, rfl⟩, by simp [hf, Piece.isEmpty]⟩, by simp [hf, Piece.isNumber]⟩
  have hfound : found l = .many l := by
    match l, h2 with
    | _ :: _ :: _, _ => rfl
  unfold slice
  simp only [hl, hfound, finalize, hany, if_true]
  rfl

/-- C182 is violated: the slices can have different axes, if in one patch one axis is left out and in another one another -/
theorem C182_axes_violated : finalize [.fld 4 ["y", "z"] 0, .fld 4 ["x", "z"] (1 : Nat)] = .ok [(["y", "z"], 0), (["x", "z"], 1)] := by
  decide +kernel

/-- the hypotheses of the theorem are met by three patches of which one has only one value in `x`, and one has none at all -/
example : finalize [.fld 4 ["y", "z"] 0, .fld 0 ["x"] (1 : Nat), .fld 8 ["x", "y", "z"] 2] = .ok [(["x", "y", "z"], 0), (["x", "y", "z"], 2)] ∧
    slice 0 amrEx false [.slc (.val 1500) (.val 500) (some (-1)), .one (.val (1 / 2))] (fun i => if i = 0 then .fld 4 ["z"] 10 else .fld 5 ["x", "z"] (20 : Nat)) =
      .ok (.amr [(["x", "z"], 10), (["x", "z"], 20)]) := by
  constructor <;> decide +kernel

/-! ## attributes -/

/-- an attribute that is a number or text, an array with values, or an object compared by identity -/
def Ordinary : Attr → Prop
  | .array l => l ≠ []
  | .field _ => False
  | _ => True

theorem eqTruth_iff {a b : Attr} (ha : Ordinary a) {t : Bool} (h : eqTruth b a = some t) : t = true ↔ b = a := by
  cases a <;> cases b <;> simp only [eqTruth, Ordinary, Option.some.injEq] at h ha <;> try (subst h; simp)
  rename_i l m
  by_cases h1 : m.length = l.length
  · rw [if_pos h1] at h
    by_cases h2 : m = []
    · subst h2
      exact absurd (List.length_eq_zero_iff.mp h1.symm) ha
    · rw [if_neg h2] at h
      by_cases h3 : m.length = 1
      · rw [if_pos h3] at h
        simp only [Option.some.injEq] at h
        subst h
        simp
      · rw [if_neg h3] at h
        cases h
  · rw [if_neg h1] at h
    simp only [Option.some.injEq] at h
    subst h
    simp only [Bool.false_eq_true, Attr.array.injEq, false_iff]
    rintro rfl
    exact h1 rfl

theorem eqAll_iff {a b : Attr} : eqAll b a = true ↔ b = a := by
  cases a <;> cases b <;> simp [eqAll]

/-- C183: an attribute of a field of patches is the one of the patches if all have the same, and a ValueError otherwise -/
theorem C183_attribute_partial (a : Attr) (l : List Attr) (h : Ordinary a) :
    ((∀ b ∈ l, b = a) → getattr (a :: l) = .ok a) ∧ ((∃ b ∈ l, b ≠ a) → getattr (a :: l) = .error .value) := by
  have key : ∀ l : List Attr, (match allTruth a l with | some b => b | none => l.all fun b => eqAll b a) = true ↔ ∀ b ∈ l, b = a := by
    have h1 : ∀ l : List Attr, ∀ t, allTruth a l = some t → (t = true ↔ ∀ b ∈ l, b = a) := by
      intro l
      induction l with
      | nil => intro t ht; simp only [allTruth, Option.some.injEq] at ht; subst ht; simp
      | cons b l ih =>
        intro t ht
        unfold allTruth at ht
        cases he : eqTruth b a with
        | none => rw [he] at ht; cases ht
        | some u =>
          rw [he] at ht
          have hu := eqTruth_iff h he
          cases u with
          | false =>
            simp only [Option.some.injEq] at ht
            subst ht
            simp only [Bool.false_eq_true, false_iff] at hu ⊢
            exact fun hh => hu (hh b (by simp))
          | true =>
            rw [ih t ht]
            have hb := hu.mp rfl
            simp [hb]
    intro l
    cases ht : allTruth a l with
    | some t => exact h1 l t ht
    | none =>
      simp only [List.all_eq_true]
      exact forall_congr' fun b => imp_congr_right fun _ => eqAll_iff
  constructor
  · intro hall
    unfold getattr
    simp only
    exact if_pos ((key l).mpr hall)
  · rintro ⟨b, hb, hne⟩
    unfold getattr
    simp only
    exact if_neg fun hh => hne ((key l).mp hh b hb)

/-- C183: without patches it is an IndexError -/
theorem C183_empty : getattr [] = .error .index := rfl

/-- C183 is violated: an attribute that is a field, like `amr.real`, is that of the first patch, whatever the other ones are, if there are as many values in each -/
theorem C183_field_violated (v : List Int) (hv : v ≠ []) (l : List (List Int)) (hl : ∀ w ∈ l, w.length = v.length) : getattr (.field v :: l.map .field) = .ok (.field v) := by
  have h : allTruth (.field v) (l.map .field) = some true := by
    induction l with
    | nil => rfl
    | cons w l ih =>
      have h1 := hl w (by simp)
      have hw : w ≠ [] := by
        rintro rfl
        exact hv (List.length_eq_zero_iff.mp h1.symm)
      have : eqTruth (.field w) (.field v) = some true := by simp [eqTruth, h1, hw]
      simp only [List.map_cons, allTruth, this]
      exact ih fun x hx => hl x (List.mem_cons_of_mem _ hx)
  unfold getattr
  simp [h]

/-- C183 is violated: an attribute that is an array without values is a ValueError although all patches have the same -/
theorem C183_no_values_violated : getattr [.array [], .array []] = .error .value := by decide

example : getattr [.plain 3, .plain 3, .plain 3] = .ok (.plain 3) ∧ getattr [.array [1, 2], .array [1, 2]] = .ok (.array [1, 2]) ∧
    getattr [.array [1, 2], .array [1, 2], .array [1, 3]] = .error .value ∧ getattr [.field [1, 2], .field [3, 4]] = .ok (.field [1, 2]) ∧
    getattr [.object 1, .object 2] = .error .value := by decide

/-! ## functions -/

/-- C184: a function of numpy gives a field of as many patches, each with the values of the function, if the patches have the same shape -/
theorem C184_function_partial (f : α → α) (p : NArr α) (ps : List (NArr α)) (h : ∀ q ∈ ps, q.shape = p.shape) :
    ∃ rs, ufunc f (p :: ps) = .ok rs ∧ rs.length = ps.length + 1 ∧
      ∀ (i : Nat) q, (p :: ps)[i]? = some q → ∃ r, rs[i]? = some r ∧ r.shape = q.shape ∧ ∀ idx, r.get idx = f (q.get idx) := by
  have hr : ufunc f (p :: ps) = .ok ((List.range (ps.length + 1)).map fun i => ⟨p.shape, fun idx => f (match (p :: ps)[i]? with
      | some q => q.get idx
      | none => p.get idx)⟩) := by
    unfold ufunc asArray
    simp only [if_pos h]
    unfold arrayWrap
    simp
    intro a _
    rfl
  refine ⟨_, hr, by simp, fun i q hq => ?_⟩
  have hi : i < ps.length + 1 := by
    have := (List.getElem?_eq_some_iff.mp hq).1
    simpa using this
  refine ⟨_, by rw [List.getElem?_map, List.getElem?_range hi]; rfl, ?_, ?_⟩
  · rcases List.mem_cons.mp (List.mem_of_getElem? hq) with rfl | hm
    · rfl
    · exact (h q hm).symm
  · intro idx
    simp only [hq]

/-- C184 is violated: patches with different shapes are a ValueError -/
theorem C184_shapes_violated (f : α → α) (p : NArr α) (ps : List (NArr α)) (h : ∃ q ∈ ps, q.shape ≠ p.shape) : ufunc f (p :: ps) = .error .value := by
  have hn : ¬ ∀ q ∈ ps, q.shape = p.shape := by
    obtain ⟨q, hq, hne⟩ := h
    exact fun hh => hne (hh q hq)
  unfold ufunc asArray
  simp only [if_neg hn]

example : ∀ q ∈ [(⟨[2, 2], fun i => i.sum⟩ : NArr Nat)], q.shape = (⟨[2, 2], fun i => i.length⟩ : NArr Nat).shape := by simp

/-! ## skeletons -/

theorem allclose_iff {a b : List ℚ} : allclose a b = true ↔ ∀ (k : Nat) x y, a[k]? = some x → b[k]? = some y → |x - y| ≤ 1 / 100000000 + 1 / 100000 * |y| := by
  unfold allclose
  rw [List.all_eq_true]
  constructor
  · intro h k x y hx hy
    have := h (decide (|x - y| ≤ 1 / 100000000 + 1 / 100000 * |y|)) (List.mem_iff_getElem?.mpr ⟨k, by simp [List.getElem?_zipWith, hx, hy]⟩)
    simpa using this
  · intro h t ht
    obtain ⟨k, hk⟩ := List.mem_iff_getElem?.mp ht
    rw [List.getElem?_zipWith] at hk
    cases hx : a[k]? with
    | none => simp [hx] at hk
    | some x =>
      cases hy : b[k]? with
      | none => simp [hx, hy] at hk
      | some y =>
        simp only [hx, hy, Option.some.injEq] at hk
        subst hk
        simpa using h k x y hx hy

/-- a box and one that is taken for it: as many cells, and about the same lower corner -/
def Alike (p g : Box) : Prop := p.n = g.n ∧ ∀ (k : Nat) x y, p.lo[k]? = some x → g.lo[k]? = some y → |x - y| ≤ 1 / 100000000 + 1 / 100000 * |y|

theorem compatible_iff {s g : List Box} : compatible s g = true ↔ List.Forall₂ Alike s g := by
  unfold compatible
  induction s generalizing g with
  | nil =>
    cases g with
    | nil => simp
    | cons q g => exact ⟨fun h => by simp at h, fun h => nomatch h⟩
  | cons p s ih =>
    cases g with
    | nil => exact ⟨fun h => by simp at h, fun h => nomatch h⟩
    | cons q g =>
      have := @ih g
      simp only [List.length_cons, ne_eq, Nat.add_right_cancel_iff, List.zipWith_cons_cons, List.all_cons, id, List.forall₂_cons, ← this] at this ⊢
      by_cases hl : g.length = s.length
      · simp only [hl, not_true, if_false, Bool.and_eq_true, decide_eq_true_eq, allclose_iff, Alike]
      · simp [hl]

/-- C185: the patches of every skeleton in a file are as many as the grids, with as many cells each, and lower corners that are at most the tolerance away; and they are
the grids, if these are not like those of the time before -/
theorem C185_skeletons_partial (last : Option (List Box)) (gs : List (List Box)) :
    (skeletons last gs).length = gs.length ∧
    ∀ (t : Nat) g, gs[t]? = some g → ∃ s, (skeletons last gs)[t]? = some s ∧ (s = g ∨ List.Forall₂ Alike s g) ∧
      ((∀ s', (match t with | 0 => last | u + 1 => (skeletons last gs)[u]?) = some s' → ¬ List.Forall₂ Alike s' g) → s = g) := by
  induction gs generalizing last with
  | nil => exact ⟨rfl, fun t g h => by simp at h⟩
  | cons g0 gs ih =>
    obtain ⟨h1, h2⟩ := ih (some (skeletonOf last g0))
    refine ⟨by simp [skeletons, h1], fun t g ht => ?_⟩
    cases t with
    | zero =>
      simp only [List.getElem?_cons_zero, Option.some.injEq] at ht
      subst ht
      refine ⟨skeletonOf last g0, by simp [skeletons], ?_, ?_⟩
      · unfold skeletonOf
        cases last with
        | none => exact Or.inl rfl
        | some s =>
          simp only
          split
          · rename_i h; exact Or.inr (compatible_iff.mp h)
          · exact Or.inl rfl
      · intro h
        unfold skeletonOf
        cases last with
        | none => rfl
        | some s =>
          simp only
          rw [if_neg fun hc => h s rfl (compatible_iff.mp hc)]
    | succ t =>
      simp only [List.getElem?_cons_succ] at ht
      obtain ⟨s, e1, e2, e3⟩ := h2 t g ht
      refine ⟨s, by simpa [skeletons] using e1, e2, fun h => e3 fun s' hs' => h s' ?_⟩
      cases t with
      | zero => simpa [skeletons] using hs'
      | succ u => simpa [skeletons] using hs'

/-- C185 is violated: when a patch is as many cells and begins where it did, but is larger, its upper corner is that of the time before -/
theorem C185_upper_violated : skeletons none [[⟨[4], [0], [1]⟩, ⟨[4], [1], [2]⟩], [⟨[4], [0], [1]⟩, ⟨[4], [1], [3]⟩]] =
    [[⟨[4], [0], [1]⟩, ⟨[4], [1], [2]⟩], [⟨[4], [0], [1]⟩, ⟨[4], [1], [2]⟩]] := by decide +kernel

/-- C185 is violated: a patch that has moved by less than a part in 100000 is where it was -/
theorem C185_lower_violated : skeletons none [[⟨[4], [1000], [1004]⟩], [⟨[4], [1000 + 1 / 200], [1004 + 1 / 200]⟩]] =
    [[⟨[4], [1000], [1004]⟩], [⟨[4], [1000], [1004]⟩]] := by decide +kernel

example : skeletons none [[⟨[4], [0], [1]⟩], [⟨[8], [0], [1]⟩], [⟨[8], [1], [2]⟩]] = [[⟨[4], [0], [1]⟩], [⟨[8], [0], [1]⟩], [⟨[8], [1], [2]⟩]] := by decide +kernel

end Viscid.Props
