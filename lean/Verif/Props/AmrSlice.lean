import Verif.Model.AmrSlice
import Verif.Spec.AmrSlice
import Mathlib.Tactic.Linarith
import Mathlib.Tactic.NormNum
/-!
# C181: which patches a selection takes
-/
namespace Viscid.Props
open Viscid.AmrSlice Viscid.Spec.AmrSlice
open Viscid.Interior (End)
open Viscid.Select (Bound)

theorem num_lt {a b : ℚ} : num a < num b ↔ a < b := by unfold num; norm_cast
theorem num_le {a b : ℚ} : num a ≤ num b ↔ a ≤ b := by unfold num; norm_cast
theorem num_ne_bot {a : ℚ} : (⊥ : E) < num a := WithBot.bot_lt_coe _
theorem num_ne_top {a : ℚ} : num a < (⊤ : E) := by
  unfold num
  exact WithBot.coe_lt_coe.mpr (WithTop.coe_lt_top a)

/-- the extent of a selection by value is its set of coordinates -/
theorem extent1_in {s : Sel} (h : ByValue s) : ∃ e, extent1 s = .ok e ∧ e.1 ≤ e.2 ∧ e.1 ≠ ⊤ ∧ e.2 ≠ ⊥ ∧ ∀ x, InSel s x ↔ e.1 ≤ num x ∧ num x ≤ e.2 := by
  have nb : ∀ q : ℚ, num q ≠ ⊥ := fun q => ne_of_gt num_ne_bot
  have nt : ∀ q : ℚ, num q ≠ ⊤ := fun q => ne_of_lt num_ne_top
  match s, h with
  | .one (.val v), _ =>
    refine ⟨(num v, num v), by simp [extent1, values, Interior.sel2valuesOne, ext], le_refl _, nt v, nb v, fun x => ?_⟩
    simp only [InSel, num_le]
    constructor
    · rintro rfl; exact ⟨le_refl _, le_refl _⟩
    · rintro ⟨h1, h2⟩; exact le_antisymm h2 h1
  | .slc (.val a) (.val b) u, _ =>
    have e1 : extent1 (.slc (.val a) (.val b) u) = .ok (if num b < num a then (num b, num a) else (num a, num b)) := by
      simp [extent1, values, Interior.sel2values, Interior.endOf, ext]
    by_cases hab : b < a
    · rw [if_pos (num_lt.mpr hab)] at e1
      refine ⟨_, e1, num_le.mpr hab.le, nt b, nb a, fun x => ?_⟩
      simp only [InSel, num_le, min_eq_right hab.le, max_eq_left hab.le]
    · rw [if_neg (fun h => hab (num_lt.mp h))] at e1
      refine ⟨_, e1, num_le.mpr (not_lt.mp hab), nt a, nb b, fun x => ?_⟩
      simp only [InSel, num_le, min_eq_left (not_lt.mp hab), max_eq_right (not_lt.mp hab)]
  | .slc (.val a) .none u, h =>
    by_cases hu : 0 < u.getD 1
    · refine ⟨(num a, ⊤), ?_, le_top, nt a, by simp, fun x => ?_⟩
      · simp [extent1, values, Interior.sel2values, Interior.endOf, ext, hu]
      · simp [InSel, hu, num_le]
    · have hu' : u.getD 1 < 0 := lt_of_le_of_ne (not_lt.mp hu) h
      refine ⟨(⊥, num a), ?_, bot_le, by simp, nb a, fun x => ?_⟩
      · simp [extent1, values, Interior.sel2values, Interior.endOf, ext, hu, hu', num_ne_bot]
      · simp [InSel, hu, num_le]
  | .slc .none (.val b) u, h =>
    by_cases hu : 0 < u.getD 1
    · refine ⟨(⊥, num b), ?_, bot_le, by simp, nb b, fun x => ?_⟩
      · simp [extent1, values, Interior.sel2values, Interior.endOf, ext, hu]
      · simp [InSel, hu, num_le]
    · have hu' : u.getD 1 < 0 := lt_of_le_of_ne (not_lt.mp hu) h
      refine ⟨(num b, ⊤), ?_, le_top, nt b, by simp, fun x => ?_⟩
      · simp [extent1, values, Interior.sel2values, Interior.endOf, ext, hu, hu', num_ne_top]
      · simp [InSel, hu, num_le]
  | .slc .none .none u, h =>
    by_cases hu : 0 < u.getD 1
    · refine ⟨(⊥, ⊤), ?_, le_top, by simp, by simp, fun x => ?_⟩
      · simp [extent1, values, Interior.sel2values, Interior.endOf, ext, hu]
      · simp [InSel]
    · have hu' : u.getD 1 < 0 := lt_of_le_of_ne (not_lt.mp hu) h
      refine ⟨(⊥, ⊤), ?_, le_top, by simp, by simp, fun x => ?_⟩
      · simp [extent1, values, Interior.sel2values, Interior.endOf, ext, hu, hu']
      · simp [InSel]
  | .one .none, h => exact absurd h (by simp [ByValue])
  | .one (.idx _), h => exact absurd h (by simp [ByValue])
  | .slc (.idx _) _ _, h => exact absurd h (by simp [ByValue])
  | .slc (.val _) (.idx _) _, h => exact absurd h (by simp [ByValue])
  | .slc .none (.idx _) _, h => exact absurd h (by simp [ByValue])

theorem extents_in {sel : List Sel} (h : ∀ s ∈ sel, ByValue s) : ∃ es, extents sel = .ok es ∧ es.length = sel.length ∧
    ∀ (k : Nat) s, sel[k]? = some s → ∃ e, es[k]? = some e ∧ extent1 s = .ok e := by
  induction sel with
  | nil => exact ⟨[], rfl, rfl, fun k s h => by simp at h⟩
  | cons s l ih =>
    obtain ⟨es, h1, h2, h3⟩ := ih fun s' hs => h s' (List.mem_cons_of_mem _ hs)
    obtain ⟨e, he, -⟩ := extent1_in (h s (by simp))
    refine ⟨e :: es, by simp [extents, he, h1], by simp [h2], fun k s' hk => ?_⟩
    cases k with
    | zero => simp only [List.getElem?_cons_zero, Option.some.injEq] at hk ⊢; subst hk; exact ⟨e, rfl, he⟩
    | succ k => simp only [List.getElem?_cons_succ] at hk ⊢; exact h3 k s' hk

/-- an interval and a half-open one have a point in common -/
theorem meets {e : E × E} (h1 : e.1 ≤ e.2) (ht : e.1 ≠ ⊤) (hb : e.2 ≠ ⊥) {a b : ℚ} (hab : a < b) :
    (¬ e.2 < num a ∧ ¬ num b ≤ e.1) ↔ ∃ x, (e.1 ≤ num x ∧ num x ≤ e.2) ∧ a ≤ x ∧ x < b := by
  rw [not_lt, not_le]
  constructor
  · rintro ⟨h2, h3⟩
    match e, h1, ht, hb, h2, h3 with
    | (e1, e2), h1, ht, hb, h2, h3 =>
    by_cases h4 : e1 ≤ num a
    · exact ⟨a, ⟨h4, h2⟩, le_refl _, hab⟩
    · have h4 := not_le.mp h4
      match e1, h1, ht, h3, h4 with
      | none, _, _, _, h4 => exact absurd h4 (not_lt.mpr bot_le)
      | some none, _, ht, _, _ => exact absurd rfl ht
      | some (some q), h1, _, h3, h4 =>
        have hq : (some (some q) : E) = num q := rfl
        rw [hq] at h1 h3 h4
        exact ⟨q, ⟨le_refl _, h1⟩, (num_lt.mp h4).le, num_lt.mp h3⟩
  · rintro ⟨x, ⟨h2, h3⟩, h4, h5⟩
    exact ⟨le_trans (num_le.mpr h4) h3, lt_of_le_of_lt h2 (num_lt.mpr h5)⟩

theorem flat_iff {ps : List Patch} {k : Nat} : flat ps k = true ↔ Flat ps k := by
  unfold flat Flat
  simp

/-- the patches are boxes: lower ends below upper ones unless all are flat in that direction -/
def Boxes (ps : List Patch) (n : Nat) : Prop := ∀ p ∈ ps, ∀ k < n, Flat ps k ∨ p.lo.getD k 0 < p.hi.getD k 0

theorem hit_iff {atol : ℚ} (ha : 0 ≤ atol) {ps : List Patch} {p : Patch} (hp : p ∈ ps) {sel : List Sel} (hs : ∀ s ∈ sel, ByValue s) (hb : Boxes ps sel.length)
    {es : List (E × E)} (he : extents sel = .ok es) : hit atol ps p es = true ↔ Overlaps atol ps p sel := by
  obtain ⟨es', he', hl, hk⟩ := extents_in hs
  rw [he] at he'
  simp only [Except.ok.injEq] at he'
  subst he'
  unfold hit Overlaps
  rw [List.all_eq_true]
  have step : ∀ (k : Nat) s e, sel[k]? = some s → es[k]? = some e → (hit1 atol ps p k e = true ↔ Flat ps k ∨ ∃ x, InSel s x ∧ p.lo.getD k 0 - atol ≤ x ∧ x < p.hi.getD k 0) := by
    intro k s e h1 h2
    obtain ⟨e', h3, h4⟩ := hk k s h1
    rw [h2] at h3
    simp only [Option.some.injEq] at h3
    subst h3
    obtain ⟨e', h5, h6, h7, h8, h9⟩ := extent1_in (hs s (List.mem_of_getElem? h1))
    rw [h4] at h5
    simp only [Except.ok.injEq] at h5
    subst h5
    unfold hit1
    rw [Bool.or_eq_true, flat_iff]
    have hkl : k < sel.length := (List.getElem?_eq_some_iff.mp h1).1
    rcases hb p hp k hkl with hf | hlt
    · simp [hf]
    · refine or_congr Iff.rfl ?_
      have := meets h6 h7 h8 (show p.lo.getD k 0 - atol < p.hi.getD k 0 by linarith)
      simp only [Bool.not_eq_true', Bool.or_eq_false_iff, decide_eq_false_iff_not]
      rw [this]
      exact exists_congr fun x => by rw [h9 x]
  constructor
  · intro h k s hks
    obtain ⟨e, h3, -⟩ := hk k s hks
    exact (step k s e hks h3).mp (h (e, k) (List.mem_iff_getElem?.mpr ⟨k, by simp [List.getElem?_zipIdx, h3]⟩))
  · intro h x hx
    obtain ⟨i, hi⟩ := List.mem_iff_getElem?.mp hx
    rw [List.getElem?_zipIdx] at hi
    cases h2 : es[i]? with
    | none => rw [h2] at hi; simp at hi
    | some e =>
      rw [h2] at hi
      simp only [Option.map_some, Nat.zero_add, Option.some.injEq] at hi
      subst hi
      have hil : i < sel.length := by rw [← hl]; exact (List.getElem?_eq_some_iff.mp h2).1
      have h1 : sel[i]? = some sel[i] := List.getElem?_eq_getElem hil
      exact (step i sel[i] e h1 h2).mpr (h i _ h1)

theorem maybe_iff {atol : ℚ} {p : Patch} {sel : List Sel} (hs : ∀ s ∈ sel, ByValue s) {es : List (E × E)} (he : extents sel = .ok es) :
    maybe atol p es = true ↔ StartsNear atol p sel := by
  obtain ⟨es', he', hl, hk⟩ := extents_in hs
  rw [he] at he'
  simp only [Except.ok.injEq] at he'
  subst he'
  have step : ∀ (k : Nat) s e, sel[k]? = some s → es[k]? = some e → (isclose atol (p.hi.getD k 0) e.1 = true ↔
      ∃ x, InSel s x ∧ (∀ y, InSel s y → x ≤ y) ∧ |p.hi.getD k 0 - x| ≤ atol + 1 / 100000 * |x|) := by
    intro k s e h1 h2
    obtain ⟨e', h3, h4⟩ := hk k s h1
    rw [h2] at h3
    simp only [Option.some.injEq] at h3
    subst h3
    obtain ⟨e', h5, h6, h7, h8, h9⟩ := extent1_in (hs s (List.mem_of_getElem? h1))
    rw [h4] at h5
    simp only [Except.ok.injEq] at h5
    subst h5
    match e, h6, h7, h8, h9 with
    | (e1, e2), h6, h7, h8, h9 =>
    match e1, h6, h7, h9 with
    | none, _, _, h9 =>
      constructor
      · intro h; simp [isclose] at h
      · rintro ⟨x, hx, hmin, -⟩
        exfalso
        have hy : InSel s (x - 1) := (h9 _).mpr ⟨bot_le, le_trans (num_le.mpr (by linarith)) ((h9 x).mp hx).2⟩
        have := hmin _ hy
        linarith
    | some none, _, h7, _ => exact absurd rfl h7
    | some (some q), h6, _, h9 =>
      have hq : (some (some q) : E) = num q := rfl
      have hi : isclose atol (p.hi.getD k 0) (some (some q)) = decide (|p.hi.getD k 0 - q| ≤ atol + 1 / 100000 * |q|) := rfl
      show isclose atol (p.hi.getD k 0) (some (some q)) = true ↔ _
      rw [hi, decide_eq_true_iff]
      rw [hq] at h9 h6
      have hin : InSel s q := (h9 q).mpr ⟨le_refl _, h6⟩
      constructor
      · intro h
        exact ⟨q, hin, fun y hy => num_le.mp ((h9 y).mp hy).1, h⟩
      · rintro ⟨x, hx, hmin, h⟩
        have : x = q := le_antisymm (hmin q hin) (num_le.mp ((h9 x).mp hx).1)
        rw [← this]; exact h
  unfold maybe StartsNear
  rw [List.any_eq_true]
  constructor
  · rintro ⟨⟨e, i⟩, hx, h⟩
    obtain ⟨j, hj⟩ := List.mem_iff_getElem?.mp hx
    rw [List.getElem?_zipIdx] at hj
    cases h2 : es[j]? with
    | none => rw [h2] at hj; simp at hj
    | some e' =>
      rw [h2] at hj
      simp only [Option.map_some, Nat.zero_add, Option.some.injEq, Prod.mk.injEq] at hj
      obtain ⟨rfl, rfl⟩ := hj
      have hil : j < sel.length := by rw [← hl]; exact (List.getElem?_eq_some_iff.mp h2).1
      have h1 : sel[j]? = some sel[j] := List.getElem?_eq_getElem hil
      obtain ⟨x, hx⟩ := (step j sel[j] _ h1 h2).mp h
      exact ⟨j, _, x, h1, hx⟩
  · rintro ⟨k, s, x, h1, hx⟩
    obtain ⟨e, h2, -⟩ := hk k s h1
    exact ⟨(e, k), List.mem_iff_getElem?.mpr ⟨k, by simp [List.getElem?_zipIdx, h2]⟩, (step k s e h1 h2).mpr ⟨x, hx⟩⟩

/-- the indices that are returned -/
theorem patchInds_eq {atol : ℚ} (ha : 0 ≤ atol) {ps : List Patch} (hps : ps ≠ []) {sel : List Sel} (hs : ∀ s ∈ sel, ByValue s) (hb : Boxes ps sel.length) :
    ∃ l, patchInds atol ps false sel = .ok l ∧ l.Pairwise (· < ·) ∧
      ((∃ (i : Nat) (p : Patch), ps[i]? = some p ∧ Overlaps atol ps p sel ∧ ¬ StartsNear atol p sel) →
        ∀ i : Nat, i ∈ l ↔ ∃ p, ps[i]? = some p ∧ Overlaps atol ps p sel ∧ ¬ StartsNear atol p sel) ∧
      ((¬ ∃ (i : Nat) (p : Patch), ps[i]? = some p ∧ Overlaps atol ps p sel ∧ ¬ StartsNear atol p sel) →
        ∀ i : Nat, i ∈ l ↔ ∃ p, ps[i]? = some p ∧ Overlaps atol ps p sel) := by
  obtain ⟨es, he, -, -⟩ := extents_in hs
  have hh : ∀ i : Nat, i ∈ ((List.range ps.length).filter fun i => match ps[i]? with | some p => hit atol ps p es | none => false) ↔
      ∃ p, ps[i]? = some p ∧ Overlaps atol ps p sel := by
    intro i
    rw [List.mem_filter, List.mem_range]
    cases hp : ps[i]? with
    | none => simp
    | some p =>
      have := hit_iff ha (List.mem_of_getElem? hp) hs hb he
      simp only [this, Option.some.injEq, exists_eq_left']
      exact ⟨fun h => h.2, fun h => ⟨(List.getElem?_eq_some_iff.mp hp).1, h⟩⟩
  have hn : ∀ (i : Nat) (p : Patch), ps[i]? = some p → ((match ps[i]? with | some p => maybe atol p es | none => false) = true ↔ StartsNear atol p sel) := by
    intro i p hp
    rw [hp]
    exact maybe_iff hs he
  have hsort : ((List.range ps.length).filter fun i => match ps[i]? with | some p => hit atol ps p es | none => false).Pairwise (· < ·) :=
    List.Pairwise.filter _ List.pairwise_lt_range
  have hfar : ∀ i : Nat, i ∈ (((List.range ps.length).filter fun i => match ps[i]? with | some p => hit atol ps p es | none => false).filter
      fun i => !(match ps[i]? with | some p => maybe atol p es | none => false)) ↔
      ∃ p, ps[i]? = some p ∧ Overlaps atol ps p sel ∧ ¬ StartsNear atol p sel := by
    intro i
    rw [List.mem_filter, hh]
    constructor
    · rintro ⟨⟨p, hp, ho⟩, h⟩
      refine ⟨p, hp, ho, fun hsn => ?_⟩
      rw [(hn i p hp).mpr hsn] at h
      simp at h
    · rintro ⟨p, hp, ho, hsn⟩
      refine ⟨⟨p, hp, ho⟩, ?_⟩
      rw [Bool.not_eq_true', ← Bool.not_eq_true, hn i p hp]
      exact hsn
  by_cases hc : ∃ (i : Nat) (p : Patch), ps[i]? = some p ∧ Overlaps atol ps p sel ∧ ¬ StartsNear atol p sel
  · refine ⟨_, ?_, ?_, fun _ => hfar, fun h => absurd hc h⟩
    · unfold patchInds
      rw [if_neg hps, he]
      simp only [Bool.false_eq_true, if_false]
      refine if_neg fun h => ?_
      obtain ⟨i, hi⟩ := hc
      exact List.ne_nil_of_mem ((hfar i).mpr hi) h
    · exact List.Pairwise.filter _ hsort
  · refine ⟨((List.range ps.length).filter fun i => match ps[i]? with | some p => hit atol ps p es | none => false).filter
      fun i => (match ps[i]? with | some p => maybe atol p es | none => false), ?_, ?_, fun h => absurd h hc, fun _ => ?_⟩
    · unfold patchInds
      rw [if_neg hps, he]
      simp only [Bool.false_eq_true, if_false]
      refine if_pos ?_
      exact List.eq_nil_iff_forall_not_mem.mpr fun i hi => hc ⟨i, (hfar i).mp hi⟩
    · exact List.Pairwise.filter _ hsort
    · intro i
      rw [List.mem_filter, hh]
      constructor
      · exact fun h => h.1
      · rintro ⟨p, hp, ho⟩
        refine ⟨⟨p, hp, ho⟩, ?_⟩
        rw [hn i p hp]
        by_contra hsn
        exact hc ⟨i, p, hp, ho, hsn⟩

/-- C181: a selection by value takes exactly the patches that have points of it, in order, if it does not begin near the upper boundary of one of them, nor end just below
the lower boundary of one -/
theorem C181_exact_partial (atol : ℚ) (ha : 0 ≤ atol) (ps : List Patch) (hps : ps ≠ []) (sel : List Sel) (hs : ∀ s ∈ sel, ByValue s) (hb : Boxes ps sel.length)
    (hnear : ∀ p ∈ ps, ¬ StartsNear atol p sel) (hlow : ∀ p ∈ ps, Overlaps atol ps p sel → Overlaps 0 ps p sel) :
    ∃ l, patchInds atol ps false sel = .ok l ∧ l.Pairwise (· < ·) ∧ ∀ i : Nat, i ∈ l ↔ ∃ p, ps[i]? = some p ∧ Overlaps 0 ps p sel := by
  obtain ⟨l, h1, h2, h3, h4⟩ := patchInds_eq ha hps hs hb
  have hup : ∀ p, Overlaps 0 ps p sel → Overlaps atol ps p sel := by
    intro p h k s hk
    rcases h k s hk with h | ⟨x, h5, h6, h7⟩
    · exact Or.inl h
    · exact Or.inr ⟨x, h5, by linarith, h7⟩
  have hiff : ∀ (i : Nat) (p : Patch), ps[i]? = some p → (Overlaps atol ps p sel ↔ Overlaps 0 ps p sel) := fun i p hp => ⟨hlow p (List.mem_of_getElem? hp), hup p⟩
  refine ⟨l, h1, h2, fun i => ?_⟩
  by_cases hc : ∃ (i : Nat) (p : Patch), ps[i]? = some p ∧ Overlaps atol ps p sel ∧ ¬ StartsNear atol p sel
  · rw [h3 hc i]
    exact exists_congr fun p => and_congr_right fun hp => by
      rw [hiff i p hp]
      exact ⟨fun h => h.1, fun h => ⟨h, hnear p (List.mem_of_getElem? hp)⟩⟩
  · rw [h4 hc i]
    exact exists_congr fun p => and_congr_right fun hp => hiff i p hp

/-- C181: whatever the tolerance does, nothing is taken that has no points of the selection within `atol`, and a patch with points of it is missed only if the selection begins
near its upper boundary and another patch is taken -/
theorem C181_sound_partial (atol : ℚ) (ha : 0 ≤ atol) (ps : List Patch) (hps : ps ≠ []) (sel : List Sel) (hs : ∀ s ∈ sel, ByValue s) (hb : Boxes ps sel.length) :
    ∃ l, patchInds atol ps false sel = .ok l ∧ (∀ i ∈ l, ∃ p, ps[i]? = some p ∧ Overlaps atol ps p sel) ∧
      ∀ (i : Nat) (p : Patch), ps[i]? = some p → Overlaps atol ps p sel → i ∈ l ∨ (StartsNear atol p sel ∧ l ≠ []) := by
  obtain ⟨l, h1, h2, h3, h4⟩ := patchInds_eq ha hps hs hb
  refine ⟨l, h1, ?_, ?_⟩
  · by_cases hc : ∃ (i : Nat) (p : Patch), ps[i]? = some p ∧ Overlaps atol ps p sel ∧ ¬ StartsNear atol p sel
    · intro i hi
      obtain ⟨p, hp, ho, -⟩ := (h3 hc i).mp hi
      exact ⟨p, hp, ho⟩
    · exact fun i hi => (h4 hc i).mp hi
  · intro i p hp ho
    by_cases hc : ∃ (i : Nat) (p : Patch), ps[i]? = some p ∧ Overlaps atol ps p sel ∧ ¬ StartsNear atol p sel
    · by_cases hsn : StartsNear atol p sel
      · right
        refine ⟨hsn, ?_⟩
        obtain ⟨j, hj⟩ := hc
        intro h
        have := (h3 ⟨j, hj⟩ j).mpr hj
        rw [h] at this
        simp at this
      · exact Or.inl ((h3 hc i).mpr ⟨p, hp, ho, hsn⟩)
    · exact Or.inl ((h4 hc i).mpr ⟨p, hp, ho⟩)

/-- C181: an index is refused -/
theorem C181_index (atol : ℚ) (p : Patch) (ps : List Patch) (sel : List Sel) (i : Int) :
    patchInds atol (p :: ps) false (.one (.idx i) :: sel) = .error .runtime := by
  unfold patchInds
  rw [if_neg (by simp)]
  have : extent1 (.one (.idx i)) = .error .runtime := rfl
  simp [extents, this]

/-- C181 is violated: a component can not be selected -/
theorem C181_component_violated (atol : ℚ) (ps : List Patch) (sel : List Sel) [DecidableEq D] (f : Nat → Piece D) :
    slice atol ps true sel f = .error .value := by
  unfold slice patchInds
  split <;> rename_i h <;> split at h <;> simp_all

/-- two patches side by side -/
def amrEx : List Patch := [⟨[0, 0], [1000, 1]⟩, ⟨[1000, 0], [2000, 1]⟩]

/-- C181 is violated: a selection from 999.995 to 1500 does not have the points of the first patch -/
theorem C181_near_violated : patchInds 0 amrEx false [.slc (.val (999995 / 1000)) (.val 1500) none, .slc .none .none none] = .ok [1] ∧
    Overlaps 0 amrEx ⟨[0, 0], [1000, 1]⟩ [.slc (.val (999995 / 1000)) (.val 1500) none, .slc .none .none none] := by
  constructor
  · decide +kernel
  · intro k s hk
    match k with
    | 0 =>
      simp only [List.getElem?_cons_zero, Option.some.injEq] at hk
      subst hk
      refine Or.inr ⟨999999 / 1000, ?_, ?_, ?_⟩ <;> norm_num [InSel]
    | 1 =>
      simp only [List.getElem?_cons_succ, List.getElem?_cons_zero, Option.some.injEq] at hk
      subst hk
      exact Or.inr ⟨0, trivial, by norm_num, by norm_num⟩
    | k + 2 => simp at hk

/-- C181 is violated: the upper boundary of the whole field is in no patch, and the slice an AttributeError -/
theorem C181_upper_violated [DecidableEq D] (atol : ℚ) (ha : 0 ≤ atol) (ps : List Patch) (v : ℚ) (hv : ∀ p ∈ ps, p.lo.getD 0 0 < p.hi.getD 0 0 ∧ p.hi.getD 0 0 ≤ v)
    (hps : ps ≠ []) (f : Nat → Piece D) : slice atol ps false [.one (.val v)] f = .error .attribute := by
  have hb : Boxes ps 1 := by
    intro p hp k hk
    have : k = 0 := by omega
    subst this
    exact Or.inr (hv p hp).1
  obtain ⟨l, h1, h2, -⟩ := C181_sound_partial atol ha ps hps [.one (.val v)] (by simp [ByValue]) hb
  have hl : l = [] := by
    rw [List.eq_nil_iff_forall_not_mem]
    intro i hi
    obtain ⟨p, hp, ho⟩ := h2 i hi
    have hm := hv p (List.mem_of_getElem? hp)
    rcases ho 0 _ rfl with h | ⟨x, hx, -, hx2⟩
    · exact absurd (h p (List.mem_of_getElem? hp)) (ne_of_lt hm.1)
    · have : x = v := hx
      rw [this] at hx2
      exact absurd hm.2 (not_le.mpr hx2)
  unfold slice
  rw [h1, hl]
  rfl

/-- the hypotheses of the theorem are met by a selection within one, or across two patches -/
example : patchInds (1 / 1000000) amrEx false [.one (.val 3), .slc .none .none none] = .ok [0] ∧
    patchInds (1 / 1000000) amrEx false [.slc (.val 1500) (.val 500) (some (-1)), .one (.val (1 / 2))] = .ok [0, 1] ∧
    Boxes amrEx 2 ∧ ∀ p ∈ amrEx, ¬ StartsNear (1 / 1000000) p [.one (.val 3)] := by
  refine ⟨by decide +kernel, by decide +kernel, ?_, ?_⟩
  · intro p hp k hk
    simp only [amrEx, List.mem_cons, List.not_mem_nil, or_false] at hp
    match k, hk with
    | 0, _ => rcases hp with rfl | rfl <;> exact Or.inr (by norm_num)
    | 1, _ => rcases hp with rfl | rfl <;> exact Or.inr (by norm_num)
  · rintro p hp ⟨k, s, x, h1, h2, -, h4⟩
    simp only [amrEx, List.mem_cons, List.not_mem_nil, or_false] at hp
    match k with
    | 0 =>
      simp only [List.getElem?_cons_zero, Option.some.injEq] at h1
      subst h1
      have : x = 3 := h2
      subst this
      rcases hp with rfl | rfl <;> norm_num at h4
    | k + 1 => simp at h1

end Viscid.Props
