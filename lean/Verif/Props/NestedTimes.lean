import Verif.Props.Nested
/-!
# C175 and C176: times of trees of datasets
-/
namespace Viscid.Props
open Viscid.Nested Viscid.Spec.Nested
open Viscid.Dataset (Item Err Time)
open Viscid.FwdSlice (Slc)

/-! ## C175: `activate_time` -/

theorem childAt_single {cs : List (Time × Node F)} {i : Item} (hi : Single i) : childAt cs i ≠ .error .attributeError := by
  have py (l : List (Time × Node F)) (j : Int) (e : Err) (h : Dataset.pyGet l j = .error e) : e = .indexError := by
    unfold Dataset.pyGet at h
    revert h
    generalize (if j < 0 then j + (l.length : Int) else j) = m
    intro h; simp only at h
    split at h
    · cases h; rfl
    · revert h
      cases l[m.toNat]? <;> intro h <;> cases h
      rfl
  have tm (v : ℚ) (e : Err) (h : Dataset.sliceTime ⟨cs, none⟩ v = .error e) : e ≠ .attributeError := by
    unfold Dataset.sliceTime at h
    cases cs with
    | nil => cases h; simp
    | cons c l =>
      simp only at h
      split at h
      · cases h; simp
      · split at h
        · cases h
        · cases h; simp
  intro h
  unfold childAt Dataset.getChild at h
  cases i with
  | int i =>
    simp only at h
    cases h2 : Dataset.pyGet cs i with
    | error e => rw [h2] at h; cases h; have := py _ _ _ h2; simp at this
    | ok y => rw [h2] at h; cases h
  | idxStr i =>
    simp only at h
    cases h2 : Dataset.pyGet cs i with
    | error e => rw [h2] at h; cases h; have := py _ _ _ h2; simp at this
    | ok y => rw [h2] at h; cases h
  | float v =>
    simp only at h
    cases h2 : Dataset.sliceTime ⟨cs, none⟩ v with
    | error e => rw [h2] at h; cases h; exact tm v _ h2 rfl
    | ok j =>
      rw [h2] at h; simp only at h
      cases h3 : cs[j]? with
      | none => rw [h3] at h; cases h
      | some y => rw [h3] at h; cases h
  | timeStr v =>
    simp only at h
    cases h2 : Dataset.sliceTime ⟨cs, none⟩ v with
    | error e => rw [h2] at h; cases h; exact tm v _ h2 rfl
    | ok j =>
      rw [h2] at h; simp only at h
      cases h3 : cs[j]? with
      | none => rw [h3] at h; cases h
      | some y => rw [h3] at h; cases h
  | name s => cases h
  | slice sl => exact hi

/-- the loop of `activate_time`, if it comes to its end: every child is asked -/
theorem activateAll_get {cs cs' : List (List Key × Node F)} {i : Item} (h : activateAll cs i = (cs', none)) (m : Nat) :
    cs'[m]? = (cs[m]?).map (fun c => (c.1, (activateTime c.2 i).1)) ∧
      ∀ c, cs[m]? = some c → (activateTime c.2 i).2 = none ∨ (activateTime c.2 i).2 = some .attributeError := by
  induction cs generalizing cs' m with
  | nil => rw [activateAll] at h; cases h; simp
  | cons c l ih =>
    rw [activateAll] at h
    simp only at h
    split at h
    · next he =>
      cases hr : activateAll l i with
      | mk r e =>
        rw [hr] at h
        simp only [Prod.mk.injEq] at h
        obtain ⟨rfl, rfl⟩ := h
        cases m with
        | zero =>
          refine ⟨by simp, fun c' hc => ?_⟩
          simp only [List.getElem?_cons_zero, Option.some.injEq] at hc
          subst hc; exact he
        | succ m => simpa using ih hr m
    · next he =>
      simp only [Prod.mk.injEq] at h
      exact absurd (Or.inl h.2) he

/-- C175: after `activate_time(t)` has come to its end, `get_field(name)` is what `get_field(name, time=t)` was before, and so are all fields, if there is no temporal
dataset below a temporal one and `t` is no slice. What is missing is shown by the violations below. -/
theorem C175_activate_partial {n : Node F} (hn : Once n) {i : Item} (hi : Single i)
    (he : (activateTime n i).2 = none ∨ (activateTime n i).2 = some .attributeError) :
    (∀ k, getField (activateTime n i).1 k none = getField n k (some i)) ∧ iterItems (activateTime n i).1 none = iterItems n (some i) := by
  induction hn with
  | grid => rw [activateTime]; exact ⟨fun k => by rw [getField, getField], by rw [iterItems, iterItems]⟩
  | deferred => rw [activateTime]; exact ⟨fun k => by rw [getField, getField], by rw [iterItems, iterItems]⟩
  | empty => rw [activateTime]; exact ⟨fun k => by rw [getField, getField], by rw [iterItems, iterItems]⟩
  | @outside cs m h1 =>
    have key : (activateAll cs i).1[m]? = none := by
      cases hr : activateAll cs i with
      | mk r e =>
        have len (l : List (List Key × Node F)) : (activateAll l i).1.length = l.length := by
          induction l with
          | nil => rw [activateAll]
          | cons c l ih =>
            rw [activateAll]; simp only
            split
            · simp [ih]
            · simp
        have := len cs
        rw [hr] at this
        rw [List.getElem?_eq_none_iff] at h1 ⊢
        simp only at this ⊢
        omega
    rw [activateTime]
    exact ⟨fun k => by rw [getField_out key, getField_out h1], by rw [iterItems_out key, iterItems_out h1]⟩
  | @dset cs m ks c h1 _ ih =>
    rw [activateTime] at he ⊢
    simp only at he ⊢
    have done : (activateAll cs i).2 = none := by
      rcases he with h | h
      · exact h
      · exfalso
        have none_ (l : List (List Key × Node F)) : (activateAll l i).2 ≠ some .attributeError := by
          induction l with
          | nil => rw [activateAll]; simp
          | cons c l ih2 =>
            rw [activateAll]; simp only
            split
            · exact ih2
            · next hh => intro h; exact hh (Or.inr h)
        exact none_ cs h
    cases hr : activateAll cs i with
    | mk r e =>
      rw [hr] at done
      simp only at done
      subst done
      obtain ⟨h2, h3⟩ := activateAll_get hr m
      rw [h1] at h2
      simp only [Option.map_some] at h2
      obtain ⟨a, b⟩ := ih (h3 _ h1)
      exact ⟨fun k => by rw [getField_step h2, getField_step h1]; exact a k, by rw [iterItems_step h2, iterItems_step h1]; exact b⟩
  | @temporal cs a h1 =>
    rw [activateTime] at he ⊢
    cases h2 : childAt cs i with
    | error e =>
      rw [h2] at he
      simp only [Option.some.injEq, reduceCtorEq, false_or] at he
      subst he
      exact absurd h2 (childAt_single hi)
    | ok c =>
      simp only
      obtain ⟨t, ht⟩ := childAt_mem h2
      have := still_walk (h1 t c _ ht (stands_iff.mpr rfl)) (some i)
      exact ⟨fun k => by rw [getField, getField_time h2, this.1 k], by rw [iterItems, iterItems_time h2, this.2]⟩

/-- C175: all children of a static dataset are activated, not only the active one: whichever child is activated afterwards has the fields of that time -/
theorem C175_all_partial {cs : List (List Key × Node F)} {a : Option Nat} {i : Item} (hi : Single i) (he : (activateTime (.dset cs a) i).2 = none)
    {m : Nat} {ks : List Key} {c : Node F} (hm : cs[m]? = some (ks, c)) (hc : Once c) :
    ∃ cs' c', (activateTime (.dset cs a) i).1 = .dset cs' a ∧ cs'[m]? = some (ks, c') ∧
      ∀ k, getField (.dset cs' (some m)) k none = getField (.dset cs (some m)) k (some i) := by
  rw [activateTime] at he ⊢
  simp only at he ⊢
  cases hr : activateAll cs i with
  | mk r e =>
    rw [hr] at he
    simp only at he
    subst he
    obtain ⟨h2, h3⟩ := activateAll_get hr m
    rw [hm] at h2
    simp only [Option.map_some] at h2
    refine ⟨r, (activateTime c i).1, rfl, h2, fun k => ?_⟩
    rw [getField_step h2, getField_step hm]
    exact (C175_activate_partial hc hi (h3 _ hm)).1 k

/-- C175: a temporal dataset raises what `get_child` raises, and is left as it was -/
theorem C175_error (cs : List (Time × Node F)) (a : Option (Node F)) (i : Item) (e : Err) (h : childAt cs i = .error e) :
    activateTime (.temporal cs a) i = (.temporal cs a, some e) := by
  rw [activateTime, h]

/-- `activate(name)` of a static dataset, for the theorems above -/
theorem C175_handle (cs : List (List Key × Node F)) (a : Option Nat) (k : Key) :
    (∀ m, (∃ c, cs[m]? = some c ∧ k ∈ c.1 ∧ ∀ j c', j < m → cs[j]? = some c' → k ∉ c'.1) → activate cs a k = (.dset cs (some m), none)) ∧
      ((∀ c ∈ cs, k ∉ c.1) → activate cs a k = (.dset cs a, some .keyError)) := by
  constructor
  · rintro m ⟨c, h1, h2, h3⟩
    have : cs.findIdx? (fun c => decide (k ∈ c.1)) = some m := by
      rw [List.findIdx?_eq_some_iff_getElem]
      obtain ⟨hl, rfl⟩ := List.getElem?_eq_some_iff.mp h1
      refine ⟨hl, by simpa using h2, fun j hj => ?_⟩
      have := h3 j cs[j] hj (List.getElem?_eq_getElem (by omega))
      simpa using this
    unfold activate; rw [this]
  · intro h
    have : cs.findIdx? (fun c => decide (k ∈ c.1)) = none := by
      rw [List.findIdx?_eq_none_iff]
      intro c hc; simpa using h c hc
    unfold activate; rw [this]

open NestedEx in
example : Once file ∧ (activateTime file (.int 1)).2 = none ∧ getField (activateTime file (.int 1)).1 (.name "b") none = .ok (some 12) := by
  have ho : Once file := by
    refine .dset (ks := [.name "t", .index 0]) rfl (.temporal ?_)
    intro t c c' hc hs
    simp only [List.mem_cons, Prod.mk.injEq, List.not_mem_nil, or_false] at hc
    rcases hc with ⟨_, rfl⟩ | ⟨_, rfl⟩
    · rw [stands_iff] at hs; subst hs; exact .grid
    · rw [stands_iff] at hs; subst hs; exact .grid
  have hd : (activateTime file (.int 1)).2 = none := by rw [file, activateTime]; simp [activateAll, activateTime, childAt, Dataset.getChild, Dataset.pyGet, g]
  refine ⟨ho, hd, ?_⟩
  rw [(C175_activate_partial ho (i := .int 1) trivial (Or.inl hd)).1]
  have h : Leads file (some (.int 1)) (g 2) :=
    .dset (ks := [.name "t", .index 0]) rfl (.self (by intro t h; cases h)) (.atTime (c := .deferred (g 2)) rfl .target .here)
  have hr : Ready file (some (.int 1)) :=
    .dset (ks := [.name "t", .index 0]) rfl (by intro t h; cases h) (.atTime (c := .deferred (g 2)) rfl .target .here)
  rw [(ready_walk hr h).1, g, (C174_leaf 2 _ none).1]
  exact ⟨[], [.name "b", .index 0], [([.name "v", .index 1], 22)], rfl, by decide, by simp⟩

/-- C175 is violated: `activate_time` does not go below a temporal dataset, `get_field(name, time)` does -/
theorem C175_below_violated : ∃ (n : Node Nat) (i : Item) (k : Key), (activateTime n i).2 = none ∧
    getField n k (some i) = .ok (some 12) ∧ getField (activateTime n i).1 k none = .ok (some 11) := by
  refine ⟨.temporal [(⟨0, false⟩, NestedEx.inner 0), (⟨1, false⟩, NestedEx.inner 1)] none, .int 1, .name "b", ?_, ?_, ?_⟩
  · rw [activateTime]; rfl
  · have hl : Leads (.temporal [(⟨0, false⟩, NestedEx.inner 0), (⟨1, false⟩, NestedEx.inner 1)] none) (some (.int 1)) (NestedEx.g 2) :=
      .atTime (c := NestedEx.inner 1) rfl (.self (by intro t h; cases h)) (.atTime (c := NestedEx.g 2) rfl (.self (by intro t h; cases h)) .here)
    have hr : Ready (.temporal [(⟨0, false⟩, NestedEx.inner 0), (⟨1, false⟩, NestedEx.inner 1)] none) (some (.int 1)) :=
      .atTime (c := NestedEx.inner 1) rfl (.self (by intro t h; cases h)) (.atTime (c := NestedEx.g 2) rfl (.self (by intro t h; cases h)) .here)
    rw [(ready_walk hr hl).1, NestedEx.g, (C174_leaf 2 _ none).1]
    exact ⟨[], [.name "b", .index 0], [([.name "v", .index 1], 22)], rfl, by decide, by simp⟩
  · have : (activateTime (.temporal [(⟨0, false⟩, NestedEx.inner 0), (⟨1, false⟩, NestedEx.inner 1)] none) (.int 1)).1 =
        .temporal [(⟨0, false⟩, NestedEx.inner 0), (⟨1, false⟩, NestedEx.inner 1)] (some (NestedEx.inner 1)) := by
      rw [activateTime]; rfl
    rw [this, getField, NestedEx.inner, getField, NestedEx.g, getField]; rfl

/-- C175 is violated: a slice is refused by a temporal dataset, but ignored by the dataset it is in: `activate_time` returns, and nothing has changed, although
`get_field(name, time)` raises -/
theorem C175_slice_violated (ks : List Key) (cs : List (Time × Node F)) (a : Option (Node F)) (hl : 2 ≤ cs.length) (k : Key) :
    activateTime (.temporal cs a) (.slice ⟨none, none, none⟩) = (.temporal cs a, some .attributeError) ∧
    activateTime (.dset [(ks, .temporal cs a)] (some 0)) (.slice ⟨none, none, none⟩) = (.dset [(ks, .temporal cs a)] (some 0), none) ∧
      getField (.dset [(ks, .temporal cs a)] (some 0)) k (some (.slice ⟨none, none, none⟩)) = .error .attributeError := by
  have h : childAt cs (.slice ⟨none, none, none⟩) = .error .attributeError := by
    unfold childAt Dataset.getChild
    have : (Dataset.pickSlice (⟨cs, none⟩ : Dataset.State (Node F)) ⟨none, none, none⟩).length = cs.length := by
      have hp : Dataset.pickSlice (⟨cs, none⟩ : Dataset.State (Node F)) ⟨none, none, none⟩ = cs := by
        unfold Dataset.pickSlice
        simp only [Option.getD_none, Int.zero_lt_one, gt_iff_lt, if_true]
        have hn : (if (0 : Int) < (cs.length : Int) then (((cs.length : Int) - 0 - 1) / 1 + 1).toNat else 0) = cs.length := by
          split <;> omega
        rw [hn]
        have : (List.range cs.length).map (fun k : Nat => (0 + (k : Int) * 1).toNat) = List.range cs.length := by
          conv => rhs; rw [← List.map_id (List.range cs.length)]
          apply List.map_congr_left
          intro k _; simp
        rw [this]
        have gen (l : List (Time × Node F)) : (List.range l.length).filterMap (fun i => l[i]?) = l := by
          induction l with
          | nil => rfl
          | cons x l ih =>
            rw [List.length_cons, List.range_succ_eq_map, List.filterMap_cons]
            simp only [List.getElem?_cons_zero, List.filterMap_map]
            congr 1
        exact gen cs
      rw [hp]
    simp only
    rw [if_neg (by simp), this, if_neg (by omega)]
  have h1 : activateTime (.temporal cs a) (.slice ⟨none, none, none⟩) = (.temporal cs a, some .attributeError) := by
    rw [activateTime, h]
  refine ⟨h1, ?_, ?_⟩
  · rw [activateTime, activateAll]
    simp only [h1, reduceCtorEq, or_true, if_true]
    rw [activateAll]
  · rw [getField_step (c := (ks, .temporal cs a)) rfl, getField_err h]

/-- C175 is violated: an exception of one child leaves those before it activated -/
theorem C175_half_violated : ∃ (n n' : Node Nat) (i : Item) (k : Key), activateTime n i = (n', some .indexError) ∧
    getField n k none = .ok (some 11) ∧ getField n' k none = .ok (some 12) := by
  have h1 : activateTime (F := Nat) (.temporal [(⟨0, false⟩, NestedEx.g 1), (⟨1, false⟩, NestedEx.g 2)] (some (NestedEx.g 1))) (.int 1) =
      (.temporal [(⟨0, false⟩, NestedEx.g 1), (⟨1, false⟩, NestedEx.g 2)] (some (NestedEx.g 2)), none) := by rw [activateTime]; rfl
  have h2 : activateTime (F := Nat) (.temporal [(⟨0, false⟩, NestedEx.g 1)] none) (.int 1) =
      (.temporal [(⟨0, false⟩, NestedEx.g 1)] none, some .indexError) := by rw [activateTime]; rfl
  refine ⟨.dset [([.index 0], .temporal [(⟨0, false⟩, NestedEx.g 1), (⟨1, false⟩, NestedEx.g 2)] (some (NestedEx.g 1))),
    ([.index 1], .temporal [(⟨0, false⟩, NestedEx.g 1)] none)] (some 0),
    .dset [([.index 0], .temporal [(⟨0, false⟩, NestedEx.g 1), (⟨1, false⟩, NestedEx.g 2)] (some (NestedEx.g 2))),
    ([.index 1], .temporal [(⟨0, false⟩, NestedEx.g 1)] none)] (some 0), .int 1, .name "b", ?_, ?_, ?_⟩
  · rw [activateTime, activateAll]
    simp only [h1, true_or, if_true]
    rw [activateAll]
    simp only [h2]
    simp
  · rw [getField_step rfl, getField, NestedEx.g, getField]; rfl
  · rw [getField_step rfl, getField, NestedEx.g, getField]; rfl

/-- C175: the loop stops at the first child that raises something else than an AttributeError: those before it are activated, that child is left as its own
activation leaves it (a dataset may have got halfway), and those after it are untouched -/
theorem C175_stop (before after : List (List Key × Node F)) (ks : List Key) (n n' : Node F) (i : Item) (e : Err) (a : Option Nat)
    (hb : ∀ c ∈ before, (activateTime c.2 i).2 = none ∨ (activateTime c.2 i).2 = some .attributeError)
    (hn : activateTime n i = (n', some e)) (he : e ≠ .attributeError) :
    activateTime (.dset (before ++ (ks, n) :: after) a) i =
      (.dset (before.map (fun c => (c.1, (activateTime c.2 i).1)) ++ (ks, n') :: after) a, some e) := by
  have : activateAll (before ++ (ks, n) :: after) i = (before.map (fun c => (c.1, (activateTime c.2 i).1)) ++ (ks, n') :: after, some e) := by
    induction before with
    | nil =>
      rw [List.nil_append, activateAll]
      simp only [hn]
      rw [if_neg (by simp [he])]
      rfl
    | cons c l ih =>
      rw [List.cons_append, activateAll]
      have h1 := hb c (by simp)
      rw [ih fun d hd => hb d (List.mem_cons_of_mem _ hd)]
      simp only [h1, if_true, List.map_cons, List.cons_append]
  rw [activateTime, this]

/-! ## C176: numbers of times -/

theorem noDeferredAt_iff {cs : List (Time × Node F)} : NoDeferredAt cs ↔ ∀ c ∈ cs, NoDeferred c.2 := by
  induction cs with
  | nil => simp [NoDeferredAt]
  | cons c l ih => rw [NoDeferredAt, ih]; simp

theorem enter_ok (l : List (Node F)) (h : ∀ n ∈ l, ∀ t, n ≠ .deferred t) : enter l = ⟨l, none⟩ := by
  induction l with
  | nil => rfl
  | cons n l ih =>
    have := ih (fun m hm => h m (List.mem_cons_of_mem _ hm))
    cases n with
    | deferred t => exact absurd rfl (h _ (by simp) t)
    | _ => rw [enter, this]; rfl; intro t h; cases h

theorem pickSlice_mem {C : Type} {s : Dataset.State C} {sl : Slc} {c : Time × C} (h : c ∈ Dataset.pickSlice s sl) : c ∈ s.children := by
  unfold Dataset.pickSlice at h
  simp only [List.mem_filterMap] at h
  obtain ⟨i, _, hi⟩ := h
  exact List.mem_of_getElem? hi

theorem temporal_times {cs : List (Time × Node F)} (a : Option (Node F)) (h : ∀ c ∈ cs, ∀ t, c.2 ≠ .deferred t) (sl : Slc) :
    getTimes (.temporal cs a) sl = Dataset.getTimes ⟨cs, none⟩ sl := by
  unfold getTimes
  rw [iterTimes]
  cases h2 : Dataset.getTimes ⟨cs, none⟩ sl with
  | error e => rfl
  | ok l =>
    simp only [Bool.false_eq_true, if_false]
    rw [enter_ok]
    · rfl
    · intro n hn t
      unfold Dataset.getTimes at h2
      split at h2
      · cases h2
      · cases h2
        obtain ⟨c, hc, rfl⟩ := List.mem_map.mp hn
        exact h c (pickSlice_mem hc) t

theorem not_deferred {n : Node F} (h : NoDeferred n) : ∀ t, n ≠ .deferred t := by
  rintro t rfl
  simp [NoDeferred] at h

theorem iterFirst_cons (ks : List Key) (c : Node F) (l : List (List Key × Node F)) (sl : Slc) (r : Bool) :
    iterFirst ((ks, c) :: l) sl r = (iterTimes (resolve c) sl r).getD (iterFirst l sl r) := by
  rw [iterFirst]
  cases iterTimes (resolve c) sl r <;> rfl

mutual
theorem times_count (n : Node F) (h : NoDeferred n) (sl : Slc) : nrTimes n sl = (getTimes n sl).map List.length := by
  match n with
  | .grid id fs => rw [nrTimes]; unfold getTimes; rw [iterTimes]; rfl
  | .deferred t => simp [NoDeferred] at h
  | .dset cs a =>
    rw [nrTimes]; unfold getTimes; rw [iterTimes]
    rw [NoDeferred] at h
    exact times_first cs h sl
  | .temporal cs a =>
    rw [NoDeferred, noDeferredAt_iff] at h
    rw [nrTimes, temporal_times a (fun c hc => not_deferred (h c hc))]
theorem times_first (cs : List (List Key × Node F)) (h : NoDeferredIn cs) (sl : Slc) :
    nrFirst cs sl = ((iterFirst cs sl false).toList).map List.length := by
  match cs with
  | [] => rw [nrFirst, iterFirst]; rfl
  | (ks, c) :: l =>
    rw [NoDeferredIn] at h
    have hc := times_count c h.1 sl
    rw [nrFirst, iterFirst]
    simp only
    rw [resolve_of_ready (not_deferred h.1), hc]
    unfold getTimes
    have some_ : ∃ r, iterTimes c sl false = some r ∧ r.toList ≠ .error .attributeError := by
      match c, h.1 with
      | .grid id fs, _ => exact ⟨_, by rw [iterTimes], by simp [Iter.toList]⟩
      | .dset cs' a, h1 =>
        refine ⟨_, by rw [iterTimes], ?_⟩
        rw [NoDeferred] at h1
        exact first_err cs' h1 sl
      | .temporal cs' a, h1 =>
        refine ⟨_, by rw [iterTimes], ?_⟩
        rw [NoDeferred, noDeferredAt_iff] at h1
        cases h2 : Dataset.getTimes ⟨cs', none⟩ sl with
        | error e =>
          unfold Dataset.getTimes at h2
          split at h2 <;> cases h2
          simp [Iter.toList]
        | ok l' =>
          simp only [Bool.false_eq_true, if_false]
          rw [enter_ok]
          · simp [Iter.toList]
          · intro n hn t
            unfold Dataset.getTimes at h2
            split at h2
            · cases h2
            · cases h2
              obtain ⟨c, hc, rfl⟩ := List.mem_map.mp hn
              exact not_deferred (h1 c (pickSlice_mem hc)) t
    obtain ⟨r, h1, h2⟩ := some_
    rw [h1]
    simp only
    cases h3 : r.toList with
    | ok l => rfl
    | error e =>
      cases e <;> first | rfl | exact absurd h3 h2
theorem first_err (cs : List (List Key × Node F)) (h : NoDeferredIn cs) (sl : Slc) :
    (iterFirst cs sl false).toList ≠ .error .attributeError := by
  match cs with
  | [] => rw [iterFirst]; simp [Iter.toList]
  | (ks, .deferred t) :: l => simp [NoDeferredIn, NoDeferred] at h
  | (ks, .grid id fs) :: l => rw [iterFirst_cons]; simp only [resolve]; rw [iterTimes]; simp [Iter.toList]
  | (ks, .dset cs' a) :: l =>
    rw [iterFirst_cons]; simp only [resolve]; rw [iterTimes]
    rw [NoDeferredIn, NoDeferred] at h
    exact first_err cs' h.1 sl
  | (ks, .temporal cs' a) :: l =>
    rw [iterFirst_cons]; simp only [resolve]; rw [iterTimes]
    rw [NoDeferredIn, NoDeferred, noDeferredAt_iff] at h
    cases h2 : Dataset.getTimes ⟨cs', none⟩ sl with
    | error e =>
      unfold Dataset.getTimes at h2
      split at h2 <;> cases h2
      simp [Iter.toList]
    | ok l' =>
      simp only [Bool.false_eq_true, if_false, Option.getD_some]
      rw [enter_ok]
      · simp [Iter.toList]
      · intro n hn t
        unfold Dataset.getTimes at h2
        split at h2
        · cases h2
        · cases h2
          obtain ⟨c, hc, rfl⟩ := List.mem_map.mp hn
          exact not_deferred (h.1 c (pickSlice_mem hc)) t
end

/-- C176: without deferred children `nr_times(sel)` is the number of `get_times(sel)`, and it raises the same exception if that raises. -/
theorem C176_count_partial (n : Node F) (h : NoDeferred n) (sl : Slc) : nrTimes n sl = (getTimes n sl).map List.length :=
  times_count n h sl

/-- C176: the times of a dataset are those of its first child (also if that is a grid, which has one) -/
theorem C176_first_partial (ks : List Key) (c : Node F) (cs : List (List Key × Node F)) (a : Option Nat) (h : NoDeferred c) (sl : Slc) :
    getTimes (.dset ((ks, c) :: cs) a) sl = getTimes c sl := by
  unfold getTimes
  rw [iterTimes, iterFirst]
  simp only
  rw [resolve_of_ready (not_deferred h)]
  cases c with
  | deferred t => simp [NoDeferred] at h
  | grid id fs => rw [iterTimes]
  | dset cs' a' => rw [iterTimes]
  | temporal cs' a' => rw [iterTimes]

/-- the grids of a list of children -/
def GridsOf : List (Node F) → List (Node F) → Prop
  | [], [] => True
  | n :: ns, g :: gs => (∃ c, Stands n c ∧ Leads c none g) ∧ GridsOf ns gs
  | _, _ => False

theorem grids_iff (l gs : List (Node F)) : (grids l).toList = .ok gs ↔ GridsOf l gs := by
  induction l generalizing gs with
  | nil => cases gs <;> simp [grids, Iter.toList, GridsOf]
  | cons n l ih =>
    rw [grids]
    cases h : getGrid (resolve n) none with
    | error e =>
      simp only [Iter.toList]
      cases gs with
      | nil => simp [GridsOf]
      | cons g gs =>
        simp only [reduceCtorEq, GridsOf, false_iff, not_and]
        rintro ⟨c, h1, h2⟩
        rw [stands_iff] at h1; subst h1
        rw [leads_getGrid h2] at h; cases h
    | ok g' =>
      simp only
      have : ((grids l).cons g').toList = (grids l).toList.map (g' :: ·) := by
        unfold Iter.toList Iter.cons
        cases (grids l).exc <;> rfl
      rw [this]
      cases gs with
      | nil => cases (grids l).toList <;> simp [GridsOf, Except.map]
      | cons g gs =>
        simp only [GridsOf]
        rw [← ih gs]
        constructor
        · intro h2
          cases h3 : (grids l).toList with
          | error e => rw [h3] at h2; cases h2
          | ok r =>
            rw [h3] at h2; cases h2
            exact ⟨⟨_, stands_iff.mpr rfl, getGrid_leads _ _ _ h⟩, rfl⟩
        · rintro ⟨⟨c, h1, h2⟩, h3⟩
          rw [stands_iff] at h1; subst h1
          rw [leads_getGrid h2] at h; cases h
          rw [h3]; rfl

/-- C176: `list(iter_times(sel))` of a temporal dataset are the grids at the end of the way down from each child that is selected, deferred children resolved; as
many as there are children selected -/
theorem C176_grids (cs : List (Time × Node F)) (a : Option (Node F)) (sl : Slc) (h : sl.step ≠ some 0) (gs : List (Node F)) :
    (∃ r, iterTimes (.temporal cs a) sl true = some r ∧ r.toList = .ok gs) ↔
      GridsOf ((Dataset.pickSlice ⟨cs, (none : Option (Node F))⟩ sl).map Prod.snd) gs := by
  rw [iterTimes, ← grids_iff]
  unfold Dataset.getTimes
  simp [h]

/-- C176 is violated: with deferred children `nr_times()` of a temporal dataset is their number and `iter_times()` works, but `get_times()` raises AttributeError -/
theorem C176_deferred_violated : ∃ (n : Node Nat) (g1 g2 : Node Nat) (r : Iter Nat), nrTimes n ⟨none, none, none⟩ = .ok 2 ∧
    iterTimes n ⟨none, none, none⟩ true = some r ∧ r.toList = .ok [g1, g2] ∧ getTimes n ⟨none, none, none⟩ = .error .attributeError ∧
      getTime n ⟨none, none, none⟩ = .error .attributeError := by
  have e1 : iterTimes (F := Nat) (.temporal [(⟨0, false⟩, .deferred (NestedEx.g 1)), (⟨1, false⟩, .deferred (NestedEx.g 2))] none) ⟨none, none, none⟩ true =
      some (grids [.deferred (NestedEx.g 1), .deferred (NestedEx.g 2)]) := by
    rw [iterTimes]; rfl
  have e2 : getTimes (F := Nat) (.temporal [(⟨0, false⟩, .deferred (NestedEx.g 1)), (⟨1, false⟩, .deferred (NestedEx.g 2))] none) ⟨none, none, none⟩ =
      .error .attributeError := by
    unfold getTimes; rw [iterTimes]; rfl
  refine ⟨_, NestedEx.g 1, NestedEx.g 2, _, ?_, e1, ?_, e2, ?_⟩
  · rw [nrTimes]; rfl
  · rw [grids_iff]
    exact ⟨⟨_, .target, .here⟩, ⟨_, .target, .here⟩, trivial⟩
  · rw [getTime, e2]
    · intro t h; cases h
    · intro a b h; cases h

/-- C176 is violated: a deferred dataset is skipped by `nr_times()`, but not by `get_times()` -/
theorem C176_skip_violated : ∃ (n : Node Nat) (l : List (Node Nat)), nrTimes n ⟨none, none, none⟩ = .ok 1 ∧ getTimes n ⟨none, none, none⟩ = .ok l ∧ l.length = 2 := by
  refine ⟨.dset [([.index 0], .deferred (NestedEx.inner 1)), ([.index 1], NestedEx.g 3)] none, [NestedEx.g 1, NestedEx.g 2], ?_, ?_, rfl⟩
  · rw [nrTimes, nrFirst, nrTimes, nrFirst, NestedEx.g, nrTimes]
  · unfold getTimes; rw [iterTimes, iterFirst_cons]; simp only [resolve]; rw [NestedEx.inner, iterTimes]; rfl

/-- C176 is violated: an empty dataset hides the times of those after it -/
theorem C176_hidden_violated (ks : List Key) (a : Option Nat) (cs : List (List Key × Node F)) (sl : Slc) :
    nrTimes (.dset ((ks, .dset [] none) :: cs) a) sl = .error .runtimeError ∧ getTimes (.dset ((ks, .dset [] none) :: cs) a) sl = .error .runtimeError := by
  constructor
  · rw [nrTimes, nrFirst, nrTimes, nrFirst]
  · unfold getTimes; rw [iterTimes, iterFirst_cons]; simp only [resolve]; rw [iterTimes, iterFirst]; rfl

/-- C176: `get_time(sel)` of a temporal dataset is the first of `get_times(sel)`; IndexError if there is none -/
theorem C176_time (cs : List (Time × Node F)) (a : Option (Node F)) (sl : Slc) :
    (∀ c rest, getTimes (.temporal cs a) sl = .ok (c :: rest) → getTime (.temporal cs a) sl = .ok c) ∧
      (getTimes (.temporal cs a) sl = .ok [] → getTime (.temporal cs a) sl = .error .indexError) ∧
      ∀ e, getTimes (.temporal cs a) sl = .error e → getTime (.temporal cs a) sl = .error e := by
  have h : getTime (.temporal cs a) sl = (match getTimes (.temporal cs a) sl with
      | .error e => .error e
      | .ok [] => .error .indexError
      | .ok (x :: _) => .ok x) := rfl
  refine ⟨fun c rest h1 => ?_, fun h1 => ?_, fun e h1 => ?_⟩ <;> rw [h, h1]

theorem grids_of_grids (l : List (Node F)) (h : ∀ n ∈ l, ∃ i fs, n = .grid i fs) : grids l = ⟨l, none⟩ := by
  induction l with
  | nil => rfl
  | cons n l ih =>
    obtain ⟨i, fs, rfl⟩ := h n (by simp)
    rw [grids, resolve, getGrid]
    · simp only [ih (fun m hm => h m (List.mem_cons_of_mem _ hm))]; rfl
    · intro t ht; cases ht

/-- C176: `get_time(sel)` of a dataset whose first child is a temporal dataset of grids is the first of `get_times(sel)`; RuntimeError if there is none -/
theorem C176_time_partial (ks : List Key) (cs : List (Time × Node F)) (b : Option (Node F)) (l : List (List Key × Node F)) (a : Option Nat) (sl : Slc)
    (h : ∀ c ∈ cs, ∃ i fs, c.2 = .grid i fs) (hs : sl.step ≠ some 0) :
    ∃ ts, getTimes (.dset ((ks, .temporal cs b) :: l) a) sl = .ok ts ∧
      getTime (.dset ((ks, .temporal cs b) :: l) a) sl = (match ts[0]? with | some t => .ok t | none => .error .runtimeError) := by
  have h2 : Dataset.getTimes ⟨cs, (none : Option (Node F))⟩ sl = .ok ((Dataset.pickSlice ⟨cs, none⟩ sl).map Prod.snd) := by
    unfold Dataset.getTimes; rw [if_neg hs]
  have hg : ∀ n ∈ (Dataset.pickSlice ⟨cs, (none : Option (Node F))⟩ sl).map Prod.snd, ∃ i fs, n = .grid i fs := by
    intro n hn
    obtain ⟨c, hc, rfl⟩ := List.mem_map.mp hn
    exact h c (pickSlice_mem hc)
  refine ⟨(Dataset.pickSlice ⟨cs, none⟩ sl).map Prod.snd, ?_, ?_⟩
  · unfold getTimes
    rw [iterTimes, iterFirst_cons, resolve, iterTimes, h2]
    · simp only [Bool.false_eq_true, if_false, Option.getD_some]
      rw [enter_ok]
      · rfl
      · intro n hn t ht
        obtain ⟨i, fs, h3⟩ := hg n hn
        rw [ht] at h3; cases h3
    · intro t ht; cases ht
  · rw [getTime, iterFirst_cons, resolve, iterTimes, h2]
    · simp only [if_true, Option.getD_some]
      rw [grids_of_grids _ hg]
      cases (Dataset.pickSlice ⟨cs, (none : Option (Node F))⟩ sl).map Prod.snd <;> rfl
    · intro t ht; cases ht

/-- C176 is violated: if the children at the times are datasets, `get_times()` of the dataset around them gives these, but `get_time()` gives a grid -/
theorem C176_time_violated : ∃ (n c g : Node Nat), getTimes n ⟨none, none, none⟩ = .ok [c] ∧ getTime n ⟨none, none, none⟩ = .ok g ∧ g ≠ c := by
  refine ⟨.dset [([.index 0], .temporal [(⟨0, false⟩, .dset [([.index 0], NestedEx.g 1)] (some 0))] none)] none, .dset [([.index 0], NestedEx.g 1)] (some 0),
    NestedEx.g 1, ?_, ?_, by intro h; cases h⟩
  · unfold getTimes; rw [iterTimes, iterFirst_cons]; simp only [resolve]; rw [iterTimes]; rfl
  · rw [getTime, iterFirst_cons]; simp only [resolve]; rw [iterTimes]
    have e : Dataset.getTimes (⟨[(⟨0, false⟩, .dset [([.index 0], NestedEx.g 1)] (some 0))], none⟩ : Dataset.State (Node Nat)) ⟨none, none, none⟩ =
        .ok [.dset [([.index 0], NestedEx.g 1)] (some 0)] := by rfl
    rw [e]
    simp only [if_true, Option.getD_some]
    rw [grids, resolve, getGrid_step (c := ([.index 0], NestedEx.g 1)) rfl, NestedEx.g, resolve, getGrid]
    · rfl
    · intro t h; cases h
    · intro t h; cases h

example : NoDeferred (.dset [([.index 0], NestedEx.inner 1)] (some 0)) ∧
    nrTimes (.dset [([.index 0], NestedEx.inner 1)] (some 0)) ⟨none, none, none⟩ = .ok 2 := by
  constructor
  · simp [NoDeferred, NoDeferredIn, NoDeferredAt, NestedEx.inner, NestedEx.g]
  · rw [nrTimes, nrFirst, NestedEx.inner, nrTimes]; rfl

end Viscid.Props
