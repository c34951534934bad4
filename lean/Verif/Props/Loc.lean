import Verif.Spec.Loc
import Verif.Props.FillSel
import Mathlib.Data.List.Forall2
/-!
# C129 `loc` and `iloc`
-/
namespace Viscid.Props
open Viscid.FillSel Viscid.Loc Viscid.Spec.Loc

theorem floatList_ok (l : List Num) (h : ∀ x ∈ l, ∃ q, x = .real q) :
    ∃ m, floatList l = (m, none) ∧ List.Forall₂ (Stands true) l m := by
  induction l with
  | nil => exact ⟨[], rfl, .nil⟩
  | cons x l ih =>
    obtain ⟨m, h1, h2⟩ := ih fun y hy => h y (by simp [hy])
    obtain ⟨q, rfl⟩ := h x (by simp)
    exact ⟨.imag q :: m, by simp [floatList, float1, h1], .cons (.coordinate q) h2⟩

theorem floatOpt_ok (fl : Bool) (a : Option Num) (h : fl = true → ∀ x ∈ a, ∃ q, x = Num.real q) :
    ∃ b, floatOpt fl a = .ok b ∧ OptStands fl a b := by
  cases a with
  | none => exact ⟨none, rfl, .none⟩
  | some x =>
    cases fl with
    | false => exact ⟨some x, rfl, .some (.index x)⟩
    | true =>
      obtain ⟨q, rfl⟩ := h rfl x rfl
      exact ⟨some (.imag q), rfl, .some (.coordinate q)⟩

theorem floatify_means (fl : Bool) (it : Item) (hr : fl = true → Spec.Loc.Real it) (he : it ≠ .ellipsis) :
    ∃ k, floatify fl it = .ok k ∧ Means fl it k := by
  cases it with
  | ellipsis => exact absurd rfl he
  | newax => exact ⟨_, rfl, .newax⟩
  | num x =>
    cases fl with
    | false => exact ⟨_, rfl, .num (.index x)⟩
    | true =>
      obtain ⟨q, rfl⟩ := hr rfl
      exact ⟨_, rfl, .num (.coordinate q)⟩
  | list l =>
    cases fl with
    | false =>
      refine ⟨.sel (.many l), rfl, .list ?_⟩
      clear hr he
      induction l with
      | nil => exact .nil
      | cons x l ih => exact .cons (.index x) ih
    | true =>
      obtain ⟨m, h1, h2⟩ := floatList_ok l (hr rfl)
      exact ⟨.sel (.many m), by simp [floatify, h1], .list h2⟩
  | slc a b s =>
    obtain ⟨a', ha, ha'⟩ := floatOpt_ok fl a fun h => (hr h).1
    obtain ⟨b', hb, hb'⟩ := floatOpt_ok fl b fun h => (hr h).2
    exact ⟨.sel (.slc a' b' s), by rw [floatify, ha, hb]; rfl, .slc ha' hb'⟩

theorem mapM_means (fl : Bool) (its : List Item) (hr : fl = true → ∀ i ∈ its, Spec.Loc.Real i) (he : Item.ellipsis ∉ its) :
    ∃ ks, its.mapM (floatify fl) = .ok ks ∧ List.Forall₂ (Means fl) its ks := by
  induction its with
  | nil => exact ⟨[], rfl, .nil⟩
  | cons i its ih =>
    obtain ⟨k, h1, h2⟩ := floatify_means fl i (fun h => hr h i (by simp)) (by rintro rfl; simp at he)
    obtain ⟨ks, h3, h4⟩ := ih (fun h j hj => hr h j (by simp [hj])) (fun h => he (by simp [h]))
    refine ⟨k :: ks, ?_, .cons h2 h4⟩
    rw [List.mapM_cons, h1, h3]
    rfl

theorem means_newax (fl : Bool) (it : Item) (k : Kind Sel) (h : Means fl it k) : (k = .newax ↔ it = .newax) ∧ k ≠ .ellipsis := by
  cases h <;> simp

theorem used_eq (fl : Bool) (its : List Item) (ks : List (Kind Sel)) (h : List.Forall₂ (Means fl) its ks) :
    (ks.map fun k => (⟨none, k⟩ : Entry String Sel)).countP (fun e => decide (e.kind ≠ .newax ∧ e.kind ≠ .ellipsis)) = used its ∧
      ∀ k ∈ ks, k ≠ .ellipsis := by
  induction h with
  | nil => simp [used]
  | cons h1 h2 ih =>
    have hm := means_newax fl _ _ h1
    obtain ⟨i1, i2⟩ := ih
    refine ⟨?_, by simpa using ⟨hm.2, i2⟩⟩
    simp only [used] at i1
    simp only [used, List.map_cons, List.countP_cons, i1, hm.1, hm.2, ne_eq, not_false_eq_true, and_true]

theorem getitem_of (fl : Bool) (lay : Layout) (ax : List String) (its : List Item) (ks : List (Kind Sel))
    (h : its.mapM (floatify fl) = .ok ks) :
    getitem fl lay ax its =
      match fill full (fun k => s!"new-x{k}") ax ((match compAxis ax.length lay with
          | some c => if ks.length ≥ c then ks.take c ++ Kind.sel full :: ks.drop c else ks
          | none => ks).map fun k => ⟨none, k⟩) with
      | .ok r => .ok r
      | .error e => .error (.sel e) := by
  unfold getitem xform
  rw [h]
  rfl

/-- selections without an Ellipsis, once the axis of components is dealt with -/
theorem select_plain (fl : Bool) (ax : List String) (its : List Item) (ks : List (Kind Sel)) (h : List.Forall₂ (Means fl) its ks) :
    (used its ≤ ax.length → ∃ rows, fill full (fun k => s!"new-x{k}") ax (ks.map fun k => ⟨none, k⟩) = .ok rows ∧
      Selects fl ax its [] rows) ∧
    (ax.length < used its → fill full (fun k => s!"new-x{k}") ax (ks.map fun k => ⟨none, k⟩) = .error .indexError) := by
  obtain ⟨hu, hne⟩ := used_eq fl its ks h
  have hC := C16_unnamed full (fun k => s!"new-x{k}") ax (ks.map fun k => (⟨none, k⟩ : Entry String Sel))
    (by simp) (by simpa using hne)
  simp only [hu] at hC
  refine ⟨fun hc => ?_, hC.2⟩
  obtain ⟨rows, h1, h2⟩ := hC.1 hc
  have hE := C16_shape_partial full (fun k => s!"new-x{k}") ax _ rows (by simp) (by
    rintro ⟨e, he, hk⟩
    obtain ⟨k, hk1, rfl⟩ := List.mem_map.mp he
    exact absurd hk (hne k hk1)) h1
  refine ⟨rows, h1, ks, [], ax.length - used its, h, .nil, ?_, hE.axes, hE.new⟩
  rw [h2, List.map_map, List.append_nil]
  congr 1
  exact (List.map_congr_left fun _ _ => rfl).trans (List.map_id ks)

/-- and with one -/
theorem select_ellipsis (fl : Bool) (ax : List String) (pre post : List Item) (ks ls : List (Kind Sel))
    (h : List.Forall₂ (Means fl) pre ks) (h' : List.Forall₂ (Means fl) post ls) (hc : used pre + used post ≤ ax.length) :
    ∃ rows, fill full (fun k => s!"new-x{k}") ax ((ks ++ .ellipsis :: ls).map fun k => ⟨none, k⟩) = .ok rows ∧
      Selects fl ax pre post rows := by
  obtain ⟨hu, hne⟩ := used_eq fl pre ks h
  obtain ⟨hu', hne'⟩ := used_eq fl post ls h'
  have hC := C16_ellipsis full (fun k => s!"new-x{k}") ax (ks.map fun k => (⟨none, k⟩ : Entry String Sel))
    (ls.map fun k => (⟨none, k⟩ : Entry String Sel)) (by
      intro e he
      rcases List.mem_append.mp he with h | h <;> obtain ⟨k, _, rfl⟩ := List.mem_map.mp h <;> rfl) (by
      intro e he
      rcases List.mem_append.mp he with h | h <;> obtain ⟨k, hk, rfl⟩ := List.mem_map.mp h
      · exact hne k hk
      · exact hne' k hk)
  simp only [List.countP_append, hu, hu'] at hC
  obtain ⟨rows, h1, h2⟩ := hC.1 hc
  rw [List.map_append, List.map_cons]
  have hE := C16_shape_partial full (fun k => s!"new-x{k}") ax _ rows (by
    intro e he
    rcases List.mem_append.mp he with h | h
    · obtain ⟨k, _, rfl⟩ := List.mem_map.mp h; simp
    · rcases List.mem_cons.mp h with rfl | h
      · simp
      · obtain ⟨k, _, rfl⟩ := List.mem_map.mp h; simp) (by
    intro _
    rw [List.countP_append, List.countP_cons, hu, hu']
    simpa using hc) h1
  refine ⟨rows, h1, ks, ls, ax.length - (used pre + used post), h, h', ?_, hE.axes, hE.new⟩
  rw [h2, List.map_map, List.map_map]
  have e : ∀ m : List (Kind Sel), m.map (Entry.kind ∘ fun k => (⟨none, k⟩ : Entry String Sel)) = m := fun m =>
    (List.map_congr_left fun _ _ => rfl).trans (List.map_id m)
  rw [e, e]
  rfl

/-- C129: on scalar fields, items without an Ellipsis go to the axes from the first on, and too many of them are refused. -/
theorem C129_plain_partial (fl : Bool) (ax : List String) (its : List Item) (hr : fl = true → ∀ i ∈ its, Spec.Loc.Real i)
    (he : Item.ellipsis ∉ its) :
    (used its ≤ ax.length → ∃ rows, getitem fl .scalar ax its = .ok rows ∧ Selects fl ax its [] rows) ∧
    (ax.length < used its → getitem fl .scalar ax its = .error (.sel .indexError)) := by
  obtain ⟨ks, h1, h2⟩ := mapM_means fl its hr he
  rw [getitem_of fl .scalar ax its ks h1]
  obtain ⟨a, b⟩ := select_plain fl ax its ks h2
  refine ⟨fun hc => ?_, fun hc => ?_⟩
  · obtain ⟨rows, h3, h4⟩ := a hc
    exact ⟨rows, by simp only [compAxis, h3], h4⟩
  · simp only [compAxis, b hc]

theorem mapM_ellipsis (fl : Bool) (pre post : List Item) (ks ls : List (Kind Sel)) (h : pre.mapM (floatify fl) = .ok ks)
    (h' : post.mapM (floatify fl) = .ok ls) : (pre ++ .ellipsis :: post).mapM (floatify fl) = .ok (ks ++ .ellipsis :: ls) := by
  rw [List.mapM_append, h, List.mapM_cons, h']
  rfl

/-- C129: on scalar fields, with an Ellipsis, those after it go to the last axes. -/
theorem C129_ellipsis_partial (fl : Bool) (ax : List String) (pre post : List Item)
    (hr : fl = true → ∀ i ∈ pre ++ post, Spec.Loc.Real i) (he : Item.ellipsis ∉ pre ++ post)
    (hc : used pre + used post ≤ ax.length) :
    ∃ rows, getitem fl .scalar ax (pre ++ .ellipsis :: post) = .ok rows ∧ Selects fl ax pre post rows := by
  obtain ⟨ks, h1, h2⟩ := mapM_means fl pre (fun h i hi => hr h i (by simp [hi])) (fun h => he (by simp [h]))
  obtain ⟨ls, h3, h4⟩ := mapM_means fl post (fun h i hi => hr h i (by simp [hi])) (fun h => he (by simp [h]))
  obtain ⟨rows, h5, h6⟩ := select_ellipsis fl ax pre post ks ls h2 h4 hc
  refine ⟨rows, ?_, h6⟩
  rw [getitem_of fl .scalar ax _ _ (mapM_ellipsis fl pre post ks ls h1 h3)]
  simp only [compAxis, h5]

/-- C129: so they do on interlaced vector fields, if there are fewer items than axes -/
theorem C129_interlaced_partial (fl : Bool) (ax : List String) (its : List Item)
    (hr : fl = true → ∀ i ∈ its, Spec.Loc.Real i) (he : Item.ellipsis ∉ its) (hc : its.length < ax.length) :
    ∃ rows, getitem fl .interlaced ax its = .ok rows ∧ Selects fl ax its [] rows := by
  obtain ⟨ks, h1, h2⟩ := mapM_means fl its hr he
  rw [getitem_of fl .interlaced ax its ks h1]
  obtain ⟨rows, h3, h4⟩ := (select_plain fl ax its ks h2).1 (le_trans (List.countP_le_length) (le_of_lt hc))
  refine ⟨rows, ?_, h4⟩
  simp only [compAxis]
  rw [if_neg (by rw [← h2.length_eq]; omega), h3]

theorem C129_interlaced_ellipsis_partial (fl : Bool) (ax : List String) (pre post : List Item)
    (hr : fl = true → ∀ i ∈ pre ++ post, Spec.Loc.Real i) (he : Item.ellipsis ∉ pre ++ post)
    (hc : pre.length + post.length + 1 < ax.length) :
    ∃ rows, getitem fl .interlaced ax (pre ++ .ellipsis :: post) = .ok rows ∧ Selects fl ax pre post rows := by
  obtain ⟨ks, h1, h2⟩ := mapM_means fl pre (fun h i hi => hr h i (by simp [hi])) (fun h => he (by simp [h]))
  obtain ⟨ls, h3, h4⟩ := mapM_means fl post (fun h i hi => hr h i (by simp [hi])) (fun h => he (by simp [h]))
  have hp : used pre ≤ pre.length := List.countP_le_length
  have hq : used post ≤ post.length := List.countP_le_length
  obtain ⟨rows, h5, h6⟩ := select_ellipsis fl ax pre post ks ls h2 h4 (by omega)
  refine ⟨rows, ?_, h6⟩
  rw [getitem_of fl .interlaced ax _ _ (mapM_ellipsis fl pre post ks ls h1 h3)]
  simp only [compAxis]
  rw [if_neg (by rw [List.length_append, List.length_cons, ← h2.length_eq, ← h4.length_eq]; omega), h5]

theorem means_item (fl : Bool) (its : List Item) (ks : List (Kind Sel)) (h : List.Forall₂ (Means fl) its ks)
    (hn : Item.newax ∉ its) : used its = its.length ∧ ∀ k ∈ ks, k ≠ .newax := by
  induction h with
  | nil => simp [used]
  | @cons x _ _ _ h1 h2 ih =>
    obtain ⟨i1, i2⟩ := ih fun h => hn (by simp [h])
    have hm := means_newax fl _ _ h1
    have hx : x ≠ Item.newax := fun h => hn (by simp [h])
    refine ⟨?_, by simpa using ⟨fun h => hx (hm.1.mp h), i2⟩⟩
    simp only [used] at i1
    simp only [used, List.countP_cons, i1, hx, ne_eq, not_false_eq_true, decide_true, if_true, List.length_cons]

/-- C129 fails on interlaced vector fields with an item for every axis: IndexError. -/
theorem C129_interlaced_violated (fl : Bool) (ax : List String) (its : List Item)
    (hr : fl = true → ∀ i ∈ its, Spec.Loc.Real i) (he : Item.ellipsis ∉ its) (hn : Item.newax ∉ its)
    (hl : its.length = ax.length) : getitem fl .interlaced ax its = .error (.sel .indexError) := by
  obtain ⟨ks, h1, h2⟩ := mapM_means fl its hr he
  rw [getitem_of fl .interlaced ax its ks h1]
  simp only [compAxis]
  rw [if_pos (by rw [← h2.length_eq]; omega)]
  have hkl : ks.length = ax.length := by rw [← h2.length_eq]; omega
  rw [List.take_of_length_le (by omega), List.drop_of_length_le (by omega)]
  have hm : List.Forall₂ (Means fl) (its ++ [.slc none none none]) (ks ++ [.sel full]) :=
    List.rel_append h2 (.cons (.slc .none .none) .nil)
  have hu := (means_item fl _ _ hm (by simpa using hn)).1
  rw [(select_plain fl ax _ _ hm).2 (by rw [hu]; simp; omega)]

/-- C129 fails on vector fields whose components come first: the first item goes to the second axis, and so on; one for every axis is
    an IndexError. -/
theorem C129_flat_violated (fl : Bool) (ax : List String) (its : List Item)
    (hr : fl = true → ∀ i ∈ its, Spec.Loc.Real i) (he : Item.ellipsis ∉ its) (hn : Item.newax ∉ its) :
    (its.length < ax.length → ∃ rows, getitem fl .flat ax its = .ok rows ∧ Selects fl ax (.slc none none none :: its) [] rows) ∧
    (its.length = ax.length → getitem fl .flat ax its = .error (.sel .indexError)) := by
  obtain ⟨ks, h1, h2⟩ := mapM_means fl its hr he
  rw [getitem_of fl .flat ax its ks h1]
  simp only [compAxis]
  rw [if_pos (by omega), List.take_zero, List.drop_zero, List.nil_append]
  have hm : List.Forall₂ (Means fl) (.slc none none none :: its) (.sel full :: ks) := .cons (.slc .none .none) h2
  have hu := (means_item fl _ _ hm (by simpa using hn)).1
  obtain ⟨a, b⟩ := select_plain fl ax _ _ hm
  refine ⟨fun hl => ?_, fun hl => ?_⟩
  · obtain ⟨rows, h3, h4⟩ := a (by rw [hu, List.length_cons]; omega)
    exact ⟨rows, by rw [h3], h4⟩
  · rw [b (by rw [hu]; simp; omega)]

/-- such as `f.loc[2.5]`, which is on the second axis -/
example : getitem true .flat ["x", "y"] [.num (.real (5/2))] = .ok [⟨"x", .sel full, false⟩, ⟨"y", .sel (.one (.imag (5/2))), false⟩] ∧
    getitem true .scalar ["x", "y"] [.num (.real (5/2))] = .ok [⟨"x", .sel (.one (.imag (5/2))), false⟩, ⟨"y", .sel full, false⟩] ∧
    getitem true .flat ["x", "y"] [.num (.real 1), .num (.real 2)] = .error (.sel .indexError) ∧
    getitem true .interlaced ["x", "y"] [.num (.real 1), .num (.real 2)] = .error (.sel .indexError) ∧
    getitem false .interlaced ["x", "y", "z"] [.num (.real 1), .slc (some (.real 2)) none (some 2)] =
      .ok [⟨"x", .sel (.one (.real 1)), false⟩, ⟨"y", .sel (.slc (some (.real 2)) none (some 2)), false⟩, ⟨"z", .sel full, false⟩] := by
  decide +kernel

/-- C129 fails for lists: `loc` writes to the list it is given, so that the same list can be used but once. -/
theorem C129_list_violated (l : List Num) (h : ∀ x ∈ l, ∃ q, x = .real q) (hne : l ≠ []) :
    (floatList l).1 ≠ l ∧ (floatList (floatList l).1).2 = some .type ∧ ∀ ax lay, ∀ its, 
      getitem true lay ax (.list (floatList l).1 :: its) = .error .type := by
  cases l with
  | nil => exact absurd rfl hne
  | cons x l =>
    obtain ⟨q, rfl⟩ := h x (by simp)
    have e : (floatList (.real q :: l)).1 = .imag q :: (floatList l).1 := by simp [floatList, float1]
    rw [e]
    refine ⟨by simp, by simp [floatList, float1], fun ax lay its => ?_⟩
    unfold getitem xform
    rw [List.mapM_cons]
    rfl

end Viscid.Props
