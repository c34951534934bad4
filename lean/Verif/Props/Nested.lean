import Verif.Spec.Nested
/-!
# C174 to C176: trees of datasets
-/
namespace Viscid.Props
open Viscid.Nested Viscid.Spec.Nested
open Viscid.Dataset (Item Err Time)
open Viscid.FwdSlice (Slc)

theorem stands_iff {n c : Node F} : Stands n c ↔ resolve n = c := by
  constructor
  · intro h
    cases h with
    | target => rfl
    | self h => cases n <;> first | rfl | exact absurd rfl (h _)
  · rintro rfl
    cases n with
    | deferred t => exact .target
    | _ => exact .self (by intro t h; cases h)

theorem resolve_of_ready {n : Node F} (h : ∀ t, n ≠ .deferred t) : resolve n = n := by
  cases n <;> first | rfl | exact absurd rfl (h _)

/-! ## one step down -/

section steps
variable {cs : List (List Key × Node F)} {i : Nat} {c : List Key × Node F} {ts : List (Time × Node F)} {a : Option (Node F)} {j : Item} {d : Node F} {e : Err}

theorem getField_step (h : cs[i]? = some c) (k : Key) (t : Option Item) : getField (.dset cs (some i)) k t = getField c.2 k t := by
  rw [getField]
  split
  · next h2 => rw [h] at h2; cases h2
  · next h2 => rw [h] at h2; cases h2; rfl

theorem getField_out (h : cs[i]? = none) (k : Key) (t : Option Item) : getField (.dset cs (some i)) k t = .ok none := by
  rw [getField]
  split
  · rfl
  · next h2 => rw [h] at h2; cases h2

theorem getField_err (h : childAt ts j = .error e) (k : Key) : getField (.temporal ts a) k (some j) = .error e := by
  rw [getField]
  split
  · next h2 => rw [h] at h2; cases h2; rfl
  · next h2 => rw [h] at h2; cases h2

theorem getField_time (h : childAt ts j = .ok d) (k : Key) : getField (.temporal ts a) k (some j) = getField (resolve d) k (some j) := by
  rw [getField]
  split
  · next h2 => rw [h] at h2; cases h2
  · next h2 => rw [h] at h2; cases h2; rfl

theorem iterItems_step (h : cs[i]? = some c) (t : Option Item) : iterItems (.dset cs (some i)) t = iterItems c.2 t := by
  rw [iterItems]
  split
  · next h2 => rw [h] at h2; cases h2
  · next h2 => rw [h] at h2; cases h2; rfl

theorem iterItems_out (h : cs[i]? = none) (t : Option Item) : iterItems (.dset cs (some i)) t = .ok none := by
  rw [iterItems]
  split
  · rfl
  · next h2 => rw [h] at h2; cases h2

theorem iterItems_err (h : childAt ts j = .error e) : iterItems (.temporal ts a) (some j) = .error e := by
  rw [iterItems]
  split
  · next h2 => rw [h] at h2; cases h2; rfl
  · next h2 => rw [h] at h2; cases h2

theorem iterItems_time (h : childAt ts j = .ok d) : iterItems (.temporal ts a) (some j) = iterItems (resolve d) (some j) := by
  rw [iterItems]
  split
  · next h2 => rw [h] at h2; cases h2
  · next h2 => rw [h] at h2; cases h2; rfl

theorem fieldDict_step (h : cs[i]? = some c) (t : Option Item) : fieldDict (.dset cs (some i)) t = fieldDict c.2 t := by
  rw [fieldDict]
  split
  · next h2 => rw [h] at h2; cases h2
  · next h2 => rw [h] at h2; cases h2; rfl

theorem fieldDict_out (h : cs[i]? = none) (t : Option Item) : fieldDict (.dset cs (some i)) t = .ok none := by
  rw [fieldDict]
  split
  · rfl
  · next h2 => rw [h] at h2; cases h2

theorem fieldDict_err (h : childAt ts j = .error e) : fieldDict (.temporal ts a) (some j) = .error e := by
  rw [fieldDict]
  split
  · next h2 => rw [h] at h2; cases h2; rfl
  · next h2 => rw [h] at h2; cases h2

theorem fieldDict_time (h : childAt ts j = .ok d) : fieldDict (.temporal ts a) (some j) = fieldDict (resolve d) none := by
  rw [fieldDict]
  split
  · next h2 => rw [h] at h2; cases h2
  · next h2 => rw [h] at h2; cases h2; rfl

theorem getGrid_step (h : cs[i]? = some c) (t : Option Item) : getGrid (.dset cs (some i)) t = getGrid (resolve c.2) t := by
  rw [getGrid]
  split
  · next h2 => rw [h] at h2; cases h2
  · next h2 => rw [h] at h2; cases h2; rfl

theorem getGrid_out (h : cs[i]? = none) (t : Option Item) : getGrid (.dset cs (some i)) t = .error .attributeError := by
  rw [getGrid]
  split
  · rfl
  · next h2 => rw [h] at h2; cases h2

theorem getGrid_err (h : childAt ts j = .error e) : getGrid (.temporal ts a) (some j) = .error e := by
  rw [getGrid]
  split
  · next h2 => rw [h] at h2; cases h2; rfl
  · next h2 => rw [h] at h2; cases h2

theorem getGrid_time (h : childAt ts j = .ok d) : getGrid (.temporal ts a) (some j) = getGrid (resolve d) (some j) := by
  rw [getGrid]
  split
  · next h2 => rw [h] at h2; cases h2
  · next h2 => rw [h] at h2; cases h2; rfl

theorem bucketGet_none {l : List (List Key × α)} {k : Key} (h : ∀ c ∈ l, k ∉ c.1) : bucketGet l k = none := by
  unfold bucketGet
  rw [Option.map_eq_none_iff, List.find?_eq_none]
  intro c hc; simpa using h c hc

theorem bucketGet_entry {l : List (List Key × α)} {k : Key} {x : α} : bucketGet l k = some x ↔ Entry l k x := by
  unfold bucketGet Entry
  rw [Option.map_eq_some_iff]
  constructor
  · rintro ⟨⟨ks, f'⟩, h1, rfl⟩
    obtain ⟨h2, before, after, h3, h4⟩ := List.find?_eq_some_iff_append.mp h1
    exact ⟨before, ks, after, h3, by simpa using h2, fun b hb => by simpa using h4 b hb⟩
  · rintro ⟨before, ks, after, h1, h2, h3⟩
    exact ⟨(ks, x), List.find?_eq_some_iff_append.mpr ⟨by simpa using h2, before, after, h1, fun b hb => by simpa using h3 b hb⟩, rfl⟩

theorem getItem_step (h : cs[i]? = some c) {k : Key} (hk : ∀ c ∈ cs, k ∉ c.1) : getItem (.dset cs (some i)) k = getItem c.2 k := by
  rw [getItem.eq_def]
  simp only [bucketGet_none hk]
  split
  · next h2 => rw [h] at h2; cases h2
  · next h2 => rw [h] at h2; cases h2; rfl

theorem getItem_found {o : Option Nat} {k : Key} (h : bucketGet cs k = some d) : getItem (.dset cs o) k = .ok (.inl (resolve d)) := by
  rw [getItem.eq_def]; simp only [h]

theorem getItem_empty {k : Key} (hk : ∀ c ∈ cs, k ∉ c.1) : getItem (.dset cs none) k = .error .keyError := by
  rw [getItem.eq_def]; simp only [bucketGet_none hk]
end steps

theorem leads_getGrid {n g : Node F} {time : Option Item} (h : Leads n time g) : getGrid n time = .ok g := by
  induction h with
  | here => rw [getGrid]
  | dset h1 h2 _ ih => rw [getGrid_step h1, stands_iff.mp h2]; exact ih
  | active h2 _ ih => rw [getGrid, stands_iff.mp h2]; exact ih
  | atTime h1 h2 _ ih => rw [getGrid_time h1, stands_iff.mp h2]; exact ih

theorem getGrid_leads (n : Node F) (time : Option Item) : ∀ g, getGrid n time = .ok g → Leads n time g := by
  induction n, time using getGrid.induct with
  | case1 => intro g h; rw [getGrid] at h; cases h; exact .here
  | case2 => intro g h; rw [getGrid] at h; cases h
  | case3 => intro g h; rw [getGrid] at h; cases h
  | case4 cs time i h1 => intro g h; rw [getGrid_out h1] at h; cases h
  | case5 cs time i c h1 ih => intro g h; rw [getGrid_step h1] at h; exact .dset h1 (stands_iff.mpr rfl) (ih g h)
  | case6 => intro g h; rw [getGrid] at h; cases h
  | case7 cs a ih => intro g h; rw [getGrid] at h; exact .active (stands_iff.mpr rfl) (ih g h)
  | case8 cs a i e h1 => intro g h; rw [getGrid_err h1] at h; cases h
  | case9 cs a i c h1 ih => intro g h; rw [getGrid_time h1] at h; exact .atTime h1 (stands_iff.mpr rfl) (ih g h)

/-- C174: `get_grid(time)` is the grid at the end of the way down, through deferred children as well; and it raises if there is none. -/
theorem C174_grid (n g : Node F) (time : Option Item) : getGrid n time = .ok g ↔ Leads n time g :=
  ⟨getGrid_leads n time g, leads_getGrid⟩

theorem ready_walk {n g : Node F} {time : Option Item} (hr : Ready n time) : Leads n time g →
    (∀ k, getField n k time = getField g k none) ∧ iterItems n time = iterItems g none := by
  induction hr generalizing g with
  | here =>
    intro h; cases h
    exact ⟨fun k => by rw [getField, getField], by rw [iterItems, iterItems]⟩
  | dset h1 h2 _ ih =>
    intro h
    cases h with
    | dset h3 h4 h5 =>
      rw [h1] at h3; cases h3
      rw [stands_iff, resolve_of_ready h2] at h4; subst h4
      obtain ⟨a, b⟩ := ih h5
      exact ⟨fun k => by rw [← a k, getField_step h1], by rw [← b, iterItems_step h1]⟩
  | active h2 _ ih =>
    intro h
    cases h with
    | active h4 h5 =>
      rw [stands_iff, resolve_of_ready h2] at h4; subst h4
      obtain ⟨a, b⟩ := ih h5
      exact ⟨fun k => by rw [← a k, getField], by rw [← b, iterItems]⟩
  | atTime h1 h2 _ ih =>
    intro h
    cases h with
    | atTime h3 h4 h5 =>
      rw [h1] at h3; cases h3
      rw [stands_iff] at h2 h4; subst h2; subst h4
      obtain ⟨a, b⟩ := ih h5
      exact ⟨fun k => by rw [← a k, getField_time h1], by rw [← b, iterItems_time h1]⟩

/-- C174: if no active child on the way is still deferred, `get_field(name, time)` is the field of that name of `get_grid(time)`, and `iter_field_items(time)` are
the fields of that grid. What is missing are deferred active children (C174_deferred_violated) and datasets without active child (C174_empty_violated). -/
theorem C174_field_partial {n g : Node F} {time : Option Item} (hr : Ready n time) (hg : getGrid n time = .ok g) :
    (∀ k, getField n k time = getField g k none) ∧ iterItems n time = iterItems g none :=
  ready_walk hr (getGrid_leads n time g hg)

/-- C174: at the end of the way a field is found by any of its names, a name that is none is a KeyError, and the items are the fields with their first
handles. Its number is a handle as well, but raises TypeError. -/
theorem C174_leaf (gid : Nat) (fs : List (List Key × F)) (time : Option Item) :
    (∀ s f, getField (.grid gid fs) (.name s) time = .ok (some f) ↔ Entry fs (.name s) f) ∧
      (∀ i, getField (.grid gid fs) (.index i) time = .error .typeError) ∧
      (∀ s, (∀ c ∈ fs, Key.name s ∉ c.1) → getField (.grid gid fs) (.name s) time = .error .keyError) ∧
      iterItems (.grid gid fs) time = .ok (some (fs.map fun c => (c.1[0]?, c.2))) := by
  refine ⟨?_, ?_, ?_, ?_⟩
  · intro s f
    rw [← bucketGet_entry, getField]
    unfold gridField
    dsimp only
    cases h : bucketGet fs (.name s) with
    | some f' => simp [Except.map]
    | none => simp [Except.map]
  · intro i
    rw [getField]
    rfl
  · intro s hs
    rw [getField]
    unfold gridField
    dsimp only
    rw [bucketGet_none hs]; rfl
  · rw [iterItems]; unfold fieldItems; simp [List.head?_eq_getElem?]

/-- C174: `ds[name]` is the child with that handle, if the dataset has one -/
theorem C174_child {cs : List (List Key × Node F)} {k : Key} {c c' : Node F} (a : Option Nat) (h : Entry cs k c) (hs : Stands c c') :
    getItem (.dset cs a) k = .ok (.inl c') := by
  rw [getItem_found (bucketGet_entry.mpr h), stands_iff.mp hs]

/-- C174: and if no dataset on the way has a child of that name, it is the field `get_field(name)` gives -/
theorem C174_item_partial {n : Node F} {k : Key} (hf : Free k n) (hr : Ready n none) (f : F) :
    getItem n k = .ok (.inr f) ↔ getField n k none = .ok (some f) := by
  generalize ht : (none : Option Item) = time at hr
  induction hr with
  | here =>
    rw [getItem, getField]
    unfold gridField
    cases k with
    | name s =>
      dsimp only
      cases h : bucketGet _ (Key.name s) with
      | some f' => simp [Except.map]
      | none => simp [Except.map]
    | index i => simp [Except.map]
  | dset h1 h2 _ ih =>
    cases hf with
    | dset h3 h4 h5 =>
      rw [h1] at h4; cases h4
      rw [getItem_step h1 h3, getField_step h1]
      exact ih h5 ht
  | active h2 _ ih =>
    cases hf with
    | active h5 => rw [getItem, getField]; exact ih h5 rfl
  | atTime => cases ht

/-- C174 is violated: with an active child that is still deferred, `get_grid()` goes on to the grid, but `get_field` is an AttributeError and `ds[name]` a
TypeError, whatever the name -/
theorem C174_deferred_violated (cs : List (List Key × Node F)) (i : Nat) (ks : List Key) (t : Node F) (hc : cs[i]? = some (ks, .deferred t))
    (k : Key) (hk : ∀ c ∈ cs, k ∉ c.1) (time : Option Item) :
    getGrid (.dset cs (some i)) time = getGrid t time ∧ getField (.dset cs (some i)) k time = .error .attributeError ∧
      iterItems (.dset cs (some i)) time = .error .attributeError ∧ getItem (.dset cs (some i)) k = .error .typeError := by
  refine ⟨?_, ?_, ?_, ?_⟩
  · rw [getGrid_step hc]; rfl
  · rw [getField_step hc, getField]
  · rw [iterItems_step hc, iterItems]
  · rw [getItem_step hc hk, getItem]

/-- the same for temporal datasets, in which a deferred child becomes active when it is added -/
theorem C174_deferred_temporal_violated (cs : List (Time × Node F)) (t : Node F) (k : Key) :
    getGrid (.temporal cs (some (.deferred t))) none = getGrid t none ∧
      getField (.temporal cs (some (.deferred t))) k none = .error .attributeError ∧
      getItem (.temporal cs (some (.deferred t))) k = .error .typeError := by
  refine ⟨?_, ?_, ?_⟩
  · rw [getGrid]; rfl
  · rw [getField, getField]
  · rw [getItem, getItem]

/-- C174 is violated: without an active child `get_field` returns None, `get_grid` raises AttributeError and `ds[name]` raises KeyError -/
theorem C174_empty_violated (cs : List (List Key × Node F)) (k : Key) (hk : ∀ c ∈ cs, k ∉ c.1) (time : Option Item) :
    getField (.dset cs none) k time = .ok none ∧ getGrid (.dset cs none) time = .error .attributeError ∧
      getItem (.dset cs none) k = .error .keyError :=
  ⟨by rw [getField], by rw [getGrid], getItem_empty hk⟩

theorem dict_none (n : Node F) (time : Option Item) (ht : time = none) : fieldDict n time = iterItems n time := by
  induction n, time using fieldDict.induct with
  | case1 => rw [fieldDict, iterItems]
  | case2 => rw [fieldDict, iterItems]
  | case3 => rw [fieldDict, iterItems]
  | case4 cs time i h1 => rw [fieldDict_out h1, iterItems_out h1]
  | case5 cs time i c h1 ih => rw [fieldDict_step h1, iterItems_step h1]; exact ih ht
  | case6 => rw [fieldDict, iterItems]
  | case7 cs a ih => rw [fieldDict, iterItems]; exact ih rfl
  | case8 => cases ht
  | case9 => cases ht

theorem still_walk {n : Node F} (h : Still n) (time : Option Item) :
    (∀ k, getField n k time = getField n k none) ∧ iterItems n time = iterItems n none := by
  induction h with
  | grid => exact ⟨fun k => by rw [getField, getField], by rw [iterItems, iterItems]⟩
  | deferred => exact ⟨fun k => by rw [getField, getField], by rw [iterItems, iterItems]⟩
  | empty => exact ⟨fun k => by rw [getField, getField], by rw [iterItems, iterItems]⟩
  | outside h1 => exact ⟨fun k => by rw [getField_out h1, getField_out h1], by rw [iterItems_out h1, iterItems_out h1]⟩
  | dset h1 _ ih => exact ⟨fun k => by rw [getField_step h1, getField_step h1]; exact ih.1 k, by rw [iterItems_step h1, iterItems_step h1]; exact ih.2⟩

/-- C174: without a time, or if no temporal dataset is below a temporal one, `field_dict(time)` has the items of `iter_field_items(time)` -/
theorem C174_dict_partial (n : Node F) (time : Option Item) (h : time = none ∨ Once n) : fieldDict n time = iterItems n time := by
  rcases h with rfl | h
  · exact dict_none n none rfl
  · induction h with
    | grid => rw [fieldDict, iterItems]
    | deferred => rw [fieldDict, iterItems]
    | empty => rw [fieldDict, iterItems]
    | outside h1 => rw [fieldDict_out h1, iterItems_out h1]
    | dset h1 _ ih => rw [fieldDict_step h1, iterItems_step h1]; exact ih
    | @temporal cs a h1 =>
      cases time with
      | none => exact dict_none _ _ rfl
      | some i =>
        cases h2 : childAt cs i with
        | error e => rw [fieldDict_err h2, iterItems_err h2]
        | ok c =>
          obtain ⟨t, ht⟩ := childAt_mem h2
          rw [fieldDict_time h2, iterItems_time h2, dict_none _ _ rfl, (still_walk (h1 t c _ ht (stands_iff.mpr rfl)) (some i)).2]

/-! ## an example -/

namespace NestedEx
def g (i : Nat) : Node Nat := .grid i [([.name "b", .index 0], 10 + i), ([.name "v", .index 1], 20 + i)]
def inner (i : Nat) : Node Nat := .temporal [(⟨0, false⟩, g i), (⟨1, false⟩, g (i + 1))] (some (g i))
/-- a temporal dataset in a file, with a deferred child at time 1 -/
def file : Node Nat :=
  .dset [([.name "t", .index 0], .temporal [(⟨0, false⟩, g 1), (⟨1, false⟩, .deferred (g 2))] (some (g 1))), ([.name "other", .index 1], g 3)] (some 0)
end NestedEx

open NestedEx in
example : getField file (.name "b") (some (.int 1)) = .ok (some 12) ∧ Ready file (some (.int 1)) ∧
    getGrid file (some (.int 1)) = .ok (g 2) := by
  have h : Leads file (some (.int 1)) (g 2) :=
    .dset (ks := [.name "t", .index 0]) rfl (.self (by intro t h; cases h)) (.atTime (c := .deferred (g 2)) rfl .target .here)
  have hr : Ready file (some (.int 1)) :=
    .dset (ks := [.name "t", .index 0]) rfl (by intro t h; cases h) (.atTime (c := .deferred (g 2)) rfl .target .here)
  refine ⟨?_, hr, (C174_grid _ _ _).mpr h⟩
  rw [(ready_walk hr h).1, g, (C174_leaf 2 _ none).1]
  exact ⟨[], [.name "b", .index 0], [([.name "v", .index 1], 22)], rfl, by decide, by simp⟩

/-- C174 is violated: `field_dict(time)` of a temporal dataset does not hand the time on, so that the fields of a temporal dataset below it are those of its
active child, not those `get_field(name, time)` gives -/
theorem C174_dict_violated : ∃ (n : Node Nat) (i : Item) (k : Key) (l : List (Option Key × Nat)),
    fieldDict n (some i) = .ok (some l) ∧ (some k, 11) ∈ l ∧ getField n k (some i) = .ok (some 12) := by
  refine ⟨.temporal [(⟨0, false⟩, NestedEx.inner 0), (⟨1, false⟩, NestedEx.inner 1)] none, .int 1, .name "b",
    [(some (.name "b"), 11), (some (.name "v"), 21)], ?_, by simp, ?_⟩
  · have h : childAt (F := Nat) [(⟨0, false⟩, NestedEx.inner 0), (⟨1, false⟩, NestedEx.inner 1)] (.int 1) = .ok (NestedEx.inner 1) := rfl
    rw [fieldDict_time h]
    show fieldDict (NestedEx.inner 1) none = _
    rw [NestedEx.inner, fieldDict, NestedEx.g, fieldDict]; rfl
  · have hl : Leads (.temporal [(⟨0, false⟩, NestedEx.inner 0), (⟨1, false⟩, NestedEx.inner 1)] none) (some (.int 1)) (NestedEx.g 2) :=
      .atTime (c := NestedEx.inner 1) rfl (.self (by intro t h; cases h)) (.atTime (c := NestedEx.g 2) rfl (.self (by intro t h; cases h)) .here)
    have hr : Ready (.temporal [(⟨0, false⟩, NestedEx.inner 0), (⟨1, false⟩, NestedEx.inner 1)] none) (some (.int 1)) :=
      .atTime (c := NestedEx.inner 1) rfl (.self (by intro t h; cases h)) (.atTime (c := NestedEx.g 2) rfl (.self (by intro t h; cases h)) .here)
    rw [(ready_walk hr hl).1, NestedEx.g, (C174_leaf 2 _ none).1]
    exact ⟨[], [.name "b", .index 0], [([.name "v", .index 1], 22)], rfl, by decide, by simp⟩

end Viscid.Props
