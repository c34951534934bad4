import Verif.Spec.Dataset
import Verif.Spec.Slice
import Verif.Props.Select
/-!
# C38, C39, C67: temporal datasets
-/
namespace Viscid.Dataset
open Viscid.Spec.Dataset Viscid.FwdSlice Viscid.Spec.Slice

variable {C : Type}

theorem ins_perm (x : Time × C) (l : List (Time × C)) : (ins x l).Perm (x :: l) := by
  induction l with
  | nil => exact List.Perm.refl _
  | cons y ys ih =>
    unfold ins
    split
    · exact List.Perm.refl _
    · exact (ih.cons y).trans (List.Perm.swap x y ys)

theorem pySort_perm (l : List (Time × C)) : (pySort l).Perm l := by
  induction l with
  | nil => exact List.Perm.refl _
  | cons x xs ih => exact (ins_perm x _).trans (ih.cons x)

theorem ins_sorted (x : Time × C) (l : List (Time × C)) (h : l.Pairwise fun a b => a.1.v ≤ b.1.v) :
    (ins x l).Pairwise fun a b => a.1.v ≤ b.1.v := by
  induction l with
  | nil => simp [ins]
  | cons y ys ih =>
    unfold ins
    rw [List.pairwise_cons] at h
    split
    · rename_i hxy
      refine List.pairwise_cons.mpr ⟨?_, List.pairwise_cons.mpr h⟩
      intro z hz
      rcases List.mem_cons.mp hz with rfl | hz
      · exact hxy
      · exact le_trans hxy (h.1 z hz)
    · rename_i hxy
      refine List.pairwise_cons.mpr ⟨?_, ih h.2⟩
      intro z hz
      rcases List.mem_cons.mp ((ins_perm x ys).mem_iff.mp hz) with rfl | hz
      · exact le_of_lt (not_le.mp hxy)
      · exact h.1 z hz

theorem pySort_sorted (l : List (Time × C)) : (pySort l).Pairwise fun a b => a.1.v ≤ b.1.v := by
  induction l with
  | nil => exact List.Pairwise.nil
  | cons x xs ih => exact ins_sorted x _ ih

theorem ins_ties (x : Time × C) (l : List (Time × C)) (t : ℚ) :
    (ins x l).filter (fun c => c.1.v = t) = (x :: l).filter (fun c => c.1.v = t) := by
  induction l with
  | nil => rfl
  | cons y ys ih =>
    unfold ins
    split
    · rfl
    · rename_i hxy
      rw [List.filter_cons, ih]
      by_cases hy : y.1.v = t
      · have hx : ¬ x.1.v = t := by intro hx; exact hxy (by rw [hx, hy])
        simp [hy, hx]
      · by_cases hx : x.1.v = t <;> simp [hy, hx]

theorem pySort_ties (l : List (Time × C)) (t : ℚ) :
    (pySort l).filter (fun c => c.1.v = t) = l.filter (fun c => c.1.v = t) := by
  induction l with
  | nil => rfl
  | cons x xs ih =>
    show (ins x (pySort xs)).filter _ = _
    rw [ins_ties, List.filter_cons, List.filter_cons, ih]

theorem pySort_timeOrdered (l : List (Time × C)) : TimeOrdered l (pySort l) :=
  ⟨pySort_perm l, pySort_sorted l, pySort_ties l⟩

theorem ordered_run (ops : List (Op C)) (s : State C) (inp : List (Time × C))
    (h : TimeOrdered inp s.children) : TimeOrdered (given ops inp) (ops.foldl step s).children := by
  induction ops generalizing s inp with
  | nil => exact h
  | cons op ops ih =>
    cases op with
    | add t c a =>
      cases c with
      | none => exact ih s inp h
      | some c =>
        refine ih _ _ ?_
        have h' := pySort_timeOrdered (s.children ++ [(t.getD ⟨0, false⟩, c)])
        refine ⟨h'.perm.trans (h.perm.append_right _), h'.sorted, fun u => ?_⟩
        show (pySort (s.children ++ [(t.getD ⟨0, false⟩, c)])).filter _ = _
        rw [h'.ties u, List.filter_append, List.filter_append, h.ties u]
    | removeAll => exact ih _ [] ⟨List.Perm.refl _, List.Pairwise.nil, fun _ => rfl⟩
    | activate i =>
      refine ih _ inp ?_
      show TimeOrdered inp (match getChild s i with | .ok c => { s with active := some c } | .error _ => s).children
      cases getChild s i <;> exact h

/-- C38: whatever the order in which children were added (and however often the dataset was emptied
in between), it holds exactly the children given, in nondecreasing time, ties in insertion order. -/
theorem C38_time_ordered (ops : List (Op C)) : TimeOrdered (given ops []) (exec ops).children :=
  ordered_run ops empty [] ⟨List.Perm.refl _, List.Pairwise.nil, fun _ => rfl⟩

/-- C38: iterating yields the children in that order. -/
theorem C38_iter (ops : List (Op C)) :
    ∃ out, TimeOrdered (given ops []) out ∧ iter (exec ops) = out.map Prod.snd :=
  ⟨_, C38_time_ordered ops, rfl⟩

/-- C38: `TimeOrdered` determines the list, so the iteration order depends on nothing else. -/
theorem C38_order_unique {inp a b : List (Time × C)} (ha : TimeOrdered inp a) (hb : TimeOrdered inp b) :
    a = b := by
  have key : ∀ (n : Nat) (a b : List (Time × C)), a.length = n → a.Perm b →
      a.Pairwise (fun x y => x.1.v ≤ y.1.v) → b.Pairwise (fun x y => x.1.v ≤ y.1.v) →
      (∀ t : ℚ, a.filter (fun c => c.1.v = t) = b.filter (fun c => c.1.v = t)) → a = b := by
    intro n
    induction n with
    | zero =>
      intro a b hn hp _ _ _
      have : a = [] := List.length_eq_zero_iff.mp hn
      subst this
      exact (List.nil_perm.mp hp).symm
    | succ n ih =>
      intro a b hn hp sa sb ht
      cases a with
      | nil => cases hn
      | cons x xs =>
        cases b with
        | nil => exact absurd hp.length_eq (by simp)
        | cons y ys =>
          rw [List.pairwise_cons] at sa sb
          have hxy : x.1.v ≤ y.1.v := by
            rcases List.mem_cons.mp (hp.mem_iff.mpr (List.mem_cons_self)) with h | h
            · exact le_of_eq (by rw [h])
            · exact sa.1 y h
          have hyx : y.1.v ≤ x.1.v := by
            rcases List.mem_cons.mp (hp.mem_iff.mp (List.mem_cons_self)) with h | h
            · exact le_of_eq (by rw [h])
            · exact sb.1 x h
          have hv : y.1.v = x.1.v := le_antisymm hyx hxy
          have h0 := ht x.1.v
          rw [List.filter_cons, List.filter_cons] at h0
          simp only [hv, decide_true, if_true] at h0
          have hxy' : x = y := (List.cons.inj h0).1
          subst hxy'
          congr 1
          refine ih xs ys (by simpa using hn) ((List.perm_cons x).mp hp) sa.2 sb.2 fun t => ?_
          have h1 := ht t
          rw [List.filter_cons, List.filter_cons] at h1
          split at h1
          · exact (List.cons.inj h1).2
          · exact h1
  exact key _ a b rfl (ha.perm.trans hb.perm.symm) ha.sorted hb.sorted
    fun t => (ha.ties t).trans (hb.ties t).symm

/-- C38: get_child by time returns a child of nearest time, the earliest in iteration order among
equally near ones, as soon as the dataset is not empty and not all times are Python ints. -/
theorem C38_nearest (ops : List (Op C)) (v : ℚ)
    (hf : ∃ c ∈ given ops [], c.1.isInt = false) :
    ∃ (i : Nat) (c : Time × C), (exec ops).children[i]? = some c ∧ c ∈ given ops [] ∧
      getChild (exec ops) (.float v) = .ok c.2 ∧ getChild (exec ops) (.timeStr v) = .ok c.2 ∧
      (∀ c' ∈ given ops [], |c.1.v - v| ≤ |c'.1.v - v|) ∧
      ∀ (j : Nat) (c' : Time × C), (exec ops).children[j]? = some c' → j < i → |c.1.v - v| < |c'.1.v - v| := by
  have hord := C38_time_ordered ops
  set s := exec ops with hs
  obtain ⟨cf, hcf, hcfi⟩ := hf
  have hcf' : cf ∈ s.children := hord.perm.mem_iff.mpr hcf
  have hne : s.children ≠ [] := List.ne_nil_of_mem hcf'
  have hall : s.children.all (fun c => c.1.isInt) = false := by
    rw [Bool.eq_false_iff]
    intro h
    rw [List.all_eq_true] at h
    rw [h cf hcf'] at hcfi
    cases hcfi
  obtain ⟨i, x, hsel, hx, hmin⟩ := Select.C15_nearest (s.children.map fun c => c.1.v) v (by simpa using hne)
  rw [List.getElem?_map, Option.map_eq_some_iff] at hx
  obtain ⟨c, hc, rfl⟩ := hx
  have hst : sliceTime s v = .ok i := by
    unfold sliceTime
    cases hch : s.children with
    | nil => exact absurd hch hne
    | cons a l =>
      rw [hch] at hall hsel
      simp only [hall, hsel, Bool.false_eq_true, if_false]
  have hg : getChild s (.float v) = .ok c.2 := by
    simp only [getChild, hst, hc]
  refine ⟨i, c, hc, hord.perm.mem_iff.mp (List.mem_of_getElem? hc), hg, ?_, ?_, ?_⟩
  · simp only [getChild, hst, hc]
  · intro c' hc'
    obtain ⟨j, hj⟩ := List.mem_iff_getElem?.mp (hord.perm.mem_iff.mpr hc')
    exact (hmin j c'.1.v (by rw [List.getElem?_map, hj]; rfl)).1
  · intro j c' hj hji
    exact (hmin j c'.1.v (by rw [List.getElem?_map, hj]; rfl)).2 hji

example := C38_nearest [.add (some ⟨5, false⟩) (some 'b') true, .add (some ⟨3, true⟩) (some 'a') false] (9 / 2) (by decide)

/-- C38 fails when every child's time is a Python int: get_child by time raises, although the children
are there (numpy makes an integer array, which slicing by value refuses). -/
theorem C38_int_times_violated :
    getChild (exec [.add (some ⟨0, true⟩) (some 'a') true, .add (some ⟨1, true⟩) (some 'b') true]) (.float 1)
      = .error .notImplemented := by decide +kernel

/-- C38: an integer is a position in time order, negative ones counting from the end. -/
theorem C38_index (ops : List (Op C)) (i : Int) :
    getChild (exec ops) (.int i) =
      match (if i < 0 then if i + (exec ops).children.length < 0 then none
          else (iter (exec ops))[(i + (exec ops).children.length).toNat]?
        else (iter (exec ops))[i.toNat]?) with
      | some c => .ok c
      | none => .error .indexError := by
  simp only [getChild, pyGet, iter, List.getElem?_map]
  by_cases hi : i < 0
  · simp only [hi, if_true]
    by_cases h2 : i + ((exec ops).children.length : Int) < 0
    · simp only [h2, if_true]
    · simp only [h2, if_false]
      cases (exec ops).children[(i + ((exec ops).children.length : Int)).toNat]? <;> rfl
  · simp only [hi, if_false]
    cases (exec ops).children[i.toNat]? <;> rfl

/-- C38: get_times with a slice of ints yields the children of the positions Python's slicing selects
from the time order. -/
theorem C38_get_times (s : State C) (sl : Slc) (h : sl.step ≠ some 0) :
    getTimes s sl = .ok ((pyIndices s.children.length sl.start sl.stop (sl.step.getD 1)).filterMap
      fun i => (iter s)[i.toNat]?) := by
  obtain ⟨st, sp, stp⟩ := sl
  simp only [getTimes, h, if_false, pickSlice, pyIndices, pyRange, rangeLen, ap]
  congr 1
  rw [List.map_filterMap]
  by_cases hs : stp.getD 1 > 0
  · simp only [hs, if_true]
    cases st <;> cases sp <;>
      (simp only [Option.elim, clampIdx, List.filterMap_map, iter, List.getElem?_map, Function.comp_def]; rfl)
  · simp only [hs, if_false]
    cases st <;> cases sp <;>
      (simp only [Option.elim, clampIdx, List.filterMap_map, iter, List.getElem?_map, Function.comp_def]; rfl)

/-- C38: with no selection, get_times is the iteration order. -/
example : getTimes (exec [.add (some ⟨5, false⟩) (some 'b') true, .add (some ⟨3, true⟩) (some 'a') false,
    .add (some ⟨5, false⟩) (some 'c') true]) ⟨none, none, none⟩ = .ok ['a', 'b', 'c'] := by decide +kernel

/-- The hypothesis of `C38_nearest` is met, with a tie in time and one int time. -/
example : getChild (exec [.add (some ⟨5, false⟩) (some 'b') true, .add (some ⟨3, true⟩) (some 'a') false,
    .add (some ⟨5, false⟩) (some 'c') true]) (.timeStr (9 / 2)) = .ok 'b' := by decide +kernel

/-- get_child never succeeds for a slice, whatever it selects. -/
theorem C38_slice_never (s : State C) (sl : Slc) (c : C) : getChild s (.slice sl) ≠ .ok c := by
  intro h
  simp only [getChild] at h
  split at h
  · cases h
  · split at h <;> cases h

theorem pyGet_ok {α : Type} (l : List α) (i : Int) (h0 : 0 ≤ i) (h1 : i < l.length) :
    ∃ x, l[i.toNat]? = some x ∧ pyGet l i = .ok x := by
  have hlt : i.toNat < l.length := by omega
  refine ⟨l[i.toNat], List.getElem?_eq_getElem hlt, ?_⟩
  unfold pyGet
  simp only [show ¬ i < 0 by omega, if_false, List.getElem?_eq_getElem hlt]

/-- C39, what holds: an index strictly between 0 and the number of children is both a member and
retrievable. -/
theorem C39_index_partial (has : C → Item → Except Err Bool) (s : State C) (i : Int)
    (h0 : 0 < i) (h1 : i < s.children.length) :
    contains has s (.int i) = .ok true ∧ ∃ c, getChild s (.int i) = .ok c := by
  refine ⟨?_, ?_⟩
  · simp only [contains]
    rw [if_pos ⟨h0, h1⟩]
  · obtain ⟨x, _, hx⟩ := pyGet_ok s.children i (by omega) h1
    exact ⟨x.2, by simp only [getChild, hx]⟩

/-- C39, what holds: membership implies retrieval, for a dataset built by any history with a float time,
unless it is the active child that has the item. -/
theorem C39_sound_partial (has : C → Item → Except Err Bool) (ops : List (Op C)) (item : Item)
    (hf : ∃ c ∈ given ops [], c.1.isInt = false)
    (hc : contains has (exec ops) item = .ok true) :
    (∃ c, getChild (exec ops) item = .ok c) ∨
      ∃ c, (exec ops).active = some c ∧ has c item = .ok true := by
  have hact : ∀ it, (match (exec ops).active with
      | none => (.error .typeError : Except Err Bool) | some c => has c it) = .ok true →
      ∃ c, (exec ops).active = some c ∧ has c it = .ok true := by
    intro it h
    cases ha : (exec ops).active with
    | none => rw [ha] at h; cases h
    | some c => rw [ha] at h; exact ⟨c, rfl, h⟩
  cases item with
  | int i =>
    simp only [contains] at hc
    split at hc
    · rename_i h
      exact Or.inl (C39_index_partial has (exec ops) i h.1 h.2).2
    · exact Or.inr (hact _ hc)
  | timeStr v =>
    obtain ⟨_, c, _, _, _, h, _⟩ := C38_nearest ops v hf
    exact Or.inl ⟨_, h⟩
  | float v => exact Or.inr (hact _ hc)
  | idxStr i => exact Or.inr (hact _ hc)
  | name n => exact Or.inr (hact _ hc)
  | slice sl => exact Or.inr (hact _ hc)

/-- C39, what holds: a time string is a member exactly when it lies in the time range of the dataset. -/
theorem C39_time_range (has : C → Item → Except Err Bool) (ops : List (Op C)) (v : ℚ)
    (hne : given ops [] ≠ []) :
    contains has (exec ops) (.timeStr v) = .ok (decide
      ((∃ c ∈ given ops [], c.1.v ≤ v) ∧ ∃ c ∈ given ops [], v ≤ c.1.v)) := by
  have hord := C38_time_ordered ops
  set s := exec ops
  have hne' : s.children ≠ [] := fun h => hne (List.nil_perm.mp (h ▸ hord.perm))
  have hsor := hord.sorted
  obtain ⟨a, ha⟩ : ∃ a, s.children.head? = some a := by
    cases h : s.children with
    | nil => exact absurd h hne'
    | cons a l => exact ⟨a, rfl⟩
  obtain ⟨b, hb⟩ : ∃ b, s.children.getLast? = some b :=
    ⟨_, List.getLast?_eq_some_getLast hne'⟩
  have hmin : ∀ c ∈ s.children, a.1.v ≤ c.1.v := by
    intro c hc
    cases h : s.children with
    | nil => exact absurd h hne'
    | cons a' l =>
      rw [h] at ha hsor hc
      cases ha
      rcases List.mem_cons.mp hc with rfl | hc
      · exact le_refl _
      · exact (List.pairwise_cons.mp hsor).1 c hc
  have hmax : ∀ c ∈ s.children, c.1.v ≤ b.1.v := by
    intro c hc
    obtain ⟨l, hl⟩ := List.getLast?_eq_some_iff.mp hb
    rw [hl] at hsor hc
    rcases List.mem_append.mp hc with hc | hc
    · exact (List.pairwise_append.mp hsor).2.2 c hc b (by simp)
    · rw [List.mem_singleton.mp hc]
  have ham : a ∈ given ops [] := hord.perm.mem_iff.mp (List.mem_of_mem_head? ha)
  have hbm : b ∈ given ops [] := hord.perm.mem_iff.mp (List.mem_of_getLast? hb)
  simp only [contains, ha, hb]
  have hiff : (v ≥ a.1.v ∧ v ≤ b.1.v) ↔
      ((∃ c ∈ given ops [], c.1.v ≤ v) ∧ ∃ c ∈ given ops [], v ≤ c.1.v) := by
    constructor
    · intro h
      exact ⟨⟨a, ham, h.1⟩, ⟨b, hbm, h.2⟩⟩
    · rintro ⟨⟨c, hc, h1⟩, ⟨d, hd, h2⟩⟩
      exact ⟨le_trans (hmin c (hord.perm.mem_iff.mpr hc)) h1, le_trans h2 (hmax d (hord.perm.mem_iff.mpr hd))⟩
  by_cases h : v ≥ a.1.v ∧ v ≤ b.1.v
  · rw [if_pos h, decide_eq_true (hiff.mp h)]
  · rw [if_neg h, decide_eq_false (fun h' => h (hiff.mpr h'))]

/-- A dataset of two children at times 3.0 and 5.0, and a membership test of children that has nothing. -/
def two : State Char := exec [.add (some ⟨5, false⟩) (some 'b') true, .add (some ⟨3, false⟩) (some 'a') true]

/-- C39 fails for index 0: retrievable, not a member. -/
theorem C39_zero_violated :
    contains (fun _ _ => .ok false) two (.int 0) = .ok false ∧ getChild two (.int 0) = .ok 'a' := by
  decide +kernel

/-- C39 fails for negative indices, float times and times outside the range. -/
theorem C39_others_violated :
    (contains (fun _ _ => .ok false) two (.int (-1)) = .ok false ∧ getChild two (.int (-1)) = .ok 'b') ∧
    (contains (fun _ _ => .ok false) two (.float 5) = .ok false ∧ getChild two (.float 5) = .ok 'b') ∧
    (contains (fun _ _ => .ok false) two (.timeStr 7) = .ok false ∧ getChild two (.timeStr 7) = .ok 'b') := by
  decide +kernel

/-- C39 fails more generally: index 0 is retrievable from every nonempty dataset, and its membership is
whatever the active child says about the number 0. -/
theorem C39_zero_always_violated (has : C → Item → Except Err Bool) (s : State C) (a : C)
    (hne : s.children ≠ []) (ha : s.active = some a) :
    contains has s (.int 0) = has a (.int 0) ∧ ∃ c, getChild s (.int 0) = .ok c := by
  refine ⟨?_, ?_⟩
  · simp only [contains, ha]
    rw [if_neg (by omega)]
  · have hpos : 0 < s.children.length := List.length_pos_iff.mpr hne
    obtain ⟨x, _, hx⟩ := pyGet_ok s.children 0 (le_refl _) (by exact_mod_cast hpos)
    exact ⟨x.2, by simp only [getChild, hx]⟩

/-- C39: on an empty dataset the membership test raises (IndexError for a time, TypeError otherwise). -/
theorem C39_empty_violated (has : C → Item → Except Err Bool) (v : ℚ) (i : Int) :
    contains has (empty : State C) (.timeStr v) = .error .indexError ∧
    contains has (empty : State C) (.int i) = .error .typeError := by
  refine ⟨rfl, ?_⟩
  have hn : ¬ (i > 0 ∧ i < ((empty : State C).children.length : Int)) := by
    show ¬ (i > 0 ∧ i < 0)
    omega
  simp only [contains]
  rw [if_neg hn]
  rfl

example := C39_index_partial (fun _ _ => .ok false) two 1 (by decide) (by decide +kernel)

example := C39_sound_partial (fun _ _ => .ok false) [.add (some ⟨5, false⟩) (some 'b') true, .add (some ⟨3, false⟩) (some 'a') true]
  (.timeStr 4) (by decide) (by decide +kernel)

example := C39_time_range (fun _ _ => .ok false) [.add (some ⟨5, false⟩) (some 'b') true, .add (some ⟨3, false⟩) (some 'a') true] 4 (by decide)

example := C39_zero_always_violated (fun _ _ => .ok false) two 'a' (by decide +kernel) (by decide +kernel)

/-- C67 is violated for every dataset and item: `dataset[item]` never returns a child, whatever get_child
would give; it is always the active child's answer. -/
theorem C67_getitem_violated {F : Type} (look : C → Item → Except Err F) (s : State C) (item : Item) (c : C) :
    getItem look s item ≠ .ok (.inl c) := by
  intro h
  simp only [getItem] at h
  split at h
  · cases h
  · split at h <;> cases h

/-- The item of `C67_getitem_violated` may well be retrievable. -/
example : getChild two (.int 1) = .ok 'b' ∧
    getItem (fun _ _ => (.error .keyError : Except Err Unit)) two (.int 1) = .error .keyError := by
  refine ⟨by decide +kernel, rfl⟩

end Viscid.Dataset
