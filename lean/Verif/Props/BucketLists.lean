import Verif.Model.BucketLists
import Verif.Lemmas.Bucket
/-!
# C268: lists of handles given to buckets
-/
namespace Viscid.Spec.BucketLists
open Viscid.Bucket

/-- an item is in the bucket: a handle gives it (or an equal one) -/
def Stored {H I K : Type} [DecidableEq H] (key : I → K) (s : State H I K) (i : I) : Prop := ∃ h j, getItem s h = .ok j ∧ key j = key i

end Viscid.Spec.BucketLists

namespace Viscid.Props
open Viscid.Bucket Viscid.BucketLists Viscid.Spec.BucketLists
variable {H I K : Type} [DecidableEq H] [DecidableEq I] [DecidableEq K]

namespace BL

theorem get_ok {s : State H I K} {h : H} {i : I} : getItem s h = .ok i ↔ s.items.get? h = some i := by
  unfold getItem
  cases s.items.get? h <;> simp

theorem stored_iff {key : I → K} {s : State H I K} (h : Inv key s) (i : I) : Stored key s i ↔ (s.hashLookup.get? (key i)).isSome := by
  rw [h.lookup]
  constructor
  · rintro ⟨a, j, ha, hj⟩
    obtain ⟨hs, e, _⟩ := h.items_handles a j (get_ok.1 ha)
    rw [← hj, e]; rfl
  · intro e
    obtain ⟨hs, e⟩ := Option.isSome_iff_exists.1 e
    obtain ⟨h1, _, h3⟩ := h.handles_items _ _ e
    cases hs with
    | nil => exact absurd rfl h1
    | cons a hs =>
      obtain ⟨j, e1, e2⟩ := h3 a List.mem_cons_self
      exact ⟨a, j, get_ok.2 e1, e2⟩

theorem not_stored {key : I → K} {s : State H I K} (h : Inv key s) {i : I} (hs : ¬ Stored key s i) :
    s.hashLookup.get? (key i) = none ∧ s.handles.get? (key i) = none := by
  rw [stored_iff h] at hs
  have h2 := h.lookup (key i)
  have h1 : s.hashLookup.get? (key i) = none := by simpa using hs
  rw [h1] at h2
  exact ⟨h1, by simpa using h2.symm⟩

/-- a new item with an empty list -/
theorem first {key : I → K} {ofNat : Nat → H} {s : State H I K} (h : Inv key s) {i : I} (hi : ¬ Stored key s i) (hc : s.items.get? (ofNat s.counter) = none) :
    setItem key ofNat s [] i = .ok ⟨s.refCount.set (key i) 1, s.hashLookup.set (key i) i, s.handles.set (key i) [ofNat s.counter], s.items.set (ofNat s.counter) i, s.counter + 1⟩ := by
  obtain ⟨h1, h2⟩ := not_stored h hi
  simp [setItem, h1, setHandles, setHandle, hc, h2]

end BL
open BL

/-- **C268**: `bucket[list] = item` leaves the list as it is. `set_item` does so exactly if the item is there already, or if `index_handle` is false; it puts a number at the end
otherwise. So it is after everything that can be done with a bucket. -/
theorem C268_list_partial (key : I → K) (ofNat : Nat → H) (ops : List (Op H I)) (l : List (Option H)) (i : I) (ih : Bool) :
    (setitem key ofNat (exec key ofNat ops) l i).2 = l ∧
    ((setItemList key ofNat (exec key ofNat ops) l i ih).2 = l ↔ Stored key (exec key ofNat ops) i ∨ ih = false) ∧
    ((setItemList key ofNat (exec key ofNat ops) l i ih).2 ≠ l → (setItemList key ofNat (exec key ofNat ops) l i ih).2 = l ++ [some (ofNat (exec key ofNat ops).counter)]) := by
  have h := stored_iff (exec_inv key ofNat ops) i
  refine ⟨rfl, ?_, ?_⟩
  · rw [h]
    cases e : (exec key ofNat ops).hashLookup.get? (key i) <;> cases ih <;> simp [setItemList, e]
  · intro hne
    simp only [setItemList] at hne ⊢
    split
    · rfl
    · next e => exact absurd (if_neg e) hne

/-- **C268 fails** for `set_item`, after everything that can be done with a bucket: if one list is used for two items, then the second one takes the number of the first, which is then
no longer in the bucket. With lists of their own, both are there. -/
theorem C268_list_violated (key : I → K) (ofNat : Nat → H) (hn : ∀ a b, ofNat a = ofNat b → a = b) (ops : List (Op H I)) (i j : I) (hij : key i ≠ key j) :
    let s := exec key ofNat ops
    ¬ Stored key s i → ¬ Stored key s j → (∀ x, getItem s (ofNat s.counter) ≠ .ok x ∧ getItem s (ofNat (s.counter + 1)) ≠ .ok x) →
    ∃ s1 l, setItemList key ofNat s [] i = (.ok s1, l) ∧ getItem s1 (ofNat s.counter) = .ok i ∧
      (∃ s2, (setItemList key ofNat s1 l j).1 = .ok s2 ∧ getItem s2 (ofNat s.counter) = .ok j ∧ ¬ Stored key s2 i) ∧
      (∃ s2, (setItemList key ofNat s1 [] j).1 = .ok s2 ∧ getItem s2 (ofNat s.counter) = .ok i ∧ getItem s2 (ofNat (s.counter + 1)) = .ok j) := by
  intro s hi hj hfree
  have inv : Inv key s := exec_inv key ofNat ops
  generalize s = s at *
  have c0 : s.items.get? (ofNat s.counter) = none := by
    cases e : s.items.get? (ofNat s.counter) with
    | none => rfl
    | some x => exact absurd (get_ok.2 e) (hfree x).1
  have c1 : s.items.get? (ofNat (s.counter + 1)) = none := by
    cases e : s.items.get? (ofNat (s.counter + 1)) with
    | none => rfl
    | some x => exact absurd (get_ok.2 e) (hfree x).2
  obtain ⟨i1, i2⟩ := not_stored inv hi
  obtain ⟨j1, j2⟩ := not_stored inv hj
  have hne : ofNat (s.counter + 1) ≠ ofNat s.counter := fun e => by have := hn _ _ e; omega
  have hne' : ofNat s.counter ≠ ofNat (s.counter + 1) := fun e => hne e.symm
  have hij' : j ≠ i := fun e => hij (by rw [e])
  have hji : key j ≠ key i := fun e => hij e.symm
  refine ⟨_, [some (ofNat s.counter)], by simp only [setItemList, first inv hi c0, i1]; rfl, ?_, ?_, ?_⟩
  · rw [get_ok]; simp [Dict.get?_set]
  · have e : ∃ s2, (setItemList key ofNat ⟨s.refCount.set (key i) 1, s.hashLookup.set (key i) i, s.handles.set (key i) [ofNat s.counter], s.items.set (ofNat s.counter) i,
        s.counter + 1⟩ [some (ofNat s.counter)] j).1 = .ok s2 ∧ getItem s2 (ofNat s.counter) = .ok j ∧ s2.handles.get? (key i) = none ∧ s2.items.get? (ofNat s.counter) = some j ∧
        ∀ h x, s2.items.get? h = some x → x = j ∨ s.items.get? h = some x := by
      have w1 : (s.handles.set (key i) ([] : List H)).WF := Dict.WF_set _ _ _ inv.wfH
      have w2 : ((s.handles.set (key i) [ofNat s.counter]).set (key i) ([] : List H)).WF := Dict.WF_set _ _ _ (Dict.WF_set _ _ _ inv.wfH)
      have w3 : (s.items.set (ofNat s.counter) i).WF := Dict.WF_set _ _ _ inv.wfI
      simp only [setItemList, setItem, Dict.get?_set, hji, if_false, j1, Option.isNone_none, Bool.and_self, if_true, List.cons_append, List.nil_append, setHandles, setHandle, hij',
        List.mem_singleton, List.erase_cons_head, removeItem, List.foldl_nil, hne, c1, Dict.get?_del _ _ _ w2, j2, List.cons_ne_nil]
      refine ⟨_, rfl, ?_, ?_, ?_, ?_⟩
      · rw [get_ok]; simp [Dict.get?_set, hne']
      · simp [Dict.get?_set, Dict.get?_del _ _ _ w2, hij]
      · simp [Dict.get?_set, hne']
      · intro h x
        simp only [Dict.get?_set]
        split
        · simp; intro e; exact Or.inl e.symm
        · split
          · simp; intro e; exact Or.inl e.symm
          · exact Or.inr
    obtain ⟨s2, e1, e2, e3, e4, e5⟩ := e
    refine ⟨s2, e1, e2, ?_⟩
    rintro ⟨h, x, hx, hk⟩
    rcases e5 h x (get_ok.1 hx) with rfl | h5
    · exact hji hk
    · exact hi ⟨h, x, get_ok.2 h5, hk⟩
  · refine ⟨⟨(s.refCount.set (key i) 1).set (key j) 1, (s.hashLookup.set (key i) i).set (key j) j, (s.handles.set (key i) [ofNat s.counter]).set (key j) [ofNat (s.counter + 1)],
        (s.items.set (ofNat s.counter) i).set (ofNat (s.counter + 1)) j, s.counter + 2⟩, ?_, ?_, ?_⟩
    · simp [setItemList, setItem, Dict.get?_set, hji, j1, setHandles, setHandle, hne, c1, j2]
    · rw [get_ok]; simp [Dict.get?_set, hne']
    · rw [get_ok]; simp [Dict.get?_set]

/-- A case: a bucket with an item 7 under the name 100 -/
example : let s : State Nat Nat Nat := exec id id [.set [some 100] 7 true false]
    ¬ Stored id s 8 ∧ ¬ Stored id s 9 ∧ (∀ x, getItem s (id s.counter) ≠ .ok x ∧ getItem s (id (s.counter + 1)) ≠ .ok x) ∧ getItem s 100 = .ok 7 := by
  have inv := exec_inv (H := Nat) (id : Nat → Nat) (id : Nat → Nat) [.set [some 100] 7 true false]
  refine ⟨?_, ?_, fun x => ⟨(fun e => by have := get_ok.1 e; revert this; simp [exec, step, run, setItem, setHandles, setHandle, Bucket.init, Dict.get?, Dict.set]), (fun e => by
    have := get_ok.1 e; revert this; simp [exec, step, run, setItem, setHandles, setHandle, Bucket.init, Dict.get?, Dict.set])⟩, by rfl⟩
  · rw [stored_iff inv]; decide
  · rw [stored_iff inv]; decide

end Viscid.Props
