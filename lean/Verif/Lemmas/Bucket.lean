import Verif.Model.Bucket
import Verif.Lemmas.Dict
/-! Invariant of the bucket and its preservation by every operation. -/
namespace Viscid.Bucket
open Viscid
set_option linter.unusedSectionVars false
variable {H I K : Type} [DecidableEq H] [DecidableEq I] [DecidableEq K]

/-- Loop invariant of `set_item`; `added` are the handles already pointed at `item` in `_items`
but not yet listed in `_handles`.  `added = []` is the invariant between calls. -/
structure LInv (key : I → K) (item : I) (added : List H) (s : State H I K) : Prop where
  wfR : s.refCount.WF
  wfL : s.hashLookup.WF
  wfH : s.handles.WF
  wfI : s.items.WF
  items_handles : ∀ h i, s.items.get? h = some i →
    (h ∈ added ∧ i = item) ∨ ∃ hs, s.handles.get? (key i) = some hs ∧ h ∈ hs
  handles_items : ∀ k hs, s.handles.get? k = some hs → hs ≠ [] ∧ hs.Nodup ∧
    ∀ h ∈ hs, h ∉ added ∧ ∃ i, s.items.get? h = some i ∧ key i = k
  added_nodup : added.Nodup
  added_items : ∀ h ∈ added, s.items.get? h = some item
  lookup : ∀ k, (s.hashLookup.get? k).isSome = (s.handles.get? k).isSome
  refs : ∀ k, (s.refCount.get? k).isSome = (s.handles.get? k).isSome
  lookup_key : ∀ k i, s.hashLookup.get? k = some i → key i = k

/-- Invariant between calls. -/
structure Inv (key : I → K) (s : State H I K) : Prop where
  wfR : s.refCount.WF
  wfL : s.hashLookup.WF
  wfH : s.handles.WF
  wfI : s.items.WF
  items_handles : ∀ h i, s.items.get? h = some i →
    ∃ hs, s.handles.get? (key i) = some hs ∧ h ∈ hs
  handles_items : ∀ k hs, s.handles.get? k = some hs → hs ≠ [] ∧ hs.Nodup ∧
    ∀ h ∈ hs, ∃ i, s.items.get? h = some i ∧ key i = k
  lookup : ∀ k, (s.hashLookup.get? k).isSome = (s.handles.get? k).isSome
  refs : ∀ k, (s.refCount.get? k).isSome = (s.handles.get? k).isSome
  lookup_key : ∀ k i, s.hashLookup.get? k = some i → key i = k

theorem Inv.toLInv {key : I → K} {s : State H I K} (h : Inv key s) (item : I) :
    LInv key item [] s where
  wfR := h.wfR
  wfL := h.wfL
  wfH := h.wfH
  wfI := h.wfI
  items_handles := fun a i ha => Or.inr (h.items_handles a i ha)
  handles_items := fun k hs hk => by
    obtain ⟨h1, h2, h3⟩ := h.handles_items k hs hk
    exact ⟨h1, h2, fun a ha => ⟨by simp, h3 a ha⟩⟩
  added_nodup := List.nodup_nil
  added_items := by simp
  lookup := h.lookup
  refs := h.refs
  lookup_key := h.lookup_key

theorem LInv.toInv {key : I → K} {s : State H I K} {item : I} (h : LInv key item [] s) :
    Inv key s where
  wfR := h.wfR
  wfL := h.wfL
  wfH := h.wfH
  wfI := h.wfI
  items_handles := fun a i ha => by
    rcases h.items_handles a i ha with ⟨h1, _⟩ | h1
    · simp at h1
    · exact h1
  handles_items := fun k hs hk => by
    obtain ⟨h1, h2, h3⟩ := h.handles_items k hs hk
    exact ⟨h1, h2, fun a ha => (h3 a ha).2⟩
  lookup := h.lookup
  refs := h.refs
  lookup_key := h.lookup_key

theorem init_inv (key : I → K) : Inv key (init : State H I K) where
  wfR := Dict.WF_nil
  wfL := Dict.WF_nil
  wfH := Dict.WF_nil
  wfI := Dict.WF_nil
  items_handles := by simp [init]
  handles_items := by simp [init]
  lookup := by simp [init]
  refs := by simp [init]
  lookup_key := by simp [init]

omit [DecidableEq I] [DecidableEq K] in
theorem foldl_del_WF {V : Type} (hs : List H) (d : Dict H V) (h : d.WF) :
    (hs.foldl (fun d h => d.del h) d).WF := by
  induction hs generalizing d with
  | nil => exact h
  | cons a hs ih => exact ih _ (Dict.WF_del _ _ h)

omit [DecidableEq I] [DecidableEq K] in
theorem foldl_del_get {V : Type} (hs : List H) (d : Dict H V) (h : d.WF) (a : H) :
    (hs.foldl (fun d h => d.del h) d).get? a = if a ∈ hs then none else d.get? a := by
  induction hs generalizing d with
  | nil => simp
  | cons b hs ih =>
    rw [List.foldl_cons, ih _ (Dict.WF_del _ _ h), Dict.get?_del _ _ _ h]
    by_cases h1 : a = b
    · subst h1; simp
    · simp [h1]

/-- The bucket has an item of this key. -/
def Live (key : I → K) (s : State H I K) (k : K) : Prop :=
  ∃ h i, s.items.get? h = some i ∧ key i = k

theorem Inv.live_iff {key : I → K} {s : State H I K} (h : Inv key s) (k : K) :
    Live key s k ↔ (s.handles.get? k).isSome := by
  constructor
  · rintro ⟨a, i, h1, rfl⟩
    obtain ⟨hs, h2, _⟩ := h.items_handles a i h1
    simp [h2]
  · intro h1
    obtain ⟨hs, h2⟩ := Option.isSome_iff_exists.mp h1
    obtain ⟨h3, _, h4⟩ := h.handles_items k hs h2
    obtain ⟨a, ha⟩ := List.exists_mem_of_ne_nil hs h3
    obtain ⟨i, h5, h6⟩ := h4 a ha
    exact ⟨a, i, h5, h6⟩

/-- Effect of `_remove_item` on a consistent state. -/
theorem removeItem_ok {key : I → K} {s : State H I K} (hinv : Inv key s) (item : I)
    (hl : Live key s (key item)) :
    ∃ s', removeItem key s item = .ok s' ∧ Inv key s' ∧ s'.counter = s.counter ∧
      (∀ h, s'.items.get? h = match s.items.get? h with
        | none => none
        | some i => if key i = key item then none else some i) ∧
      (∀ k, s'.refCount.get? k = if k = key item then none else s.refCount.get? k) := by
  obtain ⟨hs, hhs⟩ := Option.isSome_iff_exists.mp ((hinv.live_iff _).mp hl)
  have hget : ∀ h, (hs.foldl (fun d h => d.del h) s.items).get? h = match s.items.get? h with
        | none => none
        | some i => if key i = key item then none else some i := by
    intro h
    rw [foldl_del_get _ _ hinv.wfI]
    obtain ⟨_, _, h3⟩ := hinv.handles_items _ _ hhs
    by_cases hm : h ∈ hs
    · obtain ⟨i, h4, h5⟩ := h3 h hm
      simp [hm, h4, h5]
    · rw [if_neg hm]
      cases h4 : s.items.get? h with
      | none => rfl
      | some i =>
        have : key i ≠ key item := by
          intro e
          obtain ⟨hs', h5, h6⟩ := hinv.items_handles h i h4
          rw [e, hhs] at h5
          cases h5; exact hm h6
        simp [this]
  refine ⟨{ s with
      items := hs.foldl (fun d h => d.del h) s.items
      hashLookup := s.hashLookup.del (key item)
      handles := s.handles.del (key item)
      refCount := s.refCount.del (key item) }, by simp only [removeItem, hhs], ?_, rfl, hget, ?_⟩
  · constructor
    · exact Dict.WF_del _ _ hinv.wfR
    · exact Dict.WF_del _ _ hinv.wfL
    · exact Dict.WF_del _ _ hinv.wfH
    · exact foldl_del_WF _ _ hinv.wfI
    · intro h i hi
      dsimp only at hi ⊢
      rw [hget] at hi
      cases h4 : s.items.get? h with
      | none => simp [h4] at hi
      | some j =>
        simp only [h4] at hi
        by_cases hk : key j = key item
        · simp [hk] at hi
        · simp only [hk, if_false, Option.some.injEq] at hi
          subst hi
          rw [Dict.get?_del _ _ _ hinv.wfH, if_neg hk]
          exact hinv.items_handles h j h4
    · intro k hs' hk
      dsimp only at hk ⊢
      rw [Dict.get?_del _ _ _ hinv.wfH] at hk
      by_cases hkk : k = key item
      · simp [hkk] at hk
      · rw [if_neg hkk] at hk
        obtain ⟨h1, h2, h3⟩ := hinv.handles_items k hs' hk
        refine ⟨h1, h2, fun a ha => ?_⟩
        obtain ⟨i, h4, h5⟩ := h3 a ha
        refine ⟨i, ?_, h5⟩
        rw [hget, h4]
        have : key i ≠ key item := by rw [h5]; exact hkk
        simp [this]
    · intro k
      dsimp only
      rw [Dict.get?_del _ _ _ hinv.wfH, Dict.get?_del _ _ _ hinv.wfL]
      by_cases hkk : k = key item
      · simp [hkk]
      · rw [if_neg hkk, if_neg hkk]; exact hinv.lookup k
    · intro k
      dsimp only
      rw [Dict.get?_del _ _ _ hinv.wfH, Dict.get?_del _ _ _ hinv.wfR]
      by_cases hkk : k = key item
      · simp [hkk]
      · rw [if_neg hkk, if_neg hkk]; exact hinv.refs k
    · intro k i hi
      dsimp only at hi
      rw [Dict.get?_del _ _ _ hinv.wfL] at hi
      by_cases hkk : k = key item
      · simp [hkk] at hi
      · rw [if_neg hkk] at hi; exact hinv.lookup_key k i hi
  · intro k
    exact Dict.get?_del _ _ _ hinv.wfR

theorem removeItem_missing {key : I → K} {s : State H I K} (hinv : Inv key s) (item : I)
    (hl : ¬ Live key s (key item)) : removeItem key s item = .error .keyError := by
  have h0 : ¬ (s.handles.get? (key item)).isSome := fun h => hl ((hinv.live_iff _).mpr h)
  have : s.handles.get? (key item) = none := by simpa using h0
  simp only [removeItem, this]

/-- One handle of `set_item`. -/
theorem setHandle_ok {key : I → K} {s : State H I K} {item : I} {added : List H}
    (hinv : LInv key item added s) (h : Option H) :
    ∃ s' added', setHandle key item (s, added) h = .ok (s', added') ∧
      LInv key item added' s' ∧ s'.counter = s.counter ∧
      (∀ a, s'.items.get? a = if h = some a then some item else s.items.get? a) ∧
      (∀ k, (s.handles.get? k).isSome = false → (s'.handles.get? k).isSome = false) ∧
      (∀ k, (s'.handles.get? k).isSome → s'.refCount.get? k = s.refCount.get? k) ∧
      (∀ k hs, s'.handles.get? k = some hs → ∀ a, h = some a → a ∈ hs → s.items.get? a = some item) ∧
      (added' = [] → s' = s) := by
  cases h with
  | none =>
    exact ⟨s, added, rfl, hinv, rfl, by simp, by simp, by simp, by simp, fun _ => rfl⟩
  | some h =>
    cases hg : s.items.get? h with
    | none =>
      refine ⟨{ s with items := s.items.set h item }, added ++ [h], by simp only [setHandle, hg],
        ?_, rfl, ?_, by simp, by simp, ?_, by simp⟩
      · constructor
        · exact hinv.wfR
        · exact hinv.wfL
        · exact hinv.wfH
        · exact Dict.WF_set _ _ _ hinv.wfI
        · intro a i ha
          dsimp only at ha ⊢
          rw [Dict.get?_set] at ha
          by_cases e : a = h
          · subst e; simp at ha; left; simp [ha]
          · rw [if_neg e] at ha
            rcases hinv.items_handles a i ha with h1 | h1
            · left; simp [h1.1, h1.2]
            · right; exact h1
        · intro k hs hk
          dsimp only at hk ⊢
          obtain ⟨h1, h2, h3⟩ := hinv.handles_items k hs hk
          refine ⟨h1, h2, fun a ha => ?_⟩
          obtain ⟨h4, i, h5, h6⟩ := h3 a ha
          have hne : a ≠ h := by rintro rfl; rw [hg] at h5; cases h5
          refine ⟨by simp [h4, hne], i, ?_, h6⟩
          rw [Dict.get?_set, if_neg hne]; exact h5
        · rw [List.nodup_append]
          refine ⟨hinv.added_nodup, by simp, ?_⟩
          intro a ha b hb
          simp at hb; subst hb
          rintro rfl
          have := hinv.added_items a ha
          rw [hg] at this; cases this
        · intro a ha
          dsimp only
          rw [Dict.get?_set]
          by_cases e : a = h
          · simp [e]
          · rw [if_neg e]
            have : a ∈ added := by simpa [e] using ha
            exact hinv.added_items a this
        · exact hinv.lookup
        · exact hinv.refs
        · exact hinv.lookup_key
      · intro a
        dsimp only
        rw [Dict.get?_set]
        by_cases e : a = h
        · simp [e]
        · have e' : ¬ h = a := fun x => e x.symm
          simp [e, e']
      · intro k hs hk a ha hm
        cases ha
        obtain ⟨i, h1, _⟩ := ((hinv.handles_items k hs hk).2.2 h hm).2
        rw [hg] at h1; cases h1
    | some old =>
      by_cases hio : item = old
      · subst hio
        refine ⟨s, added, by simp only [setHandle, hg, if_true], hinv, rfl, ?_, by simp, by simp,
          ?_, by simp⟩
        · intro a
          by_cases e : h = a
          · subst e; simp [hg]
          · simp [e]
        · intro k hs _ a ha _; cases ha; exact hg
      · -- hijack
        have hna : h ∉ added := by
          intro hm
          have := hinv.added_items h hm
          rw [hg] at this; cases this; exact hio rfl
        obtain ⟨hs, hhs, hmem⟩ : ∃ hs, s.handles.get? (key old) = some hs ∧ h ∈ hs := by
          rcases hinv.items_handles h old hg with ⟨h1, _⟩ | h1
          · exact absurd h1 hna
          · exact h1
        obtain ⟨hne, hnd, hall⟩ := hinv.handles_items _ _ hhs
        have hner : h ∉ hs.erase h := fun hm => by
          rw [hnd.mem_erase_iff] at hm; exact hm.1 rfl
        by_cases hemp : hs.erase h = []
        · -- old item loses its last handle and is removed
          refine ⟨{ s with
              refCount := s.refCount.del (key old)
              hashLookup := s.hashLookup.del (key old)
              handles := (s.handles.set (key old) []).del (key old)
              items := s.items.set h item }, added ++ [h], by
            simp only [setHandle, hg, hio, if_false, hhs, hmem, if_true, hemp, removeItem,
              Dict.get?_set, List.foldl_nil], ?_, rfl, ?_, ?_, ?_, ?_, by simp⟩
          · have hgd : ∀ k, (((s.handles.set (key old) []).del (key old)).get? k) =
                if k = key old then none else s.handles.get? k := by
              intro k
              rw [Dict.get?_del _ _ _ (Dict.WF_set _ _ _ hinv.wfH), Dict.get?_set]
              split <;> rfl
            constructor
            · exact Dict.WF_del _ _ hinv.wfR
            · exact Dict.WF_del _ _ hinv.wfL
            · exact Dict.WF_del _ _ (Dict.WF_set _ _ _ hinv.wfH)
            · exact Dict.WF_set _ _ _ hinv.wfI
            · intro a i ha
              dsimp only at ha ⊢
              rw [Dict.get?_set] at ha
              by_cases e : a = h
              · subst e; simp at ha; left; simp [ha]
              · rw [if_neg e] at ha
                rcases hinv.items_handles a i ha with h1 | ⟨hs', h1, h2⟩
                · left; simp [h1.1, h1.2]
                · right
                  refine ⟨hs', ?_, h2⟩
                  rw [hgd]
                  have : key i ≠ key old := by
                    intro ek
                    rw [ek, hhs] at h1
                    cases h1
                    have : a ∈ hs.erase h := by
                      rw [hnd.mem_erase_iff]; exact ⟨e, h2⟩
                    rw [hemp] at this; simp at this
                  rw [if_neg this]; exact h1
            · intro k hs' hk
              dsimp only at hk ⊢
              rw [hgd] at hk
              by_cases hkk : k = key old
              · simp [hkk] at hk
              · rw [if_neg hkk] at hk
                obtain ⟨h1, h2, h3⟩ := hinv.handles_items k hs' hk
                refine ⟨h1, h2, fun a ha => ?_⟩
                obtain ⟨h4, i, h5, h6⟩ := h3 a ha
                have hne : a ≠ h := by
                  rintro rfl
                  rw [hg] at h5; cases h5; exact hkk h6.symm
                refine ⟨by simp [h4, hne], i, ?_, h6⟩
                rw [Dict.get?_set, if_neg hne]; exact h5
            · rw [List.nodup_append]
              refine ⟨hinv.added_nodup, by simp, ?_⟩
              intro a ha b hb
              simp at hb; subst hb
              rintro rfl; exact hna ha
            · intro a ha
              dsimp only
              rw [Dict.get?_set]
              by_cases e : a = h
              · simp [e]
              · rw [if_neg e]
                have : a ∈ added := by simpa [e] using ha
                exact hinv.added_items a this
            · intro k
              dsimp only
              rw [hgd, Dict.get?_del _ _ _ hinv.wfL]
              split
              · rfl
              · exact hinv.lookup k
            · intro k
              dsimp only
              rw [hgd, Dict.get?_del _ _ _ hinv.wfR]
              split
              · rfl
              · exact hinv.refs k
            · intro k i hi
              dsimp only at hi
              rw [Dict.get?_del _ _ _ hinv.wfL] at hi
              by_cases hkk : k = key old
              · simp [hkk] at hi
              · rw [if_neg hkk] at hi; exact hinv.lookup_key k i hi
          · intro a
            dsimp only
            rw [Dict.get?_set]
            by_cases e : a = h
            · simp [e]
            · have e' : ¬ h = a := fun x => e x.symm
              simp [e, e']
          · intro k hk
            dsimp only
            rw [Dict.get?_del _ _ _ (Dict.WF_set _ _ _ hinv.wfH), Dict.get?_set]
            by_cases hkk : k = key old
            · simp [hkk]
            · simp only [hkk, if_false]; exact hk
          · intro k hk
            dsimp only at hk ⊢
            rw [Dict.get?_del _ _ _ (Dict.WF_set _ _ _ hinv.wfH)] at hk
            rw [Dict.get?_del _ _ _ hinv.wfR]
            by_cases hkk : k = key old
            · simp [hkk] at hk
            · rw [if_neg hkk]
          · intro k hs' hk a ha hm
            cases ha
            dsimp only at hk
            rw [Dict.get?_del _ _ _ (Dict.WF_set _ _ _ hinv.wfH), Dict.get?_set] at hk
            by_cases hkk : k = key old
            · simp [hkk] at hk
            · simp only [hkk, if_false] at hk
              obtain ⟨i, h5, h6⟩ := ((hinv.handles_items k hs' hk).2.2 h hm).2
              rw [hg] at h5; cases h5; exact absurd h6.symm hkk
        · -- old item keeps other handles
          refine ⟨{ s with
              handles := s.handles.set (key old) (hs.erase h)
              items := s.items.set h item }, added ++ [h], by
            simp only [setHandle, hg, hio, if_false, hhs, hmem, if_true, hemp],
            ?_, rfl, ?_, ?_, ?_, ?_, by simp⟩
          · constructor
            · exact hinv.wfR
            · exact hinv.wfL
            · exact Dict.WF_set _ _ _ hinv.wfH
            · exact Dict.WF_set _ _ _ hinv.wfI
            · intro a i ha
              dsimp only at ha ⊢
              rw [Dict.get?_set] at ha
              by_cases e : a = h
              · subst e; simp at ha; left; simp [ha]
              · rw [if_neg e] at ha
                rcases hinv.items_handles a i ha with h1 | ⟨hs', h1, h2⟩
                · left; simp [h1.1, h1.2]
                · right
                  rw [Dict.get?_set]
                  by_cases ek : key i = key old
                  · rw [if_pos ek]
                    rw [ek, hhs] at h1
                    cases h1
                    exact ⟨_, rfl, by rw [hnd.mem_erase_iff]; exact ⟨e, h2⟩⟩
                  · rw [if_neg ek]; exact ⟨hs', h1, h2⟩
            · intro k hs' hk
              dsimp only at hk ⊢
              rw [Dict.get?_set] at hk
              by_cases hkk : k = key old
              · rw [if_pos hkk] at hk
                cases hk
                refine ⟨hemp, hnd.erase _, fun a ha => ?_⟩
                rw [hnd.mem_erase_iff] at ha
                obtain ⟨h4, i, h5, h6⟩ := hall a ha.2
                refine ⟨by simp [h4, ha.1], i, ?_, by rw [h6, hkk]⟩
                rw [Dict.get?_set, if_neg ha.1]; exact h5
              · rw [if_neg hkk] at hk
                obtain ⟨h1, h2, h3⟩ := hinv.handles_items k hs' hk
                refine ⟨h1, h2, fun a ha => ?_⟩
                obtain ⟨h4, i, h5, h6⟩ := h3 a ha
                have hne : a ≠ h := by
                  rintro rfl
                  rw [hg] at h5; cases h5; exact hkk h6.symm
                refine ⟨by simp [h4, hne], i, ?_, h6⟩
                rw [Dict.get?_set, if_neg hne]; exact h5
            · rw [List.nodup_append]
              refine ⟨hinv.added_nodup, by simp, ?_⟩
              intro a ha b hb
              simp at hb; subst hb
              rintro rfl; exact hna ha
            · intro a ha
              dsimp only
              rw [Dict.get?_set]
              by_cases e : a = h
              · simp [e]
              · rw [if_neg e]
                have : a ∈ added := by simpa [e] using ha
                exact hinv.added_items a this
            · intro k
              dsimp only
              rw [Dict.get?_set]
              split
              · next e => rw [hinv.lookup, e, hhs]; rfl
              · exact hinv.lookup k
            · intro k
              dsimp only
              rw [Dict.get?_set]
              split
              · next e => rw [hinv.refs, e, hhs]; rfl
              · exact hinv.refs k
            · exact hinv.lookup_key
          · intro a
            dsimp only
            rw [Dict.get?_set]
            by_cases e : a = h
            · simp [e]
            · have e' : ¬ h = a := fun x => e x.symm
              simp [e, e']
          · intro k hk
            dsimp only
            rw [Dict.get?_set]
            by_cases hkk : k = key old
            · rw [hkk, hhs] at hk; cases hk
            · rw [if_neg hkk]; exact hk
          · intro k _; rfl
          · intro k hs' hk a ha hm
            cases ha
            dsimp only at hk
            rw [Dict.get?_set] at hk
            by_cases hkk : k = key old
            · rw [if_pos hkk] at hk; cases hk; exact absurd hm hner
            · rw [if_neg hkk] at hk
              obtain ⟨i, h5, h6⟩ := ((hinv.handles_items k hs' hk).2.2 h hm).2
              rw [hg] at h5; cases h5; exact absurd h6.symm hkk


/-- The whole handle loop. -/
theorem setHandles_ok {key : I → K} {item : I} (hs : List (Option H)) {s : State H I K}
    {added : List H} (hinv : LInv key item added s) :
    ∃ s' added', setHandles key item hs (s, added) = .ok (s', added') ∧
      LInv key item added' s' ∧ s'.counter = s.counter ∧
      (∀ a, s'.items.get? a = if some a ∈ hs then some item else s.items.get? a) ∧
      (∀ k, (s.handles.get? k).isSome = false → (s'.handles.get? k).isSome = false) ∧
      (∀ k, (s'.handles.get? k).isSome → s'.refCount.get? k = s.refCount.get? k) := by
  induction hs generalizing s added with
  | nil => exact ⟨s, added, rfl, hinv, rfl, by simp, by simp, by simp⟩
  | cons h hs ih =>
    obtain ⟨s1, a1, e1, i1, c1, g1, n1, r1, _, _⟩ := setHandle_ok hinv h
    obtain ⟨s2, a2, e2, i2, c2, g2, n2, r2⟩ := ih i1
    refine ⟨s2, a2, by simp only [setHandles, e1, e2], i2, by omega, ?_, fun k hk => n2 k (n1 k hk), ?_⟩
    · intro a
      rw [g2, g1]
      by_cases h1 : some a ∈ hs
      · simp [h1]
      · by_cases h2 : h = some a
        · simp [h2]
        · have h3 : ¬ some a = h := fun e => h2 e.symm
          simp [h1, h2, h3]
    · intro k hk
      rw [r2 k hk]
      apply r1
      cases hb : (s1.handles.get? k).isSome
      · rw [n2 k hb] at hk; cases hk
      · rfl

/-- If no other object equals `item`, the loop does not touch the item's own records. -/
theorem setHandle_own {key : I → K} {item : I} (hinj : ∀ j, key j = key item → j = item)
    {s s' : State H I K} {added added' : List H} {h : Option H}
    (hwfH : s.handles.WF) (hwfR : s.refCount.WF)
    (he : setHandle key item (s, added) h = .ok (s', added')) :
    s'.handles.get? (key item) = s.handles.get? (key item) ∧
    s'.refCount.get? (key item) = s.refCount.get? (key item) := by
  cases h with
  | none => simp only [setHandle, Except.ok.injEq, Prod.mk.injEq] at he; rw [he.1]; simp
  | some h =>
    simp only [setHandle] at he
    cases hg : s.items.get? h with
    | none =>
      simp only [hg, Except.ok.injEq, Prod.mk.injEq] at he
      rw [← he.1]; simp
    | some old =>
      simp only [hg] at he
      by_cases hio : item = old
      · simp only [hio, if_true, Except.ok.injEq, Prod.mk.injEq] at he; rw [he.1]; simp
      · simp only [hio, if_false] at he
        have hk : key item ≠ key old := fun e => hio (hinj old e.symm).symm
        cases hhs : s.handles.get? (key old) with
        | none => simp [hhs] at he
        | some hs =>
          simp only [hhs] at he
          by_cases hm : h ∈ hs
          · simp only [hm, if_true] at he
            by_cases hemp : hs.erase h = []
            · simp only [hemp, if_true, removeItem, Dict.get?_set, List.foldl_nil,
                Except.ok.injEq, Prod.mk.injEq] at he
              rw [← he.1]
              dsimp only
              rw [Dict.get?_del _ _ _ (Dict.WF_set _ _ _ hwfH), Dict.get?_set,
                Dict.get?_del _ _ _ hwfR]
              simp [hk]
            · simp only [hemp, if_false, Except.ok.injEq, Prod.mk.injEq] at he
              rw [← he.1]
              dsimp only
              rw [Dict.get?_set]
              simp [hk]
          · simp [hm] at he

theorem setHandles_own {key : I → K} {item : I} (hinj : ∀ j, key j = key item → j = item)
    (hs : List (Option H)) {s s' : State H I K} {added added' : List H}
    (hinv : LInv key item added s)
    (he : setHandles key item hs (s, added) = .ok (s', added')) :
    s'.handles.get? (key item) = s.handles.get? (key item) ∧
    s'.refCount.get? (key item) = s.refCount.get? (key item) := by
  induction hs generalizing s added with
  | nil => simp only [setHandles, Except.ok.injEq, Prod.mk.injEq] at he; rw [he.1]; simp
  | cons h hs ih =>
    obtain ⟨s1, a1, e1, i1, _⟩ := setHandle_ok hinv h
    simp only [setHandles, e1] at he
    have h1 := setHandle_own hinj hinv.wfH hinv.wfR e1
    have h2 := ih i1 he
    exact ⟨h2.1.trans h1.1, h2.2.trans h1.2⟩

/-- The handles `set_item` really processes: the given ones, plus the counter if the item is new. -/
def effHandles (key : I → K) (ofNat : Nat → H) (s : State H I K) (hs : List (Option H)) (item : I)
    (indexHandle : Bool) : List (Option H) :=
  if (s.hashLookup.get? (key item)).isNone && indexHandle then hs ++ [some (ofNat s.counter)] else hs

theorem finish_existing {key : I → K} {item : I} {s : State H I K} {added hs : List H}
    (h : LInv key item added s) (hg : s.handles.get? (key item) = some hs) :
    Inv key { s with handles := s.handles.set (key item) (hs ++ added) } := by
  obtain ⟨g1, g2, g3⟩ := h.handles_items _ _ hg
  constructor
  · exact h.wfR
  · exact h.wfL
  · exact Dict.WF_set _ _ _ h.wfH
  · exact h.wfI
  · intro a i ha
    dsimp only at ha ⊢
    rw [Dict.get?_set]
    rcases h.items_handles a i ha with ⟨h1, rfl⟩ | ⟨hs', h1, h2⟩
    · exact ⟨_, by rw [if_pos rfl], by simp [h1]⟩
    · by_cases e : key i = key item
      · rw [if_pos e]
        rw [e, hg] at h1; cases h1
        exact ⟨_, rfl, by simp [h2]⟩
      · rw [if_neg e]; exact ⟨hs', h1, h2⟩
  · intro k hs' hk
    dsimp only at hk ⊢
    rw [Dict.get?_set] at hk
    by_cases e : k = key item
    · rw [if_pos e] at hk
      cases hk
      refine ⟨by simp [g1], ?_, ?_⟩
      · rw [List.nodup_append]
        refine ⟨g2, h.added_nodup, ?_⟩
        rintro a ha b hb rfl
        exact (g3 a ha).1 hb
      · intro a ha
        rcases List.mem_append.mp ha with ha | ha
        · rw [e]; exact (g3 a ha).2
        · exact ⟨item, h.added_items a ha, e.symm⟩
    · rw [if_neg e] at hk
      obtain ⟨h1, h2, h3⟩ := h.handles_items k hs' hk
      exact ⟨h1, h2, fun a ha => (h3 a ha).2⟩
  · intro k
    dsimp only
    rw [Dict.get?_set]
    by_cases e : k = key item
    · rw [if_pos e, h.lookup, e, hg]; rfl
    · rw [if_neg e]; exact h.lookup k
  · intro k
    dsimp only
    rw [Dict.get?_set]
    by_cases e : k = key item
    · rw [if_pos e, h.refs, e, hg]; rfl
    · rw [if_neg e]; exact h.refs k
  · exact h.lookup_key

theorem finish_new {key : I → K} {item : I} {s : State H I K} {added : List H}
    (h : LInv key item added s) (hg : s.handles.get? (key item) = none) (hne : added ≠ []) :
    Inv key { s with handles := s.handles.set (key item) added,
                     hashLookup := s.hashLookup.set (key item) item,
                     refCount := s.refCount.set (key item) 1 } := by
  constructor
  · exact Dict.WF_set _ _ _ h.wfR
  · exact Dict.WF_set _ _ _ h.wfL
  · exact Dict.WF_set _ _ _ h.wfH
  · exact h.wfI
  · intro a i ha
    dsimp only at ha ⊢
    rw [Dict.get?_set]
    rcases h.items_handles a i ha with ⟨h1, rfl⟩ | ⟨hs', h1, h2⟩
    · exact ⟨_, by rw [if_pos rfl], h1⟩
    · have e : key i ≠ key item := by intro e; rw [e, hg] at h1; cases h1
      rw [if_neg e]; exact ⟨hs', h1, h2⟩
  · intro k hs' hk
    dsimp only at hk ⊢
    rw [Dict.get?_set] at hk
    by_cases e : k = key item
    · rw [if_pos e] at hk
      cases hk
      exact ⟨hne, h.added_nodup, fun a ha => ⟨item, h.added_items a ha, e.symm⟩⟩
    · rw [if_neg e] at hk
      obtain ⟨h1, h2, h3⟩ := h.handles_items k hs' hk
      exact ⟨h1, h2, fun a ha => (h3 a ha).2⟩
  · intro k
    dsimp only
    rw [Dict.get?_set, Dict.get?_set]
    by_cases e : k = key item
    · rw [if_pos e, if_pos e]; rfl
    · rw [if_neg e, if_neg e]; exact h.lookup k
  · intro k
    dsimp only
    rw [Dict.get?_set, Dict.get?_set]
    by_cases e : k = key item
    · rw [if_pos e, if_pos e]; rfl
    · rw [if_neg e, if_neg e]; exact h.refs k
  · intro k i hi
    dsimp only at hi
    rw [Dict.get?_set] at hi
    by_cases e : k = key item
    · rw [if_pos e] at hi; cases hi; exact e.symm
    · rw [if_neg e] at hi; exact h.lookup_key k i hi

theorem Inv.set_refCount {key : I → K} {s : State H I K} (h : Inv key s) (k : K) (c : Int)
    (hk : (s.handles.get? k).isSome) : Inv key { s with refCount := s.refCount.set k c } where
  wfR := Dict.WF_set _ _ _ h.wfR
  wfL := h.wfL
  wfH := h.wfH
  wfI := h.wfI
  items_handles := h.items_handles
  handles_items := h.handles_items
  lookup := h.lookup
  refs := by
    intro k'
    dsimp only
    rw [Dict.get?_set]
    by_cases e : k' = k
    · rw [if_pos e, e, hk]; rfl
    · rw [if_neg e]; exact h.refs k'
  lookup_key := h.lookup_key

/-- Effect of `set_item` on a consistent state: it never raises, keeps the invariant, and sets
exactly the processed handles. -/
theorem setItem_ok {key : I → K} (ofNat : Nat → H) {s : State H I K} (hinv : Inv key s)
    (hs : List (Option H)) (item : I) (ih ar : Bool) :
    ∃ s', setItem key ofNat s hs item ih ar = .ok s' ∧ Inv key s' ∧
      (∀ a, s'.items.get? a = if some a ∈ effHandles key ofNat s hs item ih then some item
        else s.items.get? a) ∧
      (∀ k, k ≠ key item → (s'.handles.get? k).isSome → s'.refCount.get? k = s.refCount.get? k) ∧
      ((∀ j, key j = key item → j = item) → ∀ c, s.refCount.get? (key item) = some c →
        s'.refCount.get? (key item) = some (if ar then c + 1 else c)) ∧
      (s.refCount.get? (key item) = none → (s'.handles.get? (key item)).isSome →
        s'.refCount.get? (key item) = some 1) := by
  unfold setItem
  have hinv0 : Inv key (if ((s.hashLookup.get? (key item)).isNone && ih) = true
      then { s with counter := s.counter + 1 } else s) := by
    split
    · exact ⟨hinv.wfR, hinv.wfL, hinv.wfH, hinv.wfI, hinv.items_handles, hinv.handles_items,
        hinv.lookup, hinv.refs, hinv.lookup_key⟩
    · exact hinv
  have hitems0 : (if ((s.hashLookup.get? (key item)).isNone && ih) = true
      then { s with counter := s.counter + 1 } else s).items = s.items := by split <;> rfl
  have hrc0 : (if ((s.hashLookup.get? (key item)).isNone && ih) = true
      then { s with counter := s.counter + 1 } else s).refCount = s.refCount := by split <;> rfl
  have hh0 : (if ((s.hashLookup.get? (key item)).isNone && ih) = true
      then { s with counter := s.counter + 1 } else s).handles = s.handles := by split <;> rfl
  have heff : (if ((s.hashLookup.get? (key item)).isNone && ih) = true
      then hs ++ [some (ofNat s.counter)] else hs) = effHandles key ofNat s hs item ih := rfl
  dsimp only
  rw [heff]
  generalize (if ((s.hashLookup.get? (key item)).isNone && ih) = true
      then { s with counter := s.counter + 1 } else s) = s0 at *
  generalize effHandles key ofNat s hs item ih = hs' at *
  obtain ⟨s1, a1, e1, i1, _, g1, n1, r1⟩ := setHandles_ok hs' (hinv0.toLInv item)
  have own := fun hinj => setHandles_own (key := key) (item := item) hinj hs' (hinv0.toLInv item) e1
  rw [hitems0] at g1
  simp only [e1]
  cases hg : s1.handles.get? (key item) with
  | some hs1 =>
    have inv2 := finish_existing i1 hg
    have hrs : (s1.refCount.get? (key item)).isSome := by rw [i1.refs, hg]; rfl
    obtain ⟨c, hc⟩ := Option.isSome_iff_exists.mp hrs
    have hc0 : s.refCount.get? (key item) = some c := by
      rw [← hrc0, ← r1 (key item) (by rw [hg]; rfl)]; exact hc
    cases ar with
    | true =>
      simp only [if_true, hc]
      refine ⟨_, rfl, ?_, ?_, ?_, ?_, ?_⟩
      · exact inv2.set_refCount (key item) (c + 1) (by dsimp only; rw [Dict.get?_set]; simp)
      · exact g1
      · intro k hk hl
        dsimp only at hl ⊢
        rw [Dict.get?_set, if_neg hk] at hl ⊢
        rw [← hrc0]; exact r1 k hl
      · intro _ c' hc'
        rw [hc0] at hc'; cases hc'
        dsimp only; rw [Dict.get?_set, if_pos rfl]
      · intro h; rw [hc0] at h; cases h
    | false =>
      simp only [Bool.false_eq_true, if_false]
      refine ⟨_, rfl, inv2, g1, ?_, ?_, ?_⟩
      · intro k hk hl
        dsimp only at hl ⊢
        rw [Dict.get?_set, if_neg hk] at hl
        rw [← hrc0]; exact r1 k hl
      · intro _ c' hc'
        rw [hc0] at hc'; cases hc'
        exact hc
      · intro h; rw [hc0] at h; cases h
  | none =>
    have hnoown : (∀ j, key j = key item → j = item) → ∀ c, s.refCount.get? (key item) = some c →
        False := by
      intro hinj c hc
      have h1 := (own hinj).1
      rw [hg] at h1
      have h2 := hinv0.refs (key item)
      rw [hrc0, hc, ← h1] at h2
      cases h2
    by_cases hadd : a1 = []
    · subst hadd
      simp only [if_true]
      refine ⟨_, rfl, i1.toInv, g1, ?_, ?_, ?_⟩
      · intro k hk hl
        rw [← hrc0]; exact r1 k hl
      · intro hinj c hc; exact (hnoown hinj c hc).elim
      · intro _ h; rw [hg] at h; cases h
    · simp only [hadd, if_false]
      refine ⟨_, rfl, finish_new i1 hg hadd, g1, ?_, ?_, ?_⟩
      · intro k hk hl
        dsimp only at hl ⊢
        rw [Dict.get?_set, if_neg hk] at hl ⊢
        rw [← hrc0]; exact r1 k hl
      · intro hinj c hc; exact (hnoown hinj c hc).elim
      · intro _ _
        dsimp only; rw [Dict.get?_set, if_pos rfl]

theorem removeReference_cases {key : I → K} {s : State H I K} (hinv : Inv key s)
    (i : I) (h : Option H) (n : Int) :
    (∃ j c, (j = i ∨ ∃ a, h = some a ∧ s.items.get? a = some j) ∧
        s.refCount.get? (key j) = some c ∧ (j ≠ i → s.refCount.get? (key i) = none) ∧
      ((0 < c - n ∧ ∃ s', removeReference key s i h n = .ok s' ∧ Inv key s' ∧ s'.items = s.items ∧
          (∀ k, s'.refCount.get? k = if k = key j then some (c - n) else s.refCount.get? k)) ∨
       ((c - n ≤ 0 ∨ (j ≠ i ∧ n = 0)) ∧
        ∃ s', removeReference key s i h n = .ok s' ∧ Inv key s' ∧
          (∀ a, s'.items.get? a = match s.items.get? a with
            | none => none
            | some i' => if key i' = key j then none else some i') ∧
          (∀ k, s'.refCount.get? k = if k = key j then none else s.refCount.get? k)))) ∨
    (s.refCount.get? (key i) = none ∧
      ((h = none ∧ removeReference key s i h n = .error .typeError) ∨
       (∃ a, h = some a ∧ s.items.get? a = none ∧ removeReference key s i h n = .error .keyError))) := by
  have hdrop : ∀ (j : I) (c c' : Int), s.refCount.get? (key j) = some c →
      ∃ s', removeItem key { s with refCount := s.refCount.set (key j) c' } j = .ok s' ∧ Inv key s' ∧
          (∀ a, s'.items.get? a = match s.items.get? a with
            | none => none
            | some i' => if key i' = key j then none else some i') ∧
          (∀ k, s'.refCount.get? k = if k = key j then none else s.refCount.get? k) := by
    intro j c c' hc
    have hh : (s.handles.get? (key j)).isSome := by rw [← hinv.refs, hc]; rfl
    have hinv' := hinv.set_refCount (key j) c' hh
    have hl : Live key { s with refCount := s.refCount.set (key j) c' } (key j) :=
      (hinv'.live_iff _).mpr hh
    obtain ⟨s', e, iv, _, g, r⟩ := removeItem_ok hinv' j hl
    refine ⟨s', e, iv, g, ?_⟩
    intro k
    rw [r]
    dsimp only
    rw [Dict.get?_set]
    split <;> rfl
  cases hc : s.refCount.get? (key i) with
  | some c =>
    left
    refine ⟨i, c, Or.inl rfl, hc, by simp, ?_⟩
    simp only [removeReference, hc]
    have hh : (s.handles.get? (key i)).isSome := by rw [← hinv.refs, hc]; rfl
    by_cases hle : c - n ≤ 0
    · right
      simp only [hle, if_true]
      obtain ⟨s', e, iv, g, r⟩ := hdrop i c (c - n) hc
      exact ⟨Or.inl trivial, s', e, iv, g, r⟩
    · left
      simp only [hle, if_false]
      refine ⟨by omega, _, rfl, hinv.set_refCount (key i) _ hh, rfl, ?_⟩
      intro k; exact Dict.get?_set _ _ _ _
  | none =>
    cases h with
    | none => right; exact ⟨rfl, Or.inl ⟨rfl, by simp only [removeReference, hc]⟩⟩
    | some a =>
      cases ha : s.items.get? a with
      | none => right; exact ⟨rfl, Or.inr ⟨a, rfl, ha, by simp only [removeReference, hc, ha]⟩⟩
      | some j =>
        left
        have hh : (s.handles.get? (key j)).isSome := by
          obtain ⟨hs, h1, _⟩ := hinv.items_handles a j ha
          rw [h1]; rfl
        obtain ⟨c, hcj⟩ := Option.isSome_iff_exists.mp (by rw [hinv.refs]; exact hh :
          (s.refCount.get? (key j)).isSome)
        have hji : j ≠ i := by rintro rfl; rw [hc] at hcj; cases hcj
        refine ⟨j, c, Or.inr ⟨a, rfl, ha⟩, hcj, fun _ => rfl, ?_⟩
        simp only [removeReference, hc, ha]
        by_cases hn : n = 0
        · right
          obtain ⟨s', e, iv, g, r⟩ := hdrop j c 0 hcj
          refine ⟨Or.inr ⟨hji, hn⟩, s', ?_, iv, g, r⟩
          simp [hn, e]
        · simp only [ne_eq, hn, not_false_eq_true, if_true, hcj]
          by_cases hle : c - n ≤ 0
          · right
            simp only [hle, if_true]
            obtain ⟨s', e, iv, g, r⟩ := hdrop j c (c - n) hcj
            exact ⟨Or.inl trivial, s', e, iv, g, r⟩
          · left
            simp only [hle, if_false]
            refine ⟨by omega, _, rfl, hinv.set_refCount (key j) _ hh, rfl, ?_⟩
            intro k; exact Dict.get?_set _ _ _ _

theorem removeAll_inv (key : I → K) (s : State H I K) : Inv key (removeAll s) :=
  let h := init_inv (H := H) key
  ⟨h.wfR, h.wfL, h.wfH, h.wfI, h.items_handles, h.handles_items, h.lookup, h.refs, h.lookup_key⟩

theorem step_inv {key : I → K} (ofNat : Nat → H) {s : State H I K} (hinv : Inv key s)
    (op : Op H I) : Inv key (step key ofNat s op) := by
  have hrm : ∀ i, Inv key (match removeItem key s i with | .ok s' => s' | .error _ => s) := by
    intro i
    by_cases hl : Live key s (key i)
    · obtain ⟨s', e, iv, _⟩ := removeItem_ok hinv i hl
      rw [e]; exact iv
    · rw [removeItem_missing hinv i hl]; exact hinv
  cases op with
  | set hs i ih ar =>
    obtain ⟨s', e, iv, _⟩ := setItem_ok ofNat hinv hs i ih ar
    simp only [step, run, e]; exact iv
  | setNonList => exact hinv
  | del h i =>
    have hi := hrm i
    simp only [step, run, delItem]
    cases h with
    | none => simp only [removeByHandle]; exact hi
    | some a =>
      cases ha : s.items.get? a with
      | none => simp only [removeByHandle, ha]; exact hi
      | some j =>
        obtain ⟨s', e, iv, _⟩ := removeItem_ok hinv j ⟨a, j, ha, rfl⟩
        simp only [removeByHandle, ha, e]; exact iv
  | removeByHandle h =>
    simp only [step, run]
    cases h with
    | none => exact hinv
    | some a =>
      cases ha : s.items.get? a with
      | none => simp only [removeByHandle, ha]; exact hinv
      | some j => simp only [removeByHandle, ha]; exact hrm j
  | removeItem i => exact hrm i
  | removeReference i h n =>
    simp only [step, run]
    rcases removeReference_cases hinv i h n with
      ⟨j, c, _, _, _, ⟨_, s', e, iv, _⟩ | ⟨_, s', e, iv, _⟩⟩ | ⟨_, ⟨_, e⟩ | ⟨a, _, _, e⟩⟩
    · rw [e]; exact iv
    · rw [e]; exact iv
    · rw [e]; exact hinv
    · rw [e]; exact hinv
  | removeAll => exact removeAll_inv key s

theorem exec_inv (key : I → K) (ofNat : Nat → H) (ops : List (Op H I)) :
    Inv key (exec key ofNat ops) := by
  suffices h : ∀ s, Inv key s → Inv key (ops.foldl (step key ofNat) s) from h _ (init_inv key)
  induction ops with
  | nil => exact fun s h => h
  | cons op ops ih => exact fun s h => ih _ (step_inv ofNat h op)

end Viscid.Bucket
