import Verif.Lemmas.Bucket
import Verif.Spec.Bucket
/-! # C05-C07: the Bucket -/
namespace Viscid.Bucket
open Viscid Viscid.Spec.Bucket
set_option linter.unusedSectionVars false
variable {H I K : Type} [DecidableEq H] [DecidableEq I] [DecidableEq K]

/-- **C05** After any history: a handle resolves to an item iff it is listed among the handles of
that item (up to the equality the bucket uses for items); lists have no duplicates and are never
empty; `len()` counts the distinct stored items; `_hash_lookup` and `_ref_count` have exactly the
stored items. -/
theorem C05_consistent (key : I → K) (ofNat : Nat → H) (ops : List (Op H I)) :
    let s := exec key ofNat ops
    (∀ h k, (∃ i, getItem s h = .ok i ∧ key i = k) ↔ ∃ hs, s.handles.get? k = some hs ∧ h ∈ hs) ∧
    (∀ k hs, s.handles.get? k = some hs → hs ≠ [] ∧ hs.Nodup) ∧
    (∃ ks : List K, ks.Nodup ∧ len s = ks.length ∧
      ∀ k, k ∈ ks ↔ ∃ h i, getItem s h = .ok i ∧ key i = k) ∧
    (∀ k, (s.hashLookup.get? k).isSome ↔ ∃ h i, getItem s h = .ok i ∧ key i = k) ∧
    (∀ k, (s.refCount.get? k).isSome ↔ ∃ h i, getItem s h = .ok i ∧ key i = k) := by
  intro s
  have hinv : Inv key s := exec_inv key ofNat ops
  have hget : ∀ h i, getItem s h = .ok i ↔ s.items.get? h = some i := by
    intro h i
    unfold getItem
    cases s.items.get? h <;> simp
  have hlive : ∀ k, (∃ h i, getItem s h = .ok i ∧ key i = k) ↔ (s.handles.get? k).isSome := by
    intro k
    rw [← hinv.live_iff]
    simp only [hget, Live]
  refine ⟨?_, ?_, ?_, ?_, ?_⟩
  · intro h k
    simp only [hget]
    constructor
    · rintro ⟨i, h1, rfl⟩; exact hinv.items_handles h i h1
    · rintro ⟨hs, h1, h2⟩; exact (hinv.handles_items k hs h1).2.2 h h2
  · intro k hs hk
    have := hinv.handles_items k hs hk
    exact ⟨this.1, this.2.1⟩
  · refine ⟨s.hashLookup.keys, hinv.wfL, by simp [len, Dict.keys], ?_⟩
    intro k
    rw [Dict.mem_keys_iff, hinv.lookup, hlive]
  · intro k; rw [hinv.lookup, hlive]
  · intro k; rw [hinv.refs, hlive]

/-- **C05** No handle is listed under two different items. -/
theorem C05_no_shared_handle (key : I → K) (ofNat : Nat → H) (ops : List (Op H I)) (k k' : K)
    (hs hs' : List H) (h : H)
    (h1 : (exec key ofNat ops).handles.get? k = some hs)
    (h2 : (exec key ofNat ops).handles.get? k' = some hs') (m1 : h ∈ hs) (m2 : h ∈ hs') : k = k' := by
  have hinv : Inv key (exec key ofNat ops) := exec_inv key ofNat ops
  obtain ⟨i, a1, a2⟩ := (hinv.handles_items k hs h1).2.2 h m1
  obtain ⟨j, b1, b2⟩ := (hinv.handles_items k' hs' h2).2.2 h m2
  rw [a1] at b1; cases b1; rw [← a2, ← b2]

/-- Concrete history with hijacking, deletion and reference release. -/
def demoOps : List (Op Nat Nat) :=
  [.set [some 100, some 101] 7 true false, .set [some 101, none, some 102] 8 true false,
   .set [some 100] 7 false true, .removeReference 7 none 1, .del (some 102) 99]

example : (exec id id demoOps).handles = [(7, [100, 0])] ∧
    getItem (exec id id demoOps) 100 = .ok 7 ∧ getItem (exec id id demoOps) 101 = .error .keyError := by
  decide

/-- Simulation relation used for the refinement. -/
def Sim (key : I → K) (a : Abs H I K) (s : State H I K) : Prop :=
  (∀ h, s.items.get? h = a.map h) ∧ s.counter = a.next ∧
  ∀ k, a.Stored key k → s.refCount.get? k = some (a.refs k)

theorem sim_stored {key : I → K} {a : Abs H I K} {s : State H I K} (hs : Sim key a s) (k : K) :
    a.Stored key k ↔ Live key s k := by
  simp only [Abs.Stored, Live, hs.1]

theorem sim_drop {key : I → K} {a : Abs H I K} {s s' : State H I K} (hs : Sim key a s) (k : K)
    (hi : ∀ h, s'.items.get? h = match s.items.get? h with
        | none => none
        | some i => if key i = k then none else some i)
    (hc : s'.counter = s.counter)
    (hr : ∀ k', s'.refCount.get? k' = if k' = k then none else s.refCount.get? k') :
    Sim key (a.drop key k) s' := by
  have hm : ∀ h, s'.items.get? h = (a.drop key k).map h := by
    intro h
    rw [hi, hs.1]
    simp only [Abs.drop]
    cases hh : a.map h with
    | none => simp
    | some i =>
      by_cases e : key i = k
      · simp [e]
      · simp [e]
  refine ⟨hm, hc.trans hs.2.1, ?_⟩
  rintro k' ⟨h, i, h1, h2⟩
  rw [hr]
  simp only [Abs.drop] at h1
  split at h1
  · cases h1
  · next hne =>
    have : k' ≠ k := by
      rintro rfl; exact hne ⟨i, h1, h2⟩
    rw [if_neg this]
    exact hs.2.2 k' ⟨h, i, h1, h2⟩

theorem removeItem_counter {key : I → K} {s s' : State H I K} {i : I}
    (h : removeItem key s i = .ok s') : s'.counter = s.counter := by
  unfold removeItem at h
  cases hh : s.handles.get? (key i) <;> simp [hh] at h
  rw [← h]

theorem removeReference_counter {key : I → K} {s s' : State H I K} {i : I} {h : Option H} {n : Int}
    (he : removeReference key s i h n = .ok s') : s'.counter = s.counter := by
  unfold removeReference at he
  dsimp only at he
  repeat' split at he
  all_goals first
    | (have := removeItem_counter he; exact this)
    | (cases he; rfl)
    | (cases he)

theorem setHandles_counter {key : I → K} {item : I} (hs : List (Option H)) {s s' : State H I K}
    {added added' : List H} (hinv : LInv key item added s)
    (he : setHandles key item hs (s, added) = .ok (s', added')) : s'.counter = s.counter := by
  obtain ⟨s1, a1, e1, _, c1, _⟩ := setHandles_ok hs hinv
  rw [e1] at he; cases he; exact c1

theorem setItem_counter {key : I → K} {ofNat : Nat → H} {s s' : State H I K} {hs : List (Option H)}
    {i : I} {idx ar : Bool} (hinv : Inv key s) (he : setItem key ofNat s hs i idx ar = .ok s') :
    s'.counter = if (s.hashLookup.get? (key i)).isNone && idx then s.counter + 1 else s.counter := by
  unfold setItem at he
  dsimp only at he
  by_cases hn : ((s.hashLookup.get? (key i)).isNone && idx) = true
  · simp only [hn, if_true] at he ⊢
    have hinv' : Inv key { s with counter := s.counter + 1 } :=
      ⟨hinv.wfR, hinv.wfL, hinv.wfH, hinv.wfI, hinv.items_handles, hinv.handles_items,
        hinv.lookup, hinv.refs, hinv.lookup_key⟩
    obtain ⟨s1, a1, e1, _, c1, _⟩ := setHandles_ok (hs ++ [some (ofNat s.counter)]) (hinv'.toLInv i)
    rw [e1] at he
    dsimp only at he
    repeat' split at he
    all_goals (cases he; exact c1)
  · simp only [Bool.not_eq_true] at hn
    simp only [hn, Bool.false_eq_true, if_false] at he ⊢
    obtain ⟨s1, a1, e1, _, c1, _⟩ := setHandles_ok hs (hinv.toLInv i)
    rw [e1] at he
    dsimp only at he
    repeat' split at he
    all_goals (cases he; exact c1)

/-- Did a call raise? -/
def raised : Except Err (State H I K) → Bool
  | .ok _ => false
  | .error _ => true

theorem sim_step {key : I → K} (hinj : ∀ i j, key i = key j → i = j) (ofNat : Nat → H)
    {a : Abs H I K} {s : State H I K} (hinv : Inv key s) (hs : Sim key a s) (op : Op H I) :
    Sim key (a.step key ofNat op).1 (step key ofNat s op) ∧
    raised (run key ofNat s op) = (a.step key ofNat op).2 := by
  classical
  have hrm : ∀ i, Sim key (if a.Stored key (key i) then (a.drop key (key i), false) else (a, true)).1
      (match removeItem key s i with | .ok s' => s' | .error _ => s) ∧
      raised (removeItem key s i) =
        (if a.Stored key (key i) then (a.drop key (key i), false) else (a, true)).2 := by
    intro i
    by_cases hl : a.Stored key (key i)
    · obtain ⟨s', e, iv, c, g, r⟩ := removeItem_ok hinv i ((sim_stored hs _).mp hl)
      rw [e]; simp only [hl, if_true]
      exact ⟨sim_drop hs _ g c r, rfl⟩
    · rw [removeItem_missing hinv i (fun h => hl ((sim_stored hs _).mpr h))]
      simp only [hl, if_false]
      exact ⟨hs, rfl⟩
  cases op with
  | set hs' i idx ar =>
    obtain ⟨s', e, iv, g, r1, r2, r3⟩ := setItem_ok ofNat hinv hs' i idx ar
    have hc := setItem_counter hinv e
    have hfresh : (s.hashLookup.get? (key i)).isNone = true ↔ ¬ a.Stored key (key i) := by
      rw [sim_stored hs, hinv.live_iff, ← hinv.lookup]
      cases s.hashLookup.get? (key i) <;> simp
    simp only [step, run, e, raised]
    refine ⟨⟨?_, ?_, ?_⟩, rfl⟩
    · intro h
      rw [g]
      simp only [Abs.step, effHandles, hs.1, ← hs.2.1]
      by_cases hf : a.Stored key (key i)
      · have : (s.hashLookup.get? (key i)).isNone = false := by
          cases hb : (s.hashLookup.get? (key i)).isNone
          · rfl
          · exact absurd hf (hfresh.mp hb)
        simp [hf, this]
      · simp [hf, hfresh.mpr hf]
    · rw [hc]
      simp only [Abs.step, ← hs.2.1]
      by_cases hf : a.Stored key (key i)
      · have : (s.hashLookup.get? (key i)).isNone = false := by
          cases hb : (s.hashLookup.get? (key i)).isNone
          · rfl
          · exact absurd hf (hfresh.mp hb)
        simp [hf, this]
      · simp [hf, hfresh.mpr hf]
    · intro k hk
      have hlk : Live key s' k := by
        obtain ⟨h, j, h1, h2⟩ := hk
        refine ⟨h, j, ?_, h2⟩
        rw [g]
        have h1' := h1
        simp only [Abs.step] at h1'
        simp only [effHandles, hs.1, hs.2.1]
        by_cases hf : a.Stored key (key i)
        · have : (s.hashLookup.get? (key i)).isNone = false := by
            cases hb : (s.hashLookup.get? (key i)).isNone
            · rfl
            · exact absurd hf (hfresh.mp hb)
          simpa [hf, this] using h1'
        · simpa [hf, hfresh.mpr hf] using h1'
      have hh := (iv.live_iff k).mp hlk
      simp only [Abs.step]
      by_cases hki : k = key i
      · subst hki
        simp only [if_true]
        by_cases hf : a.Stored key (key i)
        · simp only [hf, not_true, if_false]
          rw [r2 (fun j => hinj j i) _ (hs.2.2 _ hf)]
        · simp only [hf, not_false_eq_true, if_true]
          apply r3 _ hh
          have : ¬ (s.handles.get? (key i)).isSome := fun h =>
            hf ((sim_stored hs _).mpr ((hinv.live_iff _).mpr h))
          rw [← hinv.refs] at this
          simpa using this
      · simp only [hki, if_false]
        rw [r1 k hki hh]
        apply hs.2.2
        obtain ⟨h, j, h1, h2⟩ := hk
        refine ⟨h, j, ?_, h2⟩
        simp only [Abs.step] at h1
        split at h1
        all_goals split at h1
        all_goals first | exact h1 | (cases h1; exact absurd h2.symm hki)
  | setNonList => exact ⟨hs, rfl⟩
  | del h i =>
    have hi := hrm i
    simp only [step, run, delItem, Abs.step]
    cases h with
    | none => simp only [removeByHandle, Abs.find, Option.bind_none]; exact hi
    | some b =>
      simp only [Abs.find, Option.bind_some]
      cases hb : s.items.get? b with
      | none => rw [← hs.1, hb]; simp only [removeByHandle, hb]; exact hi
      | some j =>
        obtain ⟨s', e, iv, c, g, r⟩ := removeItem_ok hinv j ⟨b, j, hb, rfl⟩
        rw [← hs.1, hb]; simp only [removeByHandle, hb, e]
        exact ⟨sim_drop hs _ g c r, rfl⟩
  | removeByHandle h =>
    simp only [step, run, Abs.step]
    cases h with
    | none => exact ⟨hs, rfl⟩
    | some b =>
      simp only [Abs.find, Option.bind_some]
      cases hb : s.items.get? b with
      | none => rw [← hs.1, hb]; simp only [removeByHandle, hb]; exact ⟨hs, rfl⟩
      | some j =>
        obtain ⟨s', e, iv, c, g, r⟩ := removeItem_ok hinv j ⟨b, j, hb, rfl⟩
        rw [← hs.1, hb]; simp only [removeByHandle, hb, e]
        exact ⟨sim_drop hs _ g c r, rfl⟩
  | removeItem i => exact hrm i
  | removeReference i h n =>
    simp only [step, run]
    have hst : ∀ k, a.Stored key k ↔ (s.refCount.get? k).isSome := by
      intro k; rw [sim_stored hs, hinv.live_iff, hinv.refs]
    rcases removeReference_cases hinv i h n with
      ⟨j, c, hj, hcj, hji, hres⟩ | ⟨hni, hres⟩
    · have hsj : a.Stored key (key j) := by rw [hst, hcj]; rfl
      have hcr : a.refs (key j) = c := by
        have := hs.2.2 _ hsj; rw [hcj] at this; cases this; rfl
      -- which item the argument denotes
      have hden : a.step key ofNat (.removeReference i h n) =
          if j ≠ i ∧ n = 0 then (a.drop key (key j), false) else (a.release key (key j) n, false) := by
        by_cases hjeq : j = i
        · subst hjeq; simp [Abs.step, hsj]
        · have : ¬ a.Stored key (key i) := by rw [hst, hji hjeq]; simp
          rcases hj with rfl | ⟨b, rfl, hb⟩
          · exact absurd rfl hjeq
          · rw [hs.1] at hb
            simp [Abs.step, this, Abs.find, hb, hjeq]
      rw [hden]
      rcases hres with ⟨hpos, s', e, iv, hit, hrc⟩ | ⟨hle, s', e, iv, g, r⟩
      · have hc := removeReference_counter e
        rw [e]
        have hnot : ¬ (j ≠ i ∧ n = 0) := by
          rintro ⟨h1, rfl⟩
          -- then the code drops the item; but then items would have changed
          have hd : ¬ a.Stored key (key i) := by rw [hst, hji h1]; simp
          rcases hj with rfl | ⟨b, rfl, hb⟩
          · exact h1 rfl
          · have hq : s'.items.get? b = none := by
              have hinv2 := hinv.set_refCount (key j) 0
                (by rw [← hinv.refs, hcj]; rfl)
              obtain ⟨s2, e2, _, _, g2, _⟩ := removeItem_ok hinv2 j
                ((hinv2.live_iff _).mpr (by
                  show (s.handles.get? (key j)).isSome = true
                  rw [← hinv.refs, hcj]; rfl))
              have : s' = s2 := by
                have e3 := e
                simp only [removeReference, hji h1, hb] at e3
                simp only [ne_eq, not_true, if_false] at e3
                rw [e2] at e3; cases e3; rfl
              rw [this, g2]
              dsimp only
              rw [hb]; simp
            rw [hit, hb] at hq; cases hq
        rw [if_neg hnot]
        refine ⟨?_, rfl⟩
        have hrel : a.release key (key j) n =
            { a with refs := fun k' => if k' = key j then a.refs (key j) - n else a.refs k' } := by
          unfold Abs.release
          rw [if_neg (by rw [hcr]; omega)]
          congr 1; funext k'; by_cases h' : k' = key j <;> simp [h']
        simp only [hrel]
        refine ⟨fun b => by rw [hit]; exact hs.1 b, hc.trans hs.2.1, ?_⟩
        intro k hk
        rw [hrc]
        dsimp only
        by_cases e' : k = key j
        · rw [if_pos e', if_pos e', hcr]
        · rw [if_neg e', if_neg e']
          exact hs.2.2 k hk
      · have hc := removeReference_counter e
        rw [e]
        have hd := sim_drop hs (key j) g hc r
        by_cases hq : j ≠ i ∧ n = 0
        · rw [if_pos hq]; exact ⟨hd, rfl⟩
        · rw [if_neg hq]
          have hle' : c - n ≤ 0 := by
            rcases hle with h1 | h1
            · exact h1
            · exact absurd h1 hq
          have hrel : a.release key (key j) n = a.drop key (key j) := by
            unfold Abs.release
            rw [if_pos]; rw [hcr]; exact hle'
          simp only [hrel]
          exact ⟨hd, rfl⟩
    · have hns : ¬ a.Stored key (key i) := by rw [hst, hni]; simp
      rcases hres with ⟨rfl, e⟩ | ⟨b, rfl, hb, e⟩
      · have hst2 : a.step key ofNat (.removeReference i none n) = (a, true) := by
          simp [Abs.step, hns, Abs.find]
        rw [e, hst2]; exact ⟨hs, rfl⟩
      · have hst2 : a.step key ofNat (.removeReference i (some b) n) = (a, true) := by
          simp [Abs.step, hns, Abs.find, ← hs.1, hb]
        rw [e, hst2]; exact ⟨hs, rfl⟩
  | removeAll =>
    refine ⟨⟨fun h => rfl, hs.2.1, ?_⟩, rfl⟩
    rintro k ⟨h, i, h1, _⟩
    simp [Abs.step] at h1

theorem sim_exec {key : I → K} (hinj : ∀ i j, key i = key j → i = j) (ofNat : Nat → H)
    (ops : List (Op H I)) : Sim key (Abs.exec key ofNat ops) (exec key ofNat ops) := by
  suffices h : ∀ (a : Abs H I K) s, Inv key s → Sim key a s →
      Sim key (ops.foldl (fun a op => (a.step key ofNat op).1) a) (ops.foldl (step key ofNat) s) from
    h _ _ (init_inv key) ⟨fun _ => rfl, rfl, by rintro k ⟨h, i, h1, _⟩; simp [Abs.empty] at h1⟩
  induction ops with
  | nil => exact fun a s _ h => h
  | cons op ops ih =>
    intro a s hi h
    exact ih _ _ (step_inv ofNat hi op) (sim_step hinj ofNat hi h op).1

/-- **C06** Refinement: for items compared by identity, after every history `bucket[h]` is exactly
what the abstract handle map says, KeyError exactly where it is undefined, and the next call
raises exactly when the abstract specification says so. -/
theorem C06_refines_map (key : I → K) (hinj : ∀ i j, key i = key j → i = j) (ofNat : Nat → H)
    (ops : List (Op H I)) :
    (∀ h, getItem (exec key ofNat ops) h =
      match (Abs.exec key ofNat ops).map h with
      | some i => .ok i
      | none => .error .keyError) ∧
    (∀ op, raised (run key ofNat (exec key ofNat ops) op) =
      ((Abs.exec key ofNat ops).step key ofNat op).2) := by
  have h := sim_exec hinj ofNat ops
  refine ⟨fun a => ?_, fun op => (sim_step hinj ofNat (exec_inv key ofNat ops) h op).2⟩
  unfold getItem
  rw [h.1]
  cases (Abs.exec key ofNat ops).map a <;> rfl

example : getItem (exec id id demoOps) 100 = .ok 7 ∧ (Abs.exec id id demoOps).map 100 = some 7 := by
  have h := (C06_refines_map id (fun _ _ h => h) id demoOps).1 100
  refine ⟨by decide, ?_⟩
  rw [show getItem (exec id id demoOps) 100 = .ok 7 by decide] at h
  cases hm : (Abs.exec id id demoOps).map 100 with
  | none => rw [hm] at h; cases h
  | some i => rw [hm] at h; cases h; rfl

/-- **C06** Last set wins, for arbitrary (also equal but distinct) items: directly after
`set_item(handles, item)` each listed handle gives `item`, and no handle outside the list (and the
automatic integer handle) changed. -/
theorem C06_last_set_wins (key : I → K) (ofNat : Nat → H) (ops : List (Op H I))
    (hs : List (Option H)) (item : I) (idx ar : Bool) (h : H) :
    let s := exec key ofNat ops
    let s' := exec key ofNat (ops ++ [.set hs item idx ar])
    (some h ∈ hs → getItem s' h = .ok item) ∧
    (some h ∉ hs → h ≠ ofNat s.counter → getItem s' h = getItem s h) := by
  intro s s'
  have hinv : Inv key s := exec_inv key ofNat ops
  obtain ⟨s1, e, _, g, _⟩ := setItem_ok ofNat hinv hs item idx ar
  have hs1 : s' = s1 := by
    show exec key ofNat (ops ++ [.set hs item idx ar]) = s1
    unfold exec
    rw [List.foldl_append]
    show step key ofNat s (.set hs item idx ar) = s1
    simp only [step, run, e]
  constructor
  · intro hm
    unfold getItem
    rw [hs1, g]
    have : some h ∈ effHandles key ofNat s hs item idx := by
      unfold effHandles; split <;> simp [hm]
    rw [if_pos this]
  · intro hm hne
    unfold getItem
    rw [hs1, g]
    have : some h ∉ effHandles key ofNat s hs item idx := by
      unfold effHandles; split <;> simp [hm, hne]
    rw [if_neg this]

example : getItem (exec id id (demoOps ++ [.set [some 100, none] 9 true false])) 100 = .ok 9 :=
  (C06_last_set_wins id id demoOps [some 100, none] 9 true false 100).1 (by simp)

/-- Finding: with equal but distinct items, `values()` keeps the old object while `bucket[h]`
returns the new one. Items 1 and 11 are equal (same key mod 10). -/
theorem C06_values_can_be_stale :
    ∃ ops : List (Op Nat Nat), ∃ s, s = exec (fun i => i % 10) id ops ∧
      getItem s 50 = .ok 11 ∧ s.hashLookup = [(1, 1)] :=
  ⟨[.set [some 50] 1 true false, .set [some 50] 11 true false], _, rfl, by decide, by decide⟩

/-- Acquiring and releasing references to one item. -/
inductive RefEvent (H : Type) where
  | acquire (hs : List (Option H)) (idx : Bool)
  | release (arg : Option H) (n : Int)

def RefEvent.toOp (i : I) : RefEvent H → Op H I
  | .acquire hs idx => .set hs i idx true
  | .release h n => .removeReference i h n

def RefEvent.delta : RefEvent H → Int
  | .acquire _ _ => 1
  | .release _ n => -n

/-- **C07** An item stored when absent, then acquired and released any number of times in any
order: as long as the balance has stayed positive so far, the item is still in the bucket exactly
when the balance is positive after the last event; when it is not, no handle gives the item. -/
theorem C07_refcount (key : I → K) (hinj : ∀ i j, key i = key j → i = j) (ofNat : Nat → H)
    (ops : List (Op H I)) (item : I) (hs : List (Option H)) (idx ar : Bool)
    (habsent : ∀ h, getItem (exec key ofNat ops) h ≠ .ok item)
    (hhas : ∃ h, some h ∈ hs)
    (es : List (RefEvent H))
    (hpos : ∀ p, p <+: es → p ≠ es → 0 < 1 + (p.map RefEvent.delta).sum) :
    let s := exec key ofNat (ops ++ .set hs item idx ar :: es.map (RefEvent.toOp item))
    (∃ h, getItem s h = .ok item) ↔ 0 < 1 + (es.map RefEvent.delta).sum := by
  have hgI : ∀ (s : State H I K), (∃ h, getItem s h = .ok item) ↔ Live key s (key item) := by
    intro s
    unfold getItem Live
    constructor
    · rintro ⟨h, h1⟩
      cases hh : s.items.get? h with
      | none => rw [hh] at h1; simp at h1
      | some j => rw [hh] at h1; simp at h1; exact ⟨h, j, hh, by rw [h1]⟩
    · rintro ⟨h, j, h1, h2⟩
      exact ⟨h, by rw [h1]; rw [hinj _ _ h2]⟩
  -- count invariant along the events
  have main : ∀ (es : List (RefEvent H)) (s : State H I K) (c : Int), Inv key s → 0 < c →
      s.refCount.get? (key item) = some c →
      (∀ p, p <+: es → p ≠ es → 0 < c + (p.map RefEvent.delta).sum) →
      (Live key ((es.map (RefEvent.toOp item)).foldl (step key ofNat) s) (key item) ↔
        0 < c + (es.map RefEvent.delta).sum) := by
    intro es
    induction es with
    | nil =>
      intro s c hinv hc hr _
      have : Live key s (key item) := by rw [hinv.live_iff, ← hinv.refs, hr]; rfl
      simp [this, hc]
    | cons e es ih =>
      intro s c hinv hc hr hp
      have hinv' := step_inv ofNat hinv (e.toOp item)
      simp only [List.map_cons, List.foldl_cons, List.sum_cons]
      cases e with
      | acquire hs' idx' =>
        obtain ⟨s', e', iv, _, _, r2, _⟩ := setItem_ok ofNat hinv hs' item idx' true
        have hstep : step key ofNat s (RefEvent.toOp item (.acquire hs' idx')) = s' := by
          simp only [step, run, RefEvent.toOp, e']
        rw [hstep]
        have hr' := r2 (fun j => hinj j item) c hr
        simp only [if_true] at hr'
        have := ih s' (c + 1) iv (by omega) hr' (by
          intro p h1 h2
          have h3 := hp (.acquire hs' idx' :: p) (by simpa using h1) (by simpa using h2)
          simp only [List.map_cons, List.sum_cons, RefEvent.delta] at h3
          omega)
        rw [this]
        simp only [RefEvent.delta]
        constructor <;> intro h <;> omega
      | release h n =>
        rcases removeReference_cases hinv item h n with
          ⟨j, c', hj, hcj, hji, hres⟩ | ⟨hni, _⟩
        · have hjeq : j = item := by
            apply Classical.byContradiction
            intro hne; have := hji hne; rw [hr] at this; cases this
          subst hjeq
          rw [hr] at hcj; cases hcj
          rcases hres with ⟨hpos', s', e', iv, hit, hrc⟩ | ⟨hle, s', e', iv, g, r⟩
          · have hstep : step key ofNat s (RefEvent.toOp j (.release h n)) = s' := by
              simp only [step, run, RefEvent.toOp, e']
            rw [hstep]
            have := ih s' (c - n) iv hpos' (by rw [hrc, if_pos rfl]) (by
              intro p h1 h2
              have h3 := hp (.release h n :: p) (by simpa using h1) (by simpa using h2)
              simp only [List.map_cons, List.sum_cons, RefEvent.delta] at h3
              omega)
            rw [this]
            simp only [RefEvent.delta]
            constructor <;> intro h <;> omega
          · have hle' : c - n ≤ 0 := by
              rcases hle with h1 | h1
              · exact h1
              · exact absurd rfl h1.1
            -- this must be the last event
            have hlast : es = [] := by
              cases es with
              | nil => rfl
              | cons e2 es2 =>
                have h3 := hp [.release h n] (by simp) (by simp)
                simp [RefEvent.delta] at h3
                omega
            subst hlast
            have hstep : step key ofNat s (RefEvent.toOp j (.release h n)) = s' := by
              simp only [step, run, RefEvent.toOp, e']
            simp only [List.map_nil, List.foldl_nil, hstep, List.sum_nil, RefEvent.delta]
            constructor
            · intro hl
              rw [iv.live_iff, ← iv.refs, r, if_pos rfl] at hl
              cases hl
            · intro h; omega
        · rw [hr] at hni; cases hni
  intro s
  rw [hgI]
  have hinv0 : Inv key (exec key ofNat ops) := exec_inv key ofNat ops
  obtain ⟨s1, e1, iv1, g1, _, _, r3⟩ := setItem_ok ofNat hinv0 hs item idx ar
  have hnl : ¬ Live key (exec key ofNat ops) (key item) := by
    intro hl
    obtain ⟨h, hh⟩ := (hgI _).mpr hl
    exact habsent h hh
  have hnone : (exec key ofNat ops).refCount.get? (key item) = none := by
    have : ¬ ((exec key ofNat ops).refCount.get? (key item)).isSome := by
      rw [hinv0.refs]; exact fun h => hnl ((hinv0.live_iff _).mpr h)
    simpa using this
  have hl1 : Live key s1 (key item) := by
    obtain ⟨h, hh⟩ := hhas
    refine ⟨h, item, ?_, rfl⟩
    rw [g1, if_pos]
    unfold effHandles; split <;> simp [hh]
  have hr1 := r3 hnone ((iv1.live_iff _).mp hl1)
  have hs : s = (es.map (RefEvent.toOp item)).foldl (step key ofNat) s1 := by
    show exec key ofNat (ops ++ .set hs item idx ar :: es.map (RefEvent.toOp item)) = _
    unfold exec
    rw [List.foldl_append, List.foldl_cons]
    congr 1
    show step key ofNat (exec key ofNat ops) (.set hs item idx ar) = s1
    simp only [step, run, e1]
  rw [hs]
  exact main es s1 1 iv1 (by omega) hr1 hpos

-- hypotheses of C07 on a concrete history: stored, acquired twice, released three times
example : (∀ p : List (RefEvent Nat), p <+: [.acquire [some 5] true, .acquire [] false,
      .release none 1, .release none 1, .release none 1] →
    p ≠ [.acquire [some 5] true, .acquire [] false, .release none 1, .release none 1, .release none 1] →
    0 < 1 + (p.map RefEvent.delta).sum) := by
  intro p hp hne
  rw [List.prefix_iff_eq_take] at hp
  have hl : p.length ≤ 5 := by
    rw [hp]; simp; omega
  rw [hp]
  have : p.length ≠ 5 := by
    intro h5; apply hne; rw [hp, h5]; rfl
  generalize p.length = n at *
  have : n = 0 ∨ n = 1 ∨ n = 2 ∨ n = 3 ∨ n = 4 := by omega
  rcases this with rfl | rfl | rfl | rfl | rfl <;> decide

end Viscid.Bucket
