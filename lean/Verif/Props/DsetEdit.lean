import Verif.Model.DsetEdit
import Verif.Lemmas.Bucket
/-!
# C191: what is added to a dataset and removed from it
-/
namespace Viscid.Props
open Viscid.DsetEdit
open Viscid.Nested (Key)

theorem step_kids (e : Env) (d : D) (h : Bucket.Inv id d.kids) (o : DsetEdit.Op) : Bucket.Inv id (d.step e o).kids := by
  unfold D.step D.op
  cases o with
  | add n c s =>
    obtain ⟨s', e', iv, -⟩ := Bucket.setItem_ok ofNat h [some (.name n)] c true false
    simp only [D.add, e']
    exact iv
  | activate a =>
    simp only [D.activate]
    cases d.raw a with
    | error x => exact h
    | ok c => exact h
  | del a =>
    simp only [D.del]
    cases d.getChild e a with
    | error x => exact h
    | ok c =>
      by_cases hl : Bucket.Live id d.kids (id c)
      · obtain ⟨s', e', iv, -⟩ := Bucket.removeItem_ok h c hl
        simp only [e']
        exact iv
      · simp only [Bucket.removeItem_missing h c hl]
        exact h
  | removeAll => exact Bucket.init_inv id

theorem run_kids (e : Env) (f : Nat → Key → Bool) (ops : List DsetEdit.Op) : Bucket.Inv id (run e (new f) ops).kids := by
  suffices h : ∀ d : D, Bucket.Inv id d.kids → Bucket.Inv id (run e d ops).kids from h _ (Bucket.init_inv id)
  induction ops with
  | nil => exact fun d h => h
  | cons o ops ih => exact fun d h => ih _ (step_kids e d h o)

/-- C191: after any history, what is added under a name is found under that name, and it is the active child if it was asked for -/
theorem C191_add (e : Env) (f : Nat → Key → Bool) (ops : List DsetEdit.Op) (name : String) (c : Nat) (setActive : Bool) :
    ∃ d', (run e (new f) ops).add name c setActive = .ok d' ∧ d'.get e (.key (.name name)) = .ok (.child ((e.target c).getD c)) ∧
      d'.contains e (.key (.name name)) = .ok true ∧ d'.active = if setActive then some c else (run e (new f) ops).active := by
  obtain ⟨s', e', iv, hg, -⟩ := Bucket.setItem_ok ofNat (run_kids e f ops) [some (.name name)] c true false
  have hn : s'.items.get? (.name name) = some c := by
    rw [hg, if_pos]
    unfold Bucket.effHandles
    split <;> simp
  have h1 : (run e (new f) ops).add name c setActive = .ok { run e (new f) ops with kids := s', active := if setActive then some c else (run e (new f) ops).active } := by
    simp only [D.add, e']
  refine ⟨_, h1, ?_, ?_, rfl⟩
  · simp [D.get, D.inKids, hn, D.getChild, D.raw, Bucket.getItem, Except.map, resolve]
  · simp [D.contains, D.inKids, hn]

theorem del_length {K V : Type} [DecidableEq K] (d : Dict K V) (k : K) (h : (d.get? k).isSome) : (d.del k).length + 1 = d.length := by
  induction d with
  | nil => simp at h
  | cons x d ih =>
    obtain ⟨a, v⟩ := x
    unfold Dict.del
    unfold Dict.get? at h
    split
    · rfl
    · next hne =>
      rw [if_neg hne] at h
      simp [ih h]

/-- C191: after any history, `del ds[k]` of a child that is not deferred removes that child with all its handles, and nothing else: the other handles give what they gave, the
number of children is one less -/
theorem C191_del_partial (e : Env) (f : Nat → Key → Bool) (ops : List DsetEdit.Op) (k : Key) (c : Nat) (hc : (run e (new f) ops).raw (.key k) = .ok c) (ht : e.target c = none) :
    ∃ d', (run e (new f) ops).del e (.key k) = .ok d' ∧ d'.len + 1 = (run e (new f) ops).len ∧ d'.inKids (.key k) = false ∧ d'.inKids (.obj c) = false ∧
      (∀ h x, d'.raw (.key h) = .ok x ↔ (run e (new f) ops).raw (.key h) = .ok x ∧ x ≠ c) ∧
      d'.active = (run e (new f) ops).active ∧ d'.fields = (run e (new f) ops).fields := by
  have inv := run_kids e f ops
  generalize run e (new f) ops = d at hc inv ⊢
  have hraw : ∀ (d : D) (h : Key) (x : Nat), d.raw (.key h) = .ok x ↔ d.kids.items.get? h = some x := by
    intro d h x
    simp only [D.raw, Bucket.getItem]
    cases d.kids.items.get? h <;> simp
  have hk := (hraw d k c).mp hc
  obtain ⟨s', e', iv, -, hg, -⟩ := Bucket.removeItem_ok inv c ⟨k, c, hk, rfl⟩
  have hd : d.del e (.key k) = .ok { d with kids := s' } := by
    simp only [D.del, D.getChild, hc, Except.map, resolve, ht, Option.getD_none, e']
  have hkn : s'.items.get? k = none := by
    rw [hg, hk]
    simp
  refine ⟨_, hd, ?_, ?_, ?_, ?_, rfl, rfl⟩
  · have hlive : (d.kids.hashLookup.get? c).isSome := by
      rw [inv.lookup]
      exact (inv.live_iff c).mp ⟨k, c, hk, rfl⟩
    have hs : s'.hashLookup = d.kids.hashLookup.del c := by
      unfold Bucket.removeItem at e'
      split at e'
      · cases e'
      · cases e'
        rfl
    show s'.hashLookup.length + 1 = d.kids.hashLookup.length
    rw [hs]
    exact del_length _ _ hlive
  · simp [D.inKids, hkn]
  · simp only [D.inKids]
    cases hh : s'.handles.get? c with
    | none => rfl
    | some hs =>
      exfalso
      obtain ⟨a, i, h1, h2⟩ := (iv.live_iff c).mpr (by rw [hh]; rfl)
      rw [hg] at h1
      cases h3 : d.kids.items.get? a with
      | none => rw [h3] at h1; cases h1
      | some j =>
        rw [h3] at h1
        simp only [id] at h1 h2
        split at h1
        · cases h1
        · next hne => cases h1; exact hne h2
  · intro h x
    rw [hraw, hraw]
    show s'.items.get? h = some x ↔ _
    rw [hg]
    cases d.kids.items.get? h with
    | none => simp
    | some j =>
      simp only [id]
      split
      · next heq => subst heq; simp; exact fun a => a.symm
      · next hne => simp; rintro rfl; exact hne

/-- C191 is violated: `del ds[k]` of a child that is still deferred is a KeyError, unless what its callback returns is also a child (which is removed in its stead) -/
theorem C191_deferred_violated (e : Env) (f : Nat → Key → Bool) (ops : List DsetEdit.Op) (k : Key) (c t : Nat) (hc : (run e (new f) ops).raw (.key k) = .ok c) (ht : e.target c = some t)
    (hn : ∀ h, (run e (new f) ops).raw (.key h) ≠ .ok t) : (run e (new f) ops).del e (.key k) = .error .key := by
  have inv := run_kids e f ops
  generalize run e (new f) ops = d at hc inv hn ⊢
  have hl : ¬ Bucket.Live id d.kids (id t) := by
    rintro ⟨h, i, h1, h2⟩
    simp only [id] at h2
    subst h2
    apply hn h
    simp [D.raw, Bucket.getItem, h1]
  simp only [D.del, D.getChild, hc, Except.map, resolve, ht, Option.getD_some, Bucket.removeItem_missing inv t hl]

/-- C191 is violated: a child that is removed is still the active one, and `get_field` and `ds[name]` still give its fields -/
theorem C191_active_violated (e : Env) (f : Nat → Key → Bool) (ops : List DsetEdit.Op) (name s : String) (c : Nat) (ht : e.target c = none)
    (hf : (run e (new f) ops).fields c (.name s) = true) (hn : (run e (new f) ops).raw (.key (.name s)) = .error .key) (hns : s ≠ name) :
    ∃ d d', (run e (new f) ops).add name c true = .ok d ∧ d.del e (.key (.name name)) = .ok d' ∧ d'.inKids (.obj c) = false ∧
      d'.getField e (.name s) = .ok (some (.field c s)) ∧ d'.get e (.key (.name s)) = .ok (.field c s) ∧ d'.contains e (.key (.name s)) = .ok true := by
  obtain ⟨d, h1, -, -, h2⟩ := C191_add e f ops name c true
  have hr : run e (new f) (ops ++ [.add name c true]) = d := by
    simp only [run, List.foldl_append, List.foldl_cons, List.foldl_nil]
    show D.step e (run e (new f) ops) (.add name c true) = d
    simp only [D.step, D.op, h1]
  obtain ⟨s', e', iv, hg, -⟩ := Bucket.setItem_ok ofNat (run_kids e f ops) [some (.name name)] c true false
  have hd : d = { run e (new f) ops with kids := s', active := some c } := by
    have : (run e (new f) ops).add name c true = .ok { run e (new f) ops with kids := s', active := some c } := by
      simp only [D.add, e']
      rfl
    rw [this] at h1
    cases h1
    rfl
  have hget : ∀ a, d.kids.items.get? a = s'.items.get? a := by
    intro a
    rw [hd]
  have hname : s'.items.get? (.name name) = some c := by
    rw [hg, if_pos]
    unfold Bucket.effHandles
    split <;> simp
  have hc : (run e (new f) (ops ++ [.add name c true])).raw (.key (.name name)) = .ok c := by
    rw [hr]
    simp [D.raw, Bucket.getItem, hget, hname]
  obtain ⟨d', g1, -, -, g3, g4, g5, g6⟩ := C191_del_partial e f (ops ++ [.add name c true]) (.name name) c hc ht
  rw [hr] at g1 g4 g5 g6
  have hs0 : (run e (new f) ops).kids.items.get? (.name s) = none := by
    simp only [D.raw, Bucket.getItem] at hn
    revert hn
    cases (run e (new f) ops).kids.items.get? (.name s) <;> simp
  have hsn : s'.items.get? (.name s) = none := by
    rw [hg, if_neg, hs0]
    unfold Bucket.effHandles
    split <;> simp [hns, ofNat]
  have hin : d'.inKids (.key (.name s)) = false := by
    simp only [D.inKids]
    cases hx : d'.kids.items.get? (.name s) with
    | none => rfl
    | some x =>
      exfalso
      have : d'.raw (.key (.name s)) = .ok x := by simp [D.raw, Bucket.getItem, hx]
      have := ((g4 _ _).mp this).1
      simp [D.raw, Bucket.getItem, hget, hsn] at this
  have hact : d'.active = some c := by rw [g5, h2]; rfl
  have hfl : d'.fields c (.name s) = true := by rw [g6, hd]; exact hf
  refine ⟨d, d', h1, g1, g3, ?_, ?_, ?_⟩
  · simp [D.getField, hact, ht, hfl]
  · simp [D.get, hin, hact, ht, gridGet, hfl]
  · simp [D.contains, hin, hact, ht, gridHas, hfl]

/-- C191: `name in ds` says whether `ds[name]` gives something, if the active child is a grid and the name is none of the things that grids have without keeping them -/
theorem C191_contains_partial (e : Env) (d : D) (s : String) (c : Nat) (ha : d.active = some c) (ht : e.target c = none) (hd : e.derived c s = false) (hx : e.crd c s = false) :
    (d.contains e (.key (.name s)) = .ok true ↔ ∃ g, d.get e (.key (.name s)) = .ok g) ∧
      (d.contains e (.key (.name s)) = .ok false ↔ d.get e (.key (.name s)) = .error .key) := by
  simp only [D.contains, D.get, ha, ht, D.inKids, gridHas, gridGet, hd, hx, D.getChild, D.raw, Bucket.getItem]
  cases d.kids.items.get? (.name s) with
  | some x => simp [Except.map]
  | none =>
    cases d.fields c (.name s) <;> simp

/-- C191 is violated: of a dataset without active child `name in ds` is a TypeError for all names but those of its children; so it is for a deferred one -/
theorem C191_empty_violated (e : Env) (d : D) (a : Arg) (ha : d.active = none ∨ ∃ c t, d.active = some c ∧ e.target c = some t) (h : d.inKids a = false) :
    d.contains e a = .error .type := by
  rcases ha with ha | ⟨c, t, ha, ht⟩
  · simp [D.contains, h, ha]
  · simp [D.contains, h, ha, ht]

/-- C191: activating a child by its handle: fields are then those of that child, and the children stay as they are; a key that is
no handle changes nothing -/
theorem C191_activate (e : Env) (d : D) (k : Key) :
    (∀ c, d.raw (.key k) = .ok c → ∃ d', d.activate (.key k) = .ok d' ∧ d'.active = some c ∧ (∀ a, d'.raw a = d.raw a) ∧
      (∀ a, d'.inKids a = d.inKids a) ∧ d'.fields = d.fields ∧
      (e.target c = none → ∀ s, d.fields c (.name s) = true → d'.getField e (.name s) = .ok (some (.field c s)))) ∧
    ((∀ c, d.raw (.key k) ≠ .ok c) → d.step e (.activate (.key k)) = d) := by
  constructor
  · intro c h
    refine ⟨{ d with active := some c }, by simp only [D.activate, h]; rfl, rfl, fun a => by cases a <;> rfl, fun a => by cases a <;> rfl, rfl, ?_⟩
    intro ht s hs
    simp [D.getField, ht, hs]
  · intro h
    cases hr : d.raw (.key k) with
    | ok c => exact absurd hr (h c)
    | error x => simp [D.step, D.op, D.activate, hr, Except.map]

/-- C191 is violated: `ds[name]` gives coordinates and computed fields of the active grid, `name in ds` is False for them -/
theorem C191_computed_violated (e : Env) (d : D) (s : String) (c : Nat) (ha : d.active = some c) (ht : e.target c = none) (hx : e.derived c s = true ∨ e.crd c s = true)
    (hf : d.fields c (.name s) = false) (hn : d.inKids (.key (.name s)) = false) :
    d.contains e (.key (.name s)) = .ok false ∧ d.get e (.key (.name s)) = .ok (.field c s) := by
  constructor
  · simp [D.contains, hn, ha, ht, gridHas, hf]
  · rcases hx with hx | hx <;> simp [D.get, hn, ha, ht, gridGet, hf, hx]

/-- C191 is violated: a child is in the dataset, but `ds[child]` and `del ds[child]` are KeyErrors -/
theorem C191_object_violated (e : Env) (f : Nat → Key → Bool) (ops : List DsetEdit.Op) (name : String) (c : Nat) :
    ∃ d, (run e (new f) ops).add name c true = .ok d ∧ d.contains e (.obj c) = .ok true ∧ d.get e (.obj c) = .error .key ∧ d.del e (.obj c) = .error .key := by
  obtain ⟨s', e', iv, hg, -⟩ := Bucket.setItem_ok ofNat (run_kids e f ops) [some (.name name)] c true false
  have hname : s'.items.get? (.name name) = some c := by
    rw [hg, if_pos]
    unfold Bucket.effHandles
    split <;> simp
  have hh : (s'.handles.get? c).isSome := (iv.live_iff c).mp ⟨_, c, hname, rfl⟩
  refine ⟨{ run e (new f) ops with kids := s', active := some c }, ?_, ?_, ?_, ?_⟩
  · simp only [D.add, e']
    rfl
  · simp [D.contains, D.inKids, hh]
  · simp [D.get, D.inKids, hh, D.getChild, D.raw, Except.map]
  · simp [D.del, D.getChild, D.raw, Except.map]

/-- C191: `remove_all_items` removes all children, and their grids' fields -/
theorem C191_removeAll (e : Env) (d : D) : d.removeAll.len = 0 ∧ (∀ a, d.removeAll.inKids a = false) ∧ (∀ a, d.removeAll.raw a = .error .key) ∧
    (∀ c k, d.removeAll.fields c k = true ↔ d.fields c k = true ∧ d.kids.hashLookup.get? c = none) := by
  refine ⟨rfl, ?_, ?_, ?_⟩
  · intro a; cases a <;> rfl
  · intro a; cases a <;> rfl
  · intro c k
    simp only [D.removeAll]
    cases d.kids.hashLookup.get? c <;> simp

/-- C191 is violated: after `remove_all_items` the active child is the one it was, and what it computes is still given -/
theorem C191_stale_violated (e : Env) (d : D) (c : Nat) (s : String) (ha : d.active = some c) (ht : e.target c = none) (hd : e.derived c s = true) :
    d.removeAll.active = some c ∧ d.removeAll.getField e (.name s) = .ok (some (.field c s)) := by
  refine ⟨ha, ?_⟩
  have : d.removeAll.active = some c := ha
  simp [D.getField, this, ht, hd]

/-- C191 is violated: `del ds[item]` of a temporal dataset raises always -/
theorem C191_temporal_violated {F : Type} (cs : List (Dataset.Time × Nested.Node F)) (i : Dataset.Item) : ∃ x, temporalDel cs i = .error x := by
  unfold temporalDel
  split <;> exact ⟨_, rfl⟩

/-- C191: without an active child, what is no child is a KeyError, and `get_field` gives None -/
theorem C191_inactive (e : Env) (d : D) (a : Arg) (k : Key) (ha : d.active = none) :
    (d.inKids a = false → d.get e a = .error .key) ∧ d.getField e k = .ok none := by
  refine ⟨fun h => ?_, ?_⟩
  · simp [D.get, h, ha]
  · simp [D.getField, ha]

/-- C191 is violated: with a deferred child that is active (as after `add_deferred`), no field of it is found: TypeError and
AttributeError, whatever it stands for -/
theorem C191_deferred_active_violated (e : Env) (d : D) (a : Arg) (k : Key) (c t : Nat) (ha : d.active = some c) (ht : e.target c = some t) :
    (d.inKids a = false → d.get e a = .error .type) ∧ d.getField e k = .error .attribute := by
  refine ⟨fun h => ?_, ?_⟩
  · simp [D.get, h, ha, ht]
  · simp [D.getField, ha, ht]

/-- objects: 0 and 1 are grids, 2 is deferred and stands for 3; grid 0 keeps rr and computes bx -/
def deEnv : Env := ⟨fun c => if c = 2 then some 3 else none, fun c s => c = 0 && s = "bx", fun _ s => s = "x"⟩
def deFields : Nat → Key → Bool := fun c k => c = 0 && k = .name "rr"

example : (run deEnv (new deFields) [.add "a" 0 true, .add "b" 1 false, .add "c" 2 false, .add "b" 0 true]).raw (.key (.name "b")) = .ok 0 ∧ deEnv.target 0 = none := by decide +kernel
example : (run deEnv (new deFields) [.add "a" 0 true, .add "c" 2 false]).raw (.key (.name "c")) = .ok 2 ∧ deEnv.target 2 = some 3 := by decide +kernel
example : (run deEnv (new deFields) [.add "a" 0 true]).fields 0 (.name "rr") = true ∧
    (run deEnv (new deFields) [.add "a" 0 true]).raw (.key (.name "rr")) = .error .key ∧ "rr" ≠ "a" := by decide +kernel
example : (run deEnv (new deFields) [.add "a" 0 true]).active = some 0 ∧ deEnv.derived 0 "bx" = true ∧ (new deFields).active = none ∧
    (run deEnv (new deFields) [.add "a" 0 true]).inKids (.key (.name "bx")) = false := by decide +kernel

end Viscid.Props
