import Verif.Lemmas.LoaderRefs
import Mathlib.Data.List.Forall2
import Mathlib.Data.List.Perm.Basic
/-!
# C145 loading and C146 unloading of files
-/
namespace Viscid.Props
open Viscid.Loader Viscid.Spec.Loader
open Viscid.Bucket (Inv)

/-- all names in the bucket are files that were made from these names -/
def Good (w : World) : Prop :=
  Inv id w.bucket ∧ ∀ h f, w.bucket.items.get? h = some f → ∃ i o, f = some i ∧ w.objs[i]? = some o ∧ ∀ n, h = .name n → o.group = [n]

theorem good_empty : Good empty := ⟨Bucket.init_inv id, by intro h f hf; simp [empty, Bucket.init, Dict.get?] at hf⟩

theorem good_same {w : World} (hw : Good w) (objs : List Obj) (hs : Same w.objs objs) : Good { w with objs := objs } := by
  refine ⟨hw.1, fun h f hf => ?_⟩
  obtain ⟨i, o, rfl, ho, hn⟩ := hw.2 h f hf
  obtain ⟨o', ho', hg, _⟩ := hs i o ho
  exact ⟨i, o', rfl, ho', fun n h => by rw [hg]; exact hn n h⟩

theorem good_set {w : World} (hw : Good w) (n : String) (i : Nat) (o : Obj) (ho : w.objs[i]? = some o) (hg : o.group = [n]) (ix ar : Bool) :
    ∃ b, setFile w n (some i) ix ar = ({ w with bucket := b }, none) ∧ Good { w with bucket := b } := by
  obtain ⟨b, e, hb, h1, h2, _, _⟩ := setFile_ok w n (some i) ix ar hw.1
  refine ⟨b, e, hb, fun h f hf => ?_⟩
  rcases h with m | k | k
  · simp only [h1] at hf
    split at hf
    · rename_i hm
      injection hf with hf
      exact ⟨i, o, hf.symm, ho, fun n' h => by injection h with h; rw [← h, hm]; exact hg⟩
    · exact hw.2 _ f hf
  · rcases h2 (.num k) with h | h
    · simp only [h, Option.some.injEq] at hf
      exact ⟨i, o, hf.symm, ho, fun n' h => by cases h⟩
    · simp only [h] at hf; exact hw.2 _ f hf
  · rcases h2 (.obj k) with h | h
    · simp only [h, Option.some.injEq] at hf
      exact ⟨i, o, hf.symm, ho, fun n' h => by cases h⟩
    · simp only [h] at hf; exact hw.2 _ f hf

theorem good_child {env : Env} (hf : Fine env) {w : World} (hw : Good w) (n : String) :
    ∃ w' f, loadChild env w n = (w', .ok f) ∧ Good w' ∧ Same w.objs w'.objs := by
  unfold loadChild
  split
  · cases hl : lookup w n with
    | some f =>
      obtain ⟨i, o, rfl, ho, hn⟩ := hw.2 _ f hl
      obtain ⟨b, e, hb⟩ := good_set hw n i o ho (hn n rfl) false true
      simp only [e]
      exact ⟨_, _, rfl, hb, Same.refl _⟩
    | none =>
      have hr := hf [n]
      simp only [hr]
      have hw' : Good { w with objs := w.objs ++ [⟨[n], n, [], env.container [n], true⟩] } := good_same hw _ (Same.append _ _)
      obtain ⟨b, e, hb⟩ := good_set hw' n w.objs.length ⟨[n], n, [], env.container [n], true⟩ (by simp) rfl false true
      simp only [e]
      exact ⟨_, _, rfl, hb, Same.append _ _⟩
  · exact ⟨_, _, rfl, hw, Same.refl _⟩

theorem good_kids {env : Env} (hf : Fine env) (ns : List String) : ∀ {w : World} (kids : List (String × Int)), Good w →
    ∃ w' ks, loadKids env w kids ns = (w', .ok ks) ∧ Good w' ∧ Same w.objs w'.objs := by
  induction ns with
  | nil => intro w kids hw; exact ⟨w, kids, rfl, hw, Same.refl _⟩
  | cons n ns ih =>
    intro w kids hw
    obtain ⟨w1, f, e, h1, s1⟩ := good_child hf hw n
    unfold loadKids
    rw [e]
    cases f with
    | none =>
      obtain ⟨w2, ks, e2, h2, s2⟩ := ih kids h1
      exact ⟨w2, ks, e2, h2, s1.trans s2⟩
    | some i =>
      obtain ⟨w2, ks, e2, h2, s2⟩ := ih (count kids n) h1
      exact ⟨w2, ks, e2, h2, s1.trans s2⟩

theorem good_group {env : Env} (hf : Fine env) {w : World} (hw : Good w) (n : String) :
    ∃ w' i o, loadGroup env w n [n] = (w', .ok (some i)) ∧ Good w' ∧ Same w.objs w'.objs ∧ w'.objs[i]? = some o ∧ o.group = [n] := by
  unfold loadGroup
  cases hl : lookup w n with
  | some f =>
    obtain ⟨i, o, rfl, ho, hn⟩ := hw.2 _ f hl
    obtain ⟨b, e, hb⟩ := good_set hw n i o ho (hn n rfl) true false
    simp only [e]
    exact ⟨_, i, o, rfl, hb, Same.refl _, ho, hn n rfl⟩
  | none =>
    obtain ⟨w1, ks, e1, h1, s1⟩ := good_kids hf (env.kids [n]) [] hw
    have hw' := good_same h1 _ (Same.append w1.objs [⟨[n], n, ks, env.container [n], true⟩])
    obtain ⟨b, e, hb⟩ := good_set hw' n w1.objs.length ⟨[n], n, ks, env.container [n], true⟩ (by simp) rfl true false
    simp only [construct, hf [n], e1, e]
    exact ⟨_, w1.objs.length, ⟨[n], n, ks, env.container [n], true⟩, rfl, hb, s1.trans (Same.append _ _), by simp, rfl⟩

theorem good_groups {env : Env} (hf : Fine env) (ns : List String) : ∀ {w : World}, Good w →
    ∃ w' fs, loadGroups env w (ns.map fun n => (n, [n])) = (w', .ok fs) ∧ Good w' ∧ Same w.objs w'.objs ∧
      List.Forall₂ (fun n f => ∃ i o, f = some i ∧ w'.objs[i]? = some o ∧ o.group = [n]) ns fs := by
  induction ns with
  | nil => intro w hw; exact ⟨w, [], rfl, hw, Same.refl _, .nil⟩
  | cons n ns ih =>
    intro w hw
    obtain ⟨w1, i, o, e, h1, s1, ho, hg⟩ := good_group hf hw n
    obtain ⟨w2, fs, e2, h2, s2, hfs⟩ := ih h1
    refine ⟨w2, some i :: fs, ?_, h2, s1.trans s2, .cons ?_ hfs⟩
    · simp only [List.map_cons, loadGroups, e, e2]
    · obtain ⟨o', ho', hg', _⟩ := s2 i o ho
      exact ⟨i, o', rfl, ho', hg'.trans hg⟩

theorem addType_perm {T : Type} [DecidableEq T] (t : T) (n : String) (d : List (T × List String)) :
    ((addType t n d).flatMap Prod.snd).Perm (d.flatMap Prod.snd ++ [n]) := by
  induction d with
  | nil => simp [addType]
  | cons p d ih =>
    obtain ⟨t', ns⟩ := p
    unfold addType
    split
    · simp only [List.flatMap_cons, List.append_assoc]
      exact (List.perm_append_comm).append_left ns
    · simp only [List.flatMap_cons, List.append_assoc]
      exact ih.append_left ns

/-- names are with their types, and types come once -/
def ByType {T : Type} [DecidableEq T] (typeOf : String → Option T) (d : List (T × List String)) : Prop :=
  (d.map Prod.fst).Nodup ∧ ∀ p ∈ d, ∀ n ∈ p.2, typeOf n = some p.1

theorem mem_addType {T : Type} [DecidableEq T] (t : T) (n : String) (d : List (T × List String)) (p : T × List String) (h : p ∈ addType t n d) :
    p.1 = t ∨ p ∈ d := by
  induction d with
  | nil => simp [addType] at h; exact .inl (by rw [h])
  | cons q d ih =>
    unfold addType at h
    split at h
    · rename_i hq
      rcases List.mem_cons.mp h with rfl | h
      · exact .inl hq
      · exact .inr (List.mem_cons_of_mem _ h)
    · rcases List.mem_cons.mp h with rfl | h
      · exact .inr (by simp)
      · rcases ih h with h | h
        · exact .inl h
        · exact .inr (List.mem_cons_of_mem _ h)

theorem addType_sorted {T : Type} [DecidableEq T] {typeOf : String → Option T} (t : T) (n : String) (hn : typeOf n = some t)
    (d : List (T × List String)) (hd : ByType typeOf d) :
    ByType typeOf (addType t n d) ∧ ∀ t', ((addType t n d).flatMap Prod.snd).filter (fun m => typeOf m = some t') =
      (d.flatMap Prod.snd ++ [n]).filter (fun m => typeOf m = some t') := by
  induction d with
  | nil => exact ⟨⟨by simp [addType], by simp [addType, hn]⟩, fun t' => by simp [addType]⟩
  | cons q d ih =>
    obtain ⟨t1, ns⟩ := q
    obtain ⟨hk, hm⟩ := hd
    simp only [List.map_cons, List.nodup_cons] at hk
    have hd' : ByType typeOf d := ⟨hk.2, fun p hp => hm p (by simp [hp])⟩
    obtain ⟨⟨ih1, ih2⟩, ih3⟩ := ih hd'
    have h1 := hm (t1, ns) (by simp)
    unfold addType
    split
    · rename_i ht
      have ht : t1 = t := ht
      subst ht
      refine ⟨⟨by simpa using hk, ?_⟩, ?_⟩
      · intro p hp m hmp
        rcases List.mem_cons.mp hp with rfl | hp
        · rcases List.mem_append.mp hmp with h | h
          · exact h1 m h
          · simp at h; rw [h]; exact hn
        · exact hm p (by simp [hp]) m hmp
      · intro t'
        simp only [List.flatMap_cons, List.filter_append, List.append_assoc]
        congr 1
        by_cases ht' : t' = t1
        · subst ht'
          have : (d.flatMap Prod.snd).filter (fun m => decide (typeOf m = some t')) = [] := by
            rw [List.filter_eq_nil_iff]
            intro m hmm
            obtain ⟨p, hp, hpm⟩ := List.mem_flatMap.mp hmm
            have := hm p (by simp [hp]) m hpm
            simp only [this, Option.some.injEq, decide_eq_true_eq]
            intro h
            exact hk.1 (List.mem_map.mpr ⟨p, hp, h⟩)
          rw [this]; simp
        · have : [n].filter (fun m => decide (typeOf m = some t')) = [] := by
            simp [hn, Ne.symm ht']
          rw [this]; simp
    · rename_i ht
      refine ⟨⟨?_, ?_⟩, ?_⟩
      · simp only [List.map_cons, List.nodup_cons]
        refine ⟨fun h => ?_, ih1⟩
        obtain ⟨p, hp, hpt⟩ := List.mem_map.mp h
        rcases mem_addType t n d p hp with h | h
        · exact ht (hpt.symm.trans h)
        · exact hk.1 (List.mem_map.mpr ⟨p, h, hpt⟩)
      · intro p hp m hmp
        rcases List.mem_cons.mp hp with rfl | hp
        · exact h1 m hmp
        · exact ih2 p hp m hmp
      · intro t'
        have := ih3 t'
        simp only [List.flatMap_cons, List.filter_append, List.append_assoc] at this ⊢
        rw [this]

theorem byType_perm {T : Type} [DecidableEq T] (typeOf : String → Option T) (names : List String) :
    ∀ d, ByType typeOf d → (∀ n ∈ names, (typeOf n).isSome) → ∃ d', byType typeOf d names = some d' ∧
      (d'.flatMap Prod.snd).Perm (d.flatMap Prod.snd ++ names) ∧
      ∀ t, (d'.flatMap Prod.snd).filter (fun m => typeOf m = some t) = (d.flatMap Prod.snd ++ names).filter (fun m => typeOf m = some t) := by
  induction names with
  | nil => intro d _ _; exact ⟨d, rfl, by simp, by simp⟩
  | cons n ns ih =>
    intro d hd h
    obtain ⟨t, ht⟩ := Option.isSome_iff_exists.mp (h n (by simp))
    obtain ⟨h1, h2⟩ := addType_sorted t n ht d hd
    obtain ⟨d', e, hp, hf⟩ := ih (addType t n d) h1 (fun m hm => h m (by simp [hm]))
    refine ⟨d', by simp only [byType, ht, e], hp.trans ?_, fun t' => ?_⟩
    · have := (addType_perm t n d).append_right ns
      simpa using this
    · rw [hf t', List.filter_append, h2 t', ← List.filter_append, List.append_assoc]
      rfl

theorem good_files {T : Type} [DecidableEq T] {typeOf : String → Option T} {ft : T → Ftype} (hsingle : ∀ t, Single (ft t)) {env : Env}
    (hf : Fine env) {w : World} (hw : Good w) (names : List String) (ht : ∀ n ∈ names, (typeOf n).isSome) :
    ∃ w' fs names', loadFiles env typeOf ft w names = (w', .ok fs) ∧ Good w' ∧ names'.Perm names ∧
      (∀ t, names'.filter (fun m => typeOf m = some t) = names.filter (fun m => typeOf m = some t)) ∧
      List.Forall₂ (fun n f => ∃ i o, f = some i ∧ w'.objs[i]? = some o ∧ o.group = [n]) names' fs := by
  obtain ⟨d, e, hp, hft⟩ := byType_perm typeOf names [] ⟨by simp, by simp⟩ ht
  have hl : (d.flatMap fun p => ((ft p.1).groups p.2).map fun g => (collectiveName (ft p.1) g, g)) =
      (d.flatMap Prod.snd).map fun n => (n, [n]) := by
    rw [List.map_flatMap]
    refine congrArg List.flatten (List.map_congr_left fun p _ => ?_)
    rw [hsingle p.1 p.2, List.map_map]
    rfl
  obtain ⟨w', fs, e2, h2, _, hfs⟩ := good_groups hf (d.flatMap Prod.snd) hw
  refine ⟨w', fs, _, ?_, h2, by simpa using hp, by simpa using hft, hfs⟩
  unfold loadFiles
  simp only [e, hl, e2]

theorem good_sub {w w' : World} (hw : Good w) (hi : Inv id w'.bucket)
    (hsub : ∀ a f, w'.bucket.items.get? a = some f → w.bucket.items.get? a = some f) (hs : Same w.objs w'.objs) : Good w' := by
  refine ⟨hi, fun h f hf => ?_⟩
  obtain ⟨i, o, rfl, ho, hn⟩ := hw.2 h f (hsub h f hf)
  obtain ⟨o', ho', hg, _⟩ := hs i o ho
  exact ⟨i, o', rfl, ho', fun n h => by rw [hg]; exact hn n h⟩

theorem good_unloadOwn {w : World} (hw : Good w) (i : Nat) (n : Int) : Good (unloadOwn w i n).1 := by
  unfold unloadOwn
  dsimp only
  have hs : Good { w with objs := w.objs.modify i fun o => { o with full := false } } := good_same hw _ (Same.modify _ _)
  split
  · exact hs
  · split
    · rename_i b he
      rcases Bucket.removeReference_cases hw.1 (some i) (some (Handle.obj (some i))) n with
        ⟨j, c, _, _, _, ⟨_, b', e, hb, hit, _⟩ | ⟨_, b', e, hb, hit, _⟩⟩ | ⟨_, ⟨_, e⟩ | ⟨_, _, _, e⟩⟩
      · rw [e] at he; cases he
        refine good_sub hw hb (fun a f hf => ?_) (Same.modify _ _)
        simp only [hit] at hf
        exact hf
      · rw [e] at he; cases he
        refine good_sub hw hb (fun a f hf => ?_) (Same.modify _ _)
        simp only [hit] at hf
        split at hf
        · cases hf
        · rename_i k hk
          split at hf
          · cases hf
          · rw [hk]; exact hf
      · rw [e] at he; cases he
      · rw [e] at he; cases he
    · exact hs

theorem good_unloadKids (ks : List (String × Int)) : ∀ {w : World}, Good w → Good (unloadKids w ks).1 := by
  induction ks with
  | nil => intro w hw; exact hw
  | cons p ks ih =>
    intro w hw
    obtain ⟨h, n⟩ := p
    unfold unloadKids
    repeat' split
    all_goals try exact hw
    · rename_i i _ _ o _ _ _ w' e hu
      have := good_unloadOwn hw i (if o.container then 1 else n)
      rw [hu] at this; exact this
    · rename_i i _ _ o _ _ _ w' hu
      have := good_unloadOwn hw i (if o.container then 1 else n)
      rw [hu] at this; exact ih this

theorem good_unload {w : World} (hw : Good w) (i : Nat) : Good (unload w i).1 := by
  unfold unload
  split
  · exact hw
  · rename_i o _
    have h := good_unloadKids o.kids hw
    split
    · rename_i w' e hu; rw [hu] at h; exact h
    · rename_i w' hu; rw [hu] at h; exact good_unloadOwn h i 1

theorem good_unloadAll (l : List (Option Nat)) : ∀ {w : World}, Good w → Good (unloadAll w l).1 := by
  induction l with
  | nil =>
    intro w hw
    exact ⟨Bucket.removeAll_inv id w.bucket, fun h f hf => by simp [unloadAll, Bucket.removeAll, Bucket.init, Dict.get?] at hf⟩
  | cons f l ih =>
    intro w hw
    cases f with
    | none => exact hw
    | some i =>
      have h := good_unload hw i
      unfold unloadAll
      split
      · rename_i w' hu; rw [hu] at h; exact ih h
      · rename_i w' hu; rw [hu] at h; exact ih h
      · rename_i w' e _ hu; rw [hu] at h; exact h

theorem good_error {T : Type} [DecidableEq T] {typeOf : String → Option T} (names : List String) :
    ∀ d, ¬ (∀ n ∈ names, (typeOf n).isSome) → byType typeOf d names = none := by
  induction names with
  | nil => intro d h; exact absurd (by simp) h
  | cons n ns ih =>
    intro d h
    unfold byType
    cases ht : typeOf n with
    | none => rfl
    | some t =>
      refine ih _ fun h' => h ?_
      intro m hm
      rcases List.mem_cons.mp hm with rfl | hm
      · simp [ht]
      · exact h' m hm

theorem reach_good {T : Type} [DecidableEq T] {typeOf : String → Option T} {ft : T → Ftype} (hsingle : ∀ t, Single (ft t)) {w : World}
    (hw : Reach typeOf ft w) : Good w := by
  induction hw with
  | start => exact good_empty
  | load env names hf _ ih =>
    by_cases ht : ∀ n ∈ names, (typeOf n).isSome
    · obtain ⟨w', fs, _, e, h, _⟩ := good_files hsingle hf ih names ht
      rw [e]; exact h
    · unfold loadFiles
      rw [good_error names [] ht]
      exact ih
  | unload n _ ih =>
    unfold unloadFile
    split
    · exact ih
    · exact ih
    · exact good_unload ih _
  | all _ ih => exact good_unloadAll _ ih

/-- C145: with readers that group no files, whatever has been loaded and unloaded before, `load_files` gives one file for each name, made from
    that name, and those of the same type in the order of the names. -/
theorem C145_load_partial {T : Type} [DecidableEq T] (typeOf : String → Option T) (ft : T → Ftype) (hsingle : ∀ t, Single (ft t)) (env : Env)
    (hf : Fine env) (w : World) (hw : Reach typeOf ft w) (names : List String) (ht : ∀ n ∈ names, (typeOf n).isSome) :
    ∃ w' fs names', loadFiles env typeOf ft w names = (w', .ok fs) ∧ names'.Perm names ∧
      (∀ t, names'.filter (fun m => typeOf m = some t) = names.filter (fun m => typeOf m = some t)) ∧
      List.Forall₂ (fun n f => ∃ i o, f = some i ∧ w'.objs[i]? = some o ∧ o.group = [n]) names' fs := by
  obtain ⟨w', fs, names', e, _, hp, ht, h⟩ := good_files hsingle hf (reach_good hsingle hw) names ht
  exact ⟨w', fs, names', e, hp, ht, h⟩

/-- C145: types that cannot be determined are a RuntimeError, before anything is loaded -/
theorem C145_unknown {T : Type} [DecidableEq T] (typeOf : String → Option T) (ft : T → Ftype) (env : Env) (w : World) (names : List String)
    (h : ∃ n ∈ names, typeOf n = none) : loadFiles env typeOf ft w names = (w, .error .runtime) := by
  unfold loadFiles
  rw [good_error names []]
  rintro h'
  obtain ⟨n, hn, e⟩ := h
  have := h' n hn
  rw [e] at this
  cases this

theorem load_one {T : Type} [DecidableEq T] {typeOf : String → Option T} {ft : T → Ftype} (hsingle : ∀ t, Single (ft t)) (env : Env) (w : World)
    (n : String) (t : T) (ht : typeOf n = some t) : loadFiles env typeOf ft w [n] = match loadGroup env w n [n] with
      | (w, .error e) => (w, .error e)
      | (w, .ok f) => (w, .ok [f]) := by
  unfold loadFiles
  have h1 : byType typeOf [] [n] = some [(t, [n])] := by simp [byType, ht, addType]
  rw [h1]
  simp only [List.flatMap_cons, List.flatMap_nil, hsingle t [n], List.map_cons, List.map_nil, List.append_nil, collectiveName, loadGroups]
  cases loadGroup env w n [n] with
  | mk w r => cases r <;> rfl

/-- C145: a file that is loaded already is not read again: the same one is given, and nothing is made, whatever has become of the file -/
theorem C145_again {T : Type} [DecidableEq T] (typeOf : String → Option T) (ft : T → Ftype) (hsingle : ∀ t, Single (ft t)) (env : Env)
    (w : World) (hw : Reach typeOf ft w) (n : String) (ht : (typeOf n).isSome) (i : Nat)
    (hi : w.bucket.items.get? (.name n) = some (some i)) :
    ∃ w', loadFiles env typeOf ft w [n] = (w', .ok [some i]) ∧ w'.objs = w.objs ∧
      ∀ m, w'.bucket.items.get? (.name m) = w.bucket.items.get? (.name m) := by
  obtain ⟨t, ht⟩ := Option.isSome_iff_exists.mp ht
  obtain ⟨b, e, _, h1, _⟩ := setFile_ok w n (some i) true false (reach_good hsingle hw).1
  refine ⟨{ w with bucket := b }, ?_, rfl, fun m => ?_⟩
  · rw [load_one hsingle env w n t ht]
    have hl : lookup w n = some (some i) := hi
    simp only [loadGroup, hl, e]
  · show b.items.get? (.name m) = _
    rw [h1]
    split
    · rename_i h; rw [h, hi]
    · rfl

theorem loadChild_length (env : Env) (w : World) (n : String) : w.objs.length ≤ (loadChild env w n).1.objs.length := by
  have hs : ∀ (w : World) (n : String) f ix ar, (setFile w n f ix ar).1.objs = w.objs := by
    intro w n f ix ar
    unfold setFile
    split <;> rfl
  have hp : ∀ (w : World) (n : String) f ix ar, ∃ e, setFile w n f ix ar = ((setFile w n f ix ar).1, e) := fun _ _ _ _ _ => ⟨_, rfl⟩
  have key : ∀ (w' : World) (f : Option Nat), w.objs.length ≤ w'.objs.length →
      w.objs.length ≤ (match setFile w' n f false true with
        | (w, none) => (w, (Except.ok f : Except Exc (Option Nat)))
        | (w, some e) => (w, .error e)).1.objs.length := by
    intro w' f h
    obtain ⟨e, he⟩ := hp w' n f false true
    rw [he]
    cases e <;> (simp only [hs]; exact h)
  unfold loadChild
  split
  · cases lookup w n with
    | some f => exact key w f (Nat.le_refl _)
    | none =>
      cases env.read [n] with
      | value => exact Nat.le_refl _
      | io => exact key w none (Nat.le_refl _)
      | ok => exact key _ _ (by simp)
  · exact Nat.le_refl _

theorem loadKids_length (env : Env) (ks : List String) : ∀ (w : World) (d : List (String × Int)), w.objs.length ≤ (loadKids env w d ks).1.objs.length := by
  induction ks with
  | nil => intro w d; exact Nat.le_refl _
  | cons k ks ih =>
    intro w d
    have h := loadChild_length env w k
    unfold loadKids
    split
    · rename_i e; rw [e] at h; exact h
    · rename_i w' e; rw [e] at h; exact Nat.le_trans h (ih w' d)
    · rename_i w' _ e; rw [e] at h; exact Nat.le_trans h (ih w' _)

/-- C145: a file that is not loaded is read: a new one is made, from that name, and it has contents -/
theorem C145_new {T : Type} [DecidableEq T] (typeOf : String → Option T) (ft : T → Ftype) (hsingle : ∀ t, Single (ft t)) (env : Env)
    (hf : Fine env) (w : World) (hw : Reach typeOf ft w) (n : String) (ht : (typeOf n).isSome)
    (hi : w.bucket.items.get? (.name n) = none) :
    ∃ w' i o, loadFiles env typeOf ft w [n] = (w', .ok [some i]) ∧ w.objs.length ≤ i ∧ w'.objs[i]? = some o ∧ o.group = [n] ∧ o.full = true ∧
      Holds w' n o := by
  obtain ⟨t, ht⟩ := Option.isSome_iff_exists.mp ht
  have hg := reach_good hsingle hw
  obtain ⟨w1, d, e1, hg1, hfr⟩ := good_kids hf (env.kids [n]) [] hg
  have hlen : w.objs.length ≤ w1.objs.length := by
    have := loadKids_length env (env.kids [n]) w []
    rw [e1] at this
    exact this
  let o : Obj := ⟨[n], n, d, env.container [n], true⟩
  obtain ⟨b, e, _, h1, _⟩ := setFile_ok { w1 with objs := w1.objs ++ [o] } n (some w1.objs.length) true false hg1.1
  refine ⟨⟨b, w1.objs ++ [o]⟩, w1.objs.length, o, ?_, hlen, by simp, rfl, rfl, w1.objs.length, ?_, by simp⟩
  · rw [load_one hsingle env w n t ht]
    have hl : lookup w n = none := hi
    simp only [loadGroup, hl, construct, hf [n], e1]
    simp only [o] at e
    simp only [e, o]
  · show b.items.get? (.name n) = _
    rw [h1, if_pos rfl]

/-- a directory of three files -/
def dir : Env := ⟨fun _ => true, fun _ => .ok, fun _ => [], fun _ => false⟩

/-- a reader that makes one file of all its names, as readers of time series do -/
def series : Unit → Ftype := fun _ => ⟨fun names => [names], fun _ => "run.STAR.bin"⟩

/-- a reader that groups nothing -/
def plain : Unit → Ftype := fun _ => ⟨fun names => names.map fun n => [n], fun _ => ""⟩

theorem plain_single : ∀ t, Single (plain t) := fun _ _ => rfl

/-- C145 is false of readers that group files: other files of a time series, loaded later, are the ones loaded before -/
theorem C145_group_violated : ∃ (w1 w2 : World) (o : Obj),
    loadFiles dir (fun _ => some ()) series empty ["run.1.bin", "run.2.bin"] = (w1, .ok [some 0]) ∧
    loadFiles dir (fun _ => some ()) series w1 ["run.2.bin", "run.3.bin"] = (w2, .ok [some 0]) ∧
    w2.objs[0]? = some o ∧ o.group = ["run.1.bin", "run.2.bin"] := by
  refine ⟨_, _, _, rfl, rfl, rfl, ?_⟩
  decide +kernel

/-- C145 is false if a file cannot be read at first: there is None for it, and there still is if it can be read later -/
theorem C145_failed_violated : ∃ (w1 w2 : World),
    loadFiles { dir with read := fun _ => .io } (fun _ => some ()) plain empty ["run.1.bin"] = (w1, .ok [none]) ∧
    loadFiles dir (fun _ => some ()) plain w1 ["run.1.bin"] = (w2, .ok [none]) ∧ w2.objs = [] :=
  ⟨_, _, rfl, rfl, rfl⟩

/-- C145: one name after another may be loaded -/
example : ∃ w : World, Reach (fun _ => some ()) plain w ∧ w.bucket.items.get? (.name "b") = some (some 1) ∧ w.bucket.items.get? (.name "a") = none :=
  ⟨_, .unload "a" (.load dir ["a", "b"] (fun _ => rfl) .start), by decide +kernel, by decide +kernel⟩

/-- C146: whatever files are loaded and unloaded, with whichever children, no exception is raised, children are in the bucket as long as one of the files
    that have them is loaded, and no longer, and so are the files themselves; if nothing is loaded, the bucket is empty. -/
theorem C146_references_partial (leaf : String → Prop) (past : List Ev) (h : Possible leaf past) :
    (exec past).2 = false ∧
    (∀ c, leaf c → ((∃ o, Holds (exec past).1 c o) ↔ ∃ p ∈ live past, c ∈ p.2)) ∧
    (∀ n, ¬ leaf n → ((∃ o, Holds (exec past).1 n o) ↔ n ∈ (live past).map Prod.fst)) ∧
    (∀ n o, Holds (exec past).1 n o → o.handle = n) ∧
    (live past = [] → ∀ a, (exec past).1.bucket.items.get? a = none) := by
  obtain ⟨h1, A, hr, hm⟩ := exec_rep leaf past h
  have hold : ∀ n, (∃ o, Holds (exec past).1 n o) ↔ (A n).isSome := by
    intro n
    constructor
    · rintro ⟨o, i, h1, h2⟩
      obtain ⟨v, _, hv, _⟩ := hr.name h1
      rw [hv]; rfl
    · intro hs
      obtain ⟨v, hv⟩ := Option.isSome_iff_exists.mp hs
      obtain ⟨i, o, g1, g2, _⟩ := hr.some n v hv
      exact ⟨o, i, g1, g2⟩
  refine ⟨h1, fun c hc => ?_, fun n hn => ?_, ?_, ?_⟩
  · rw [hold, hm.leaves c hc]
    have ht := total_zero (live past) c
    by_cases h0 : total (live past) c = 0
    · simp only [h0, if_true, Option.isSome_none, Bool.false_eq_true, false_iff]
      exact ht.mp h0
    · simp only [h0, if_false, Option.isSome_some, true_iff]
      exact Classical.byContradiction fun h => h0 (ht.mpr h)
  · rw [hold]
    constructor
    · intro hs
      refine Classical.byContradiction fun h => ?_
      rw [hm.gone n hn h] at hs
      cases hs
    · intro hmem
      obtain ⟨⟨n', ks⟩, hp, rfl⟩ := List.mem_map.mp hmem
      rw [hm.here _ ks hp]; rfl
  · rintro n o ⟨i, g1, g2⟩
    obtain ⟨v, o', _, ho', hh, _⟩ := hr.name g1
    rw [g2] at ho'
    cases ho'
    exact hh
  · intro hlive a
    cases ha : (exec past).1.bucket.items.get? a with
    | none => rfl
    | some j =>
      have hj : ((exec past).1.bucket.refCount.get? j).isSome := by
        rw [hr.inv.refs]
        exact (hr.inv.live_iff _).mp ⟨a, j, ha, rfl⟩
      obtain ⟨i, n, rfl, hl⟩ := hr.named j hj
      obtain ⟨v, _, hv, _⟩ := hr.name hl
      by_cases hn : leaf n
      · rw [hm.leaves n hn, hlive] at hv
        simp [total] at hv
      · rw [hm.gone n hn (by rw [hlive]; simp)] at hv
        cases hv

/-- C146: hypotheses are met: two files share a child, and each has one of its own; one is unloaded -/
example : Possible (fun n => n ∈ ["c", "d", "e"]) [.unload "a.xdmf", .load "b.xdmf" ["c", "e", "c"], .load "a.xdmf" ["d", "c"]] ∧
    live [.unload "a.xdmf", .load "b.xdmf" ["c", "e", "c"], .load "a.xdmf" ["d", "c"]] = [("b.xdmf", ["c", "e", "c"])] := by
  refine ⟨?_, by decide +kernel⟩
  simp [Possible, live]

/-- what unloading leaves: fewer handles, the same files but for contents -/
structure Kept (w w' : World) : Prop where
  inv : Inv id w'.bucket
  sub : ∀ a f, w'.bucket.items.get? a = some f → w.bucket.items.get? a = some f
  same : Same w.objs w'.objs

theorem Kept.refl {w : World} (h : Inv id w.bucket) : Kept w w := ⟨h, fun _ _ h => h, Same.refl _⟩

theorem Kept.trans {a b c : World} (h : Kept a b) (h' : Kept b c) : Kept a c :=
  ⟨h'.inv, fun x f hx => h.sub x f (h'.sub x f hx), h.same.trans h'.same⟩

theorem kept_unloadOwn {w : World} (hw : Inv id w.bucket) (i : Nat) (n : Int) :
    Kept w (unloadOwn w i n).1 ∧ ((unloadOwn w i n).2 = none ∨ (unloadOwn w i n).2 = some .key) := by
  unfold unloadOwn
  dsimp only
  have hs : Kept w { w with objs := w.objs.modify i fun o => { o with full := false } } := ⟨hw, fun _ _ h => h, Same.modify _ _⟩
  split
  · exact ⟨hs, .inl rfl⟩
  · split
    · rename_i b he
      refine ⟨?_, .inl rfl⟩
      rcases Bucket.removeReference_cases hw (some i) (some (Handle.obj (some i))) n with
        ⟨j, c, _, _, _, ⟨_, b', e, hb, hit, _⟩ | ⟨_, b', e, hb, hit, _⟩⟩ | ⟨_, ⟨_, e⟩ | ⟨_, _, _, e⟩⟩
      · rw [e] at he; cases he
        refine ⟨hb, fun a f hf => ?_, Same.modify _ _⟩
        simp only [hit] at hf
        exact hf
      · rw [e] at he; cases he
        refine ⟨hb, fun a f hf => ?_, Same.modify _ _⟩
        simp only [hit] at hf
        split at hf
        · cases hf
        · rename_i k hk
          split at hf
          · cases hf
          · rw [hk]; exact hf
      · rw [e] at he; cases he
      · rw [e] at he; cases he
    · exact ⟨hs, .inr rfl⟩

/-- under names of leaves there are files without children -/
def Leaves (leaf : String → Prop) (w : World) : Prop :=
  ∀ c f, leaf c → w.bucket.items.get? (.name c) = some f → ∃ i o, f = some i ∧ w.objs[i]? = some o ∧ o.kids = []

theorem Leaves.kept {leaf : String → Prop} {w w' : World} (h : Leaves leaf w) (hk : Kept w w') : Leaves leaf w' := by
  intro c f hc hf
  obtain ⟨i, o, rfl, ho, hoc⟩ := h c f hc (hk.sub _ _ hf)
  obtain ⟨o', ho', _, _, h4, _⟩ := hk.same i o ho
  exact ⟨i, o', rfl, ho', h4.trans hoc⟩

theorem kept_unloadKids {leaf : String → Prop} (ks : List (String × Int)) : ∀ {w : World}, Inv id w.bucket → Leaves leaf w → (∀ p ∈ ks, leaf p.1) →
    Kept w (unloadKids w ks).1 ∧ ((unloadKids w ks).2 = none ∨ (unloadKids w ks).2 = some .key) := by
  induction ks with
  | nil => intro w hw _ _; exact ⟨Kept.refl hw, .inl rfl⟩
  | cons p ks ih =>
    intro w hw hl hp
    obtain ⟨h, n⟩ := p
    have hlk : lookup w h = w.bucket.items.get? (.name h) := rfl
    unfold unloadKids
    cases hg : lookup w h with
    | none => exact ⟨Kept.refl hw, .inr rfl⟩
    | some f =>
      obtain ⟨i, o, rfl, ho, hk⟩ := hl h f (hp (h, n) (by simp)) (hlk ▸ hg)
      simp only [ho, hk]
      simp only [ne_eq, not_true_eq_false, if_false]
      have key := kept_unloadOwn hw i (if o.container then 1 else n)
      cases hu : unloadOwn w i (if o.container then 1 else n) with
      | mk w' e =>
        rw [hu] at key
        obtain ⟨k1, k2⟩ := key
        cases e with
        | some e => exact ⟨k1, k2⟩
        | none =>
          obtain ⟨j1, j2⟩ := ih k1.inv (hl.kept k1) (fun q hq => hp q (by simp [hq]))
          exact ⟨k1.trans j1, j2⟩

theorem kept_unloadAll {leaf : String → Prop} (l : List (Option Nat)) : ∀ {w : World}, Inv id w.bucket → Leaves leaf w →
    (∀ f ∈ l, ∃ i o, f = some i ∧ w.objs[i]? = some o ∧ ∀ p ∈ o.kids, leaf p.1) →
    (unloadAll w l).2 = none ∧ ∀ a, (unloadAll w l).1.bucket.items.get? a = none := by
  induction l with
  | nil => intro w _ _ _; exact ⟨rfl, fun a => rfl⟩
  | cons f l ih =>
    intro w hw hl hf
    obtain ⟨i, o, rfl, ho, hk⟩ := hf f (by simp)
    have key : Kept w (unload w i).1 ∧ ((unload w i).2 = none ∨ (unload w i).2 = some .key) := by
      unfold unload
      rw [ho]
      have h1 := kept_unloadKids o.kids hw hl hk
      dsimp only
      cases hu : unloadKids w o.kids with
      | mk w' e =>
        rw [hu] at h1
        obtain ⟨k1, k2⟩ := h1
        cases e with
        | some e => exact ⟨k1, k2⟩
        | none =>
          obtain ⟨j1, j2⟩ := kept_unloadOwn k1.inv i 1
          exact ⟨k1.trans j1, j2⟩
    unfold unloadAll
    cases hu : unload w i with
    | mk w' e =>
      rw [hu] at key
      obtain ⟨k1, k2⟩ := key
      have hrest := ih k1.inv (hl.kept k1) fun f hf' => by
        obtain ⟨i', o', rfl, ho', hk'⟩ := hf f (by simp [hf'])
        obtain ⟨o'', h1, _, _, h4, _⟩ := k1.same i' o' ho'
        exact ⟨i', o'', rfl, h1, by rw [h4]; exact hk'⟩
      rcases k2 with h | h
      · simp only at h; subst h; exact hrest
      · simp only at h; subst h; exact hrest

/-- C146: `unload_all_files` leaves nothing in the bucket, and raises nothing, whatever was loaded and unloaded -/
theorem C146_all (leaf : String → Prop) (past : List Ev) (h : Possible leaf past) :
    (unloadAllFiles (exec past).1).2 = none ∧ ∀ a, (unloadAllFiles (exec past).1).1.bucket.items.get? a = none := by
  obtain ⟨_, A, hr, hm⟩ := exec_rep leaf past h
  refine kept_unloadAll (leaf := leaf) _ hr.inv ?_ ?_
  · intro c f hc hf
    have hl : lookup (exec past).1 c = some f := hf
    cases hA : A c with
    | none => rw [hr.none c hA] at hl; cases hl
    | some v =>
      obtain ⟨i, o, g1, g2, _, g4, _⟩ := hr.some c v hA
      rw [hl] at g1
      cases g1
      exact ⟨i, o, rfl, g2, g4.trans (hm.leafAt hc v hA).1⟩
  · intro f hf
    obtain ⟨⟨k, f'⟩, hp, rfl⟩ := List.mem_map.mp hf
    have hk : ((exec past).1.bucket.hashLookup.get? k).isSome := (Dict.mem_keys_iff _ _).mp (List.mem_map.mpr ⟨_, hp, rfl⟩)
    have hkf : f' = k := by
      have : (exec past).1.bucket.hashLookup.get? k = some f' := Dict.get?_of_mem _ hr.inv.wfL hp
      exact hr.inv.lookup_key k f' this
    subst hkf
    rw [hr.inv.lookup, ← hr.inv.refs] at hk
    obtain ⟨i, n, e, hl⟩ := hr.named _ hk
    obtain ⟨v, o, hv, ho, _, hkids, _⟩ := hr.name hl
    refine ⟨i, o, e, ho, ?_⟩
    rw [hkids]
    intro p hp
    by_cases hn : leaf n
    · rw [(hm.leafAt hn v hv).1] at hp
      cases hp
    · by_cases hmem : n ∈ (live past).map Prod.fst
      · obtain ⟨⟨n', ks⟩, hq, rfl⟩ := List.mem_map.mp hmem
        have h2 := hm.here _ ks hq
        rw [hv] at h2
        cases h2
        have hpk : (Dict.get? (ks.foldl count []) p.1).isSome := (Dict.mem_keys_iff _ _).mp (List.mem_map.mpr ⟨p, hp, rfl⟩)
        rw [(foldl_count ks [] Dict.WF_nil (by intro c v h; cases h)).2] at hpk
        split at hpk
        · rename_i hm'; exact (hm.kinds _ hq).2 _ hm'
        · cases hpk
      · rw [hm.gone n hn hmem] at hv; cases hv

/-- C146 is false of `remove_item`: a file with one reference is a KeyError, since unloading removes it from the bucket already -/
theorem C146_remove_violated (w : World) (hw : Inv id w.bucket) (i : Nat) (o : Obj) (ho : w.objs[i]? = some o) (hk : o.kids = [])
    (hr : w.bucket.refCount.get? (some i) = some 1) : (removeFile w i).2 = some .key := by
  obtain ⟨b, e, hb, h1, h2⟩ := unloadOwn_ok w i 1 1 hw hr
  unfold removeFile
  have : unload w i = ({ bucket := b, objs := w.objs.modify i fun o => { o with full := false } }, none) := by
    unfold unload
    rw [ho]
    simp only [hk, unloadKids, e]
  rw [this]
  dsimp only
  have hm : ¬ Bucket.Live id b (some i) := by
    intro h
    have := (hb.live_iff _).mp h
    rw [← hb.refs, h2, if_pos rfl, if_pos (by decide)] at this
    cases this
  have := Bucket.removeItem_missing hb (some i) hm
  rw [this]

/-- it is, for any file just loaded -/
example : (removeFile (loadFiles dir (fun _ => some ()) plain empty ["run.1.bin"]).1 0).2 = some .key := by decide +kernel

/-- two files that have the same child -/
def two : World := (exec [.load "b.xdmf" ["c.h5"], .load "a.xdmf" ["c.h5"]]).1

/-- C146 is false if a file is unloaded twice: a reference of another file goes, so that the child of that one is gone -/
theorem C146_twice_violated : (two.objs[1]?).map Obj.handle = some "a.xdmf" ∧ (two.objs[2]?).map Obj.kids = some [("c.h5", 1)] ∧
    (unload two 1).2 = none ∧ (unload (unload two 1).1 1).2 = some .key ∧ lookup (unload (unload two 1).1 1).1 "c.h5" = none ∧
    (unload (unload (unload two 1).1 1).1 2).2 = some .key := by decide +kernel

/-- C146 is false of contents: unloading a file empties a child that another file has, too -/
theorem C146_shared_violated : lookup (unload two 1).1 "c.h5" = some (some 0) ∧ ((unload two 1).1.objs[0]?).map Obj.full = some false ∧
    ((unload two 1).1.objs[2]?).map Obj.full = some true := by decide +kernel

/-- C146 is false of children that users load, too: with the file that has it as a child, a file is gone, or is empty if it was loaded before -/
theorem C146_user_violated :
    (let w := (loadFiles dir (fun _ => some ()) plain (exec [.load "a.xdmf" ["c.h5"]]).1 ["c.h5"]).1
     lookup w "c.h5" = some (some 0) ∧ lookup (unloadFile w "a.xdmf").1 "c.h5" = none) ∧
    (let w := (loadGroup (envOf ["c.h5"]) (loadFiles dir (fun _ => some ()) plain empty ["c.h5"]).1 "a.xdmf" ["a.xdmf", "a.xdmf"]).1
     lookup (unloadFile w "a.xdmf").1 "c.h5" = some (some 0) ∧ ((unloadFile w "a.xdmf").1.objs[0]?).map Obj.full = some false) := by
  decide +kernel

/-- C146 is false of `unload_all_files` if any file could not be read: it is an AttributeError, and all that comes after stays;
the file that could not be read is there for good: unloading it by name is an AttributeError too -/
theorem C146_failed_violated :
    (let w := (loadFiles dir (fun _ => some ()) plain (loadFiles { dir with read := fun _ => .io } (fun _ => some ()) plain empty ["a"]).1 ["b"]).1
     (unloadAllFiles w).2 = some .attribute ∧ lookup (unloadAllFiles w).1 "b" = some (some 0) ∧
       lookup w "a" = some none ∧ (unloadFile w "a").2 = some .attribute ∧ lookup (unloadFile w "a").1 "a" = some none) := by
  decide +kernel

/-- C146 is false of contents after `unload_all_files`: files with children keep theirs, since the children are gone first -/
theorem C146_kept_violated : (unloadAllFiles (exec [.load "a.xdmf" ["c.h5"]]).1).2 = none ∧
    ((unloadAllFiles (exec [.load "a.xdmf" ["c.h5"]]).1).1.objs[1]?).map Obj.full = some true := by
  decide +kernel

/-- C146 is false of children that have children: unloading is a RuntimeError -/
theorem C146_nested_violated : (unloadFile (exec [.load "a.xdmf" ["b.xdmf"], .load "b.xdmf" ["c.h5"]]).1 "a.xdmf").2 = some .runtime := by
  decide +kernel

end Viscid.Props
