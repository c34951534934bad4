import Verif.Model.Injector
import Verif.Spec.Injector
/-!
# C249: the names in the package's namespace
-/
namespace Viscid.Props
open Viscid.Injector Viscid.Spec.Injector

namespace IJ

variable {V : Type}

theorem fold_bind : ∀ (l : List (String × V)) (ns : Ns V) (n : String),
    (l.foldl setName ns) n = (lastBound l n).or (ns n)
  | [], ns, n => rfl
  | b :: l, ns, n => by
    rw [List.foldl_cons, fold_bind l]
    unfold lastBound setName
    rw [List.filter_cons]
    by_cases h : b.1 = n
    · subst h
      simp only [decide_true, if_true]
      cases hl : l.filter (fun b' => decide (b'.1 = b.1)) with
      | nil => simp
      | cons c cs =>
        rw [List.getLast?_cons_cons, List.getLast?_eq_some_getLast (List.cons_ne_nil c cs)]
        simp
    · have h' : ¬ n = b.1 := fun e => h e.symm
      simp [h, h']

theorem export_ok (m : PyMod V) : ∀ (subs : List String) (ns : Ns V), (∀ n ∈ subs, m.attr n ≠ none) →
    exportAll m subs ns = (none, (subs.filterMap fun n => (m.attr n).map fun v => (n, v)).foldl setName ns)
  | [], ns, _ => rfl
  | s :: subs, ns, h => by
    rw [exportAll]
    cases e : m.attr s with
    | none => exact absurd e (h s (by simp))
    | some v =>
      simp only
      rw [export_ok m subs _ (fun n hn => h n (by simp [hn]))]
      simp [e]

theorem export_err (m : PyMod V) : ∀ (subs : List String) (ns : Ns V) (n : String), n ∈ subs → m.attr n = none →
    (exportAll m subs ns).1 = some .other
  | s :: subs, ns, n, hn, h => by
    rw [exportAll]
    cases e : m.attr s with
    | none => rfl
    | some v =>
      simp only
      rcases List.mem_cons.1 hn with rfl | hn
      · rw [h] at e; cases e
      · exact export_err m subs _ n hn h

theorem bound_iff (l : List (String × V)) (ns : Ns V) (n : String) :
    (l.foldl setName ns) n ≠ none ↔ ns n ≠ none ∨ n ∈ l.map Prod.fst := by
  induction l generalizing ns with
  | nil => simp
  | cons b l ih =>
    rw [List.foldl_cons, ih, List.map_cons, List.mem_cons]
    unfold setName
    by_cases h : n = b.1 <;> simp [h]

/-- what a plain run does, from the middle of it -/
theorem run (quiet : Bool) : ∀ (l : List (String × Imp V)) (pre : List String) (st : St V), (∀ x ∈ l, Plain x.2) →
    st.list = pre ++ l.map Prod.fst → (∀ n ∈ pre, st.ns n ≠ none) →
    ∃ kept gone, staying (fun n => st.ns n ≠ none) l kept ∧ (kept ++ gone).Perm (l.map Prod.fst) ∧
      (∀ n ∈ kept, (((l.flatMap fun x => made x.1 x.2).foldl setName st.ns) n) ≠ none) ∧
      loop quiet false l st = (none, ⟨pre ++ kept, st.additional ++ l.flatMap fun x => added x.2,
        (l.flatMap fun x => made x.1 x.2).foldl setName st.ns, if quiet then st.log else st.log ++ gone⟩)
  | [], pre, st, _, hl, _ => ⟨[], [], rfl, .refl _, by simp, by
      rw [loop]; simp only [List.map_nil] at hl; rw [← hl]; cases st; simp⟩
  | (s, r) :: l, pre, st, hp, hl, hpre => by
    have hr : Plain r := hp (s, r) (by simp)
    have hl' : ∀ x ∈ l, Plain x.2 := fun x hx => hp x (by simp [hx])
    have hb : (fun n => ((made s r).foldl setName st.ns) n ≠ none) = fun n => st.ns n ≠ none ∨ n ∈ (made s r).map Prod.fst :=
      funext fun n => propext (bound_iff _ _ _)
    have hmono : ∀ (bs : List (String × V)) (ns : Ns V) n, ns n ≠ none → (bs.foldl setName ns) n ≠ none :=
      fun bs ns n h => (bound_iff bs ns n).2 (.inl h)
    -- the two ways to go on
    have hkeep : ∀ st' : St V, st'.list = st.list → st'.ns = (made s r).foldl setName st.ns → st'.additional = st.additional ++ added r →
        st'.log = st.log → ((∃ m, r.out = .ok m) ∨ ((made s r).foldl setName st.ns) s ≠ none) → ((made s r).foldl setName st.ns) s ≠ none →
        loop quiet false ((s, r) :: l) st = loop quiet false l st' →
        ∃ kept gone, staying (fun n => st.ns n ≠ none) ((s, r) :: l) kept ∧ (kept ++ gone).Perm (((s, r) :: l).map Prod.fst) ∧
      (∀ n ∈ kept, (((((s, r) :: l).flatMap fun x => made x.1 x.2).foldl setName st.ns) n) ≠ none) ∧
      loop quiet false ((s, r) :: l) st = (none, ⟨pre ++ kept, st.additional ++ ((s, r) :: l).flatMap fun x => added x.2,
        (((s, r) :: l).flatMap fun x => made x.1 x.2).foldl setName st.ns, if quiet then st.log else st.log ++ gone⟩) := by
      intro st' e1 e2 e3 e4 h1 h2 e5
      obtain ⟨kept, gone, k1, k2, k3, k4⟩ := run quiet l (pre ++ [s]) st' hl' (by rw [e1, hl]; simp)
        (by
          intro n hn
          rw [e2]
          rcases List.mem_append.1 hn with hn | hn
          · exact hmono _ _ _ (hpre n hn)
          · rw [List.mem_singleton.1 hn]; exact h2)
      rw [e2, hb] at k1
      refine ⟨s :: kept, gone, ?_, ?_, ?_, ?_⟩
      · rw [staying]
        refine ⟨fun _ => ⟨kept, rfl, k1⟩, fun h => absurd ?_ h⟩
        rcases h1 with h1 | h1
        · exact .inl h1
        · exact .inr ((bound_iff _ _ _).1 h1)
      · simpa using k2.cons s
      · intro n hn
        rw [List.flatMap_cons, List.foldl_append]
        rcases List.mem_cons.1 hn with rfl | hn
        · exact hmono _ _ _ h2
        · rw [← e2]; exact k3 n hn
      · rw [e5, k4, e2, e3, e4]
        simp [List.flatMap_cons]
    have hmem : ∀ m, r.out = .ok m → ((made s r).foldl setName st.ns) s ≠ none := fun m h => by
      rw [bound_iff]; right; unfold made; rw [h]; simp
    cases ho : r.out with
    | ok m =>
      have hm := hmem m ho
      have hmade : made s r = r.binds ++ (s, m.val) :: shared m := by unfold made; rw [ho]
      have hadd : added r = m.all.getD [] := by unfold added; rw [ho]
      cases ha : m.all with
      | none =>
        refine hkeep { st with ns := (made s r).foldl setName st.ns } rfl rfl (by rw [hadd, ha]; simp) rfl (.inl ⟨m, ho⟩) hm ?_
        rw [loop]
        simp only [ho, ha]
        rw [hmade, List.foldl_append, List.foldl_cons, shared, ha]
        rfl
      | some subs =>
        refine hkeep { st with ns := (made s r).foldl setName st.ns, additional := st.additional ++ added r } rfl rfl rfl rfl (.inl ⟨m, ho⟩) hm ?_
        have hall := hr.1 m ho
        rw [ha] at hall
        rw [loop]
        simp only [ho, ha]
        rw [export_ok m subs _ hall]
        simp only
        rw [hmade, List.foldl_append, List.foldl_cons, shared, hadd, ha]
        rfl
    | error e =>
      have hmade : made s r = r.binds := by unfold made; rw [ho]; simp
      have hadd : added r = [] := by unfold added; rw [ho]
      cases e with
      | other => exact absurd ho hr.2
      | importError =>
        cases hs : (r.binds.foldl setName st.ns) s with
        | some v =>
          have h2 : ((made s r).foldl setName st.ns) s ≠ none := by rw [hmade, hs]; simp
          refine hkeep { st with ns := (made s r).foldl setName st.ns } rfl rfl (by rw [hadd]; simp) rfl (.inr h2) h2 ?_
          rw [loop]
          simp only [ho, hs, hmade]
        | none =>
          have hnotin : s ∉ pre := fun h => by
            have := hmono r.binds _ _ (hpre s h)
            exact this hs
          let st' : St V := { st with ns := r.binds.foldl setName st.ns, list := st.list.erase s, log := if quiet then st.log else st.log ++ [s] }
          have e5 : loop quiet false ((s, r) :: l) st = loop quiet false l st' := by
            rw [loop]
            simp only [ho, hs, Bool.false_eq_true, if_false]
            rfl
          obtain ⟨kept, gone, k1, k2, k3, k4⟩ := run quiet l pre st' hl'
            (by
              show st.list.erase s = _
              rw [hl, List.erase_append_right _ hnotin]; simp)
            (fun n hn => hmono _ _ _ (hpre n hn))
          have e2 : st'.ns = (made s r).foldl setName st.ns := by rw [hmade]
          rw [e2, hb] at k1
          refine ⟨kept, s :: gone, ?_, ?_, ?_, ?_⟩
          · rw [staying]
            refine ⟨fun h => ?_, fun _ => k1⟩
            exfalso
            rcases h with ⟨m, h⟩ | h
            · rw [ho] at h; cases h
            · exact (bound_iff _ _ _).2 h (by rw [hmade]; exact hs)
          · refine List.perm_middle.trans ?_
            simpa using k2.cons s
          · intro n hn
            rw [List.flatMap_cons, List.foldl_append, ← e2]
            exact k3 n hn
          · rw [e5, k4, e2]
            simp only [List.flatMap_cons, List.foldl_append, hadd, List.nil_append]
            cases quiet <;> simp [st']

end IJ

/-- C249: when no module has a surprise, the package is imported; a name stays in the list if its module could be imported or the name
was bound by then, all other names are reported in the log (unless told to be quiet), and the names the modules share come after. -/
theorem C249_list {V : Type} (quiet : Bool) (l : List (String × Imp V)) (ns : Ns V) (hp : ∀ x ∈ l, Plain x.2) :
    ∃ kept gone, staying (fun n => ns n ≠ none) l kept ∧ (kept ++ gone).Perm (l.map Prod.fst) ∧
      (inject quiet false l ns).1 = none ∧
      (inject quiet false l ns).2.list = kept ++ l.flatMap (fun x => added x.2) ∧
      (inject quiet false l ns).2.log = if quiet then [] else gone := by
  obtain ⟨kept, gone, k1, k2, k3, k4⟩ := IJ.run quiet l [] ⟨l.map Prod.fst, [], ns, []⟩ hp rfl (by simp)
  refine ⟨kept, gone, k1, k2, ?_⟩
  unfold inject
  rw [k4]
  simp

/-- C249: and a name stands for the object last bound to it: by the import of a module, or by a module that shares it. -/
theorem C249_namespace {V : Type} (quiet : Bool) (l : List (String × Imp V)) (ns : Ns V) (hp : ∀ x ∈ l, Plain x.2) (n : String) :
    (inject quiet false l ns).2.ns n = (lastBound (l.flatMap fun x => made x.1 x.2) n).or (ns n) := by
  obtain ⟨kept, gone, k1, k2, k3, k4⟩ := IJ.run quiet l [] ⟨l.map Prod.fst, [], ns, []⟩ hp rfl (by simp)
  unfold inject
  rw [k4]
  exact IJ.fold_bind _ _ _

/-- C249: after the import every name in the list is there: `from viscid import *` cannot fail. -/
theorem C249_all_bound {V : Type} (quiet : Bool) (l : List (String × Imp V)) (ns : Ns V) (hp : ∀ x ∈ l, Plain x.2) :
    ∀ n ∈ (inject quiet false l ns).2.list, (inject quiet false l ns).2.ns n ≠ none := by
  obtain ⟨kept, gone, k1, k2, k3, k4⟩ := IJ.run quiet l [] ⟨l.map Prod.fst, [], ns, []⟩ hp rfl (by simp)
  have e : inject quiet false l ns = (none, ⟨kept ++ l.flatMap (fun x => added x.2), l.flatMap (fun x => added x.2), (l.flatMap fun x => made x.1 x.2).foldl setName ns,
      if quiet then [] else gone⟩) := by
    unfold inject; rw [k4]; simp
  rw [e]
  intro n hn
  rcases List.mem_append.1 hn with hn | hn
  · exact k3 n hn
  · obtain ⟨⟨s, r⟩, hx, hn⟩ := List.mem_flatMap.1 hn
    refine (IJ.bound_iff _ _ _).2 (.inr ?_)
    unfold added at hn
    cases ho : r.out with
    | error e => simp [ho] at hn
    | ok m =>
      simp only [ho] at hn
      have := (hp _ hx).1 m ho n hn
      cases hv : m.attr n with
      | none => exact absurd hv this
      | some v =>
        refine List.mem_map.2 ⟨(n, v), List.mem_flatMap.2 ⟨(s, r), hx, ?_⟩, rfl⟩
        unfold made
        simp only [ho]
        refine List.mem_append.2 (.inr (List.mem_cons.2 (.inr ?_)))
        exact List.mem_filterMap.2 ⟨n, hn, by rw [hv]; rfl⟩

/-- C249: an exception other than ImportError, or a name that a module shares but does not have, stops the import of the package:
the names of the modules before it are bound, but are not in the list. -/
theorem C249_surprise {V : Type} (quiet : Bool) (l rest : List (String × Imp V)) (s : String) (r : Imp V) (ns : Ns V)
    (hp : ∀ x ∈ l, Plain x.2) (hr : ¬ Plain r) :
    (inject quiet false (l ++ (s, r) :: rest) ns).1 = some .other ∧
    ∀ n ∈ (inject quiet false (l ++ (s, r) :: rest) ns).2.list, n ∈ (l ++ (s, r) :: rest).map Prod.fst := by
  have hsub : ∀ (l' : List (String × Imp V)) (st : St V), ∀ n ∈ (loop quiet false l' st).2.list, n ∈ st.list := by
    intro l'
    induction l' with
    | nil => intro st n hn; exact hn
    | cons x l' ih =>
      obtain ⟨s, r⟩ := x
      intro st n hn
      unfold loop at hn
      simp only at hn
      split at hn
      · split at hn
        · have := ih _ n hn
          exact this
        · split at hn
          · have := ih _ n hn
            exact this
          · exact hn
      · split at hn
        · rw [if_neg (by simp)] at hn
          exact List.mem_of_mem_erase (ih _ n hn)
        · have := ih _ n hn
          exact this
      · exact hn
  have hstop : ∀ st : St V, (loop quiet false ((s, r) :: rest) st).1 = some .other := by
    intro st
    rw [loop]
    simp only
    cases ho : r.out with
    | error e =>
      cases e with
      | other => rfl
      | importError => exact absurd ⟨fun m h => (by rw [ho] at h; cases h), by rw [ho]; simp⟩ hr
    | ok m =>
      have hbad : ∃ n ∈ m.all.getD [], m.attr n = none := by
        refine Classical.byContradiction fun h => hr ⟨fun m' h' n hn hnone => ?_, by rw [ho]; simp⟩
        rw [ho] at h'
        cases h'
        exact h ⟨n, hn, hnone⟩
      obtain ⟨n, hn, hnone⟩ := hbad
      cases ha : m.all with
      | none => rw [ha] at hn; cases hn
      | some subs =>
        rw [ha] at hn
        have := IJ.export_err m subs (setName (r.binds.foldl setName st.ns) (s, m.val)) n hn hnone
        simp only [ha]
        split
        · rename_i h; rw [h] at this; cases this
        · rename_i e _ h; rw [h] at this; exact this
  have hall : ∀ (l' : List (String × Imp V)) (st : St V), (∀ x ∈ l', Plain x.2) → ∃ st', loop quiet false (l' ++ (s, r) :: rest) st = loop quiet false ((s, r) :: rest) st' := by
    intro l'
    induction l' with
    | nil => exact fun st _ => ⟨st, rfl⟩
    | cons x l' ih =>
      obtain ⟨s', r'⟩ := x
      intro st h
      have hr' : Plain r' := h (s', r') (by simp)
      have ih' := fun st => ih st (fun x hx => h x (by simp [hx]))
      rw [List.cons_append, loop]
      simp only
      cases ho : r'.out with
      | error e =>
        cases e with
        | other => exact absurd ho hr'.2
        | importError =>
          simp only
          split
          · rw [if_neg (by simp)]; exact ih' _
          · exact ih' _
      | ok m =>
        cases ha : m.all with
        | none => simp only [ha]; exact ih' _
        | some subs =>
          have hk := hr'.1 m ho
          rw [ha] at hk
          simp only [ha]
          rw [IJ.export_ok m subs _ hk]
          exact ih' _
  obtain ⟨st', h'⟩ := hall l ⟨(l ++ (s, r) :: rest).map Prod.fst, [], ns, []⟩ hp
  have h1 := hstop st'
  rw [← h'] at h1
  have h2 := hsub (l ++ (s, r) :: rest) ⟨(l ++ (s, r) :: rest).map Prod.fst, [], ns, []⟩
  unfold inject
  split
  · rename_i e; rw [e] at h1; cases h1
  · rename_i e st h
    rw [h] at h1 h2
    exact ⟨h1, h2⟩

/-- C249: told that failures are fatal, the first failed import of a name that is not bound raises the ImportError. -/
theorem C249_fatal_partial {V : Type} (quiet : Bool) (rest : List (String × Imp V)) (s : String) (r : Imp V) (ns : Ns V)
    (hr : r.out = .error .importError) (hs : ns s = none) (hb : s ∉ r.binds.map Prod.fst) :
    (inject quiet true ((s, r) :: rest) ns).1 = some .importError ∧
    (inject quiet true ((s, r) :: rest) ns).2.list = rest.map Prod.fst ∧
    (inject quiet true ((s, r) :: rest) ns).2.log = if quiet then [] else [s] := by
  have h : (r.binds.foldl setName ns) s = none := by
    refine Classical.byContradiction fun h => ?_
    rcases (IJ.bound_iff _ _ _).1 h with h | h
    · exact h hs
    · exact hb h
  unfold inject
  rw [loop]
  simp only [hr, h, if_true]
  cases quiet <;> simp

/-- C249 is violated: even then the failed import of a name that is bound (say, to an object of that name) is passed over in silence,
so that its module's names are missing without a word. -/
theorem C249_fatal_violated {V : Type} (quiet : Bool) (s : String) (r : Imp V) (ns : Ns V)
    (hr : r.out = .error .importError) (hs : ns s ≠ none) :
    (inject quiet true [(s, r)] ns).1 = none ∧ (inject quiet true [(s, r)] ns).2.log = [] ∧ (inject quiet true [(s, r)] ns).2.list = [s] := by
  have h : (r.binds.foldl setName ns) s ≠ none := (IJ.bound_iff _ _ _).2 (.inl hs)
  unfold inject
  rw [loop]
  cases e : (r.binds.foldl setName ns) s with
  | none => exact absurd e h
  | some v => simp [hr, e, loop]

/-- C249: `check()` is zero if and only if both parts work, and else its bits say which do not: one for the tracing of lines
(which must not raise or give nan), two for the reading of a file. -/
theorem C249_check (raised1 hasNan raised2 : Bool) :
    (check raised1 hasNan raised2 = 0 ↔ raised1 = false ∧ hasNan = false ∧ raised2 = false) ∧
    (check raised1 hasNan raised2 % 2 = 1 ↔ raised1 = true ∨ hasNan = true) ∧
    (check raised1 hasNan raised2 / 2 = 1 ↔ raised2 = true) ∧ check raised1 hasNan raised2 < 4 := by
  revert raised1 hasNan raised2
  decide

/-- C249: a proxy of a missing module has the attributes it was given; the reading of every other attribute, and the setting of any,
raises the exception of the failed import, and nothing is set. -/
theorem C249_proxy {V E : Type} (p : Proxy V E) (name : String) :
    (∀ v, (name, v) ∈ p.attrs → (p.attrs.map Prod.fst).Nodup → (p.get name).1 = .val v) ∧
    (name ∉ p.attrs.map Prod.fst → (p.get name).1 = .raised p.exception ∧ ((p.get name).2 = [] ↔ p.msg = "")) ∧
    ∀ v, (p.set name v).1 = .raised p.exception ∧ (p.set name v).2 = p := by
  have lk : ∀ (l : List (String × V)) v, (name, v) ∈ l → (l.map Prod.fst).Nodup → l.lookup name = some v := by
    intro l
    induction l with
    | nil => intro v h; cases h
    | cons a l ih =>
      obtain ⟨k, w⟩ := a
      intro v h hn
      rw [List.map_cons, List.nodup_cons] at hn
      rcases List.mem_cons.1 h with h | h
      · cases h; simp
      · have hne : name ≠ k := fun e => hn.1 (e ▸ List.mem_map.2 ⟨_, h, rfl⟩)
        rw [List.lookup_cons]
        have : (name == k) = false := by simpa using hne
        rw [this]
        exact ih v h hn.2
  refine ⟨fun v h hn => by unfold Proxy.get; rw [lk _ v h hn], fun h => ?_, fun v => ⟨rfl, rfl⟩⟩
  have : p.attrs.lookup name = none := by
    rw [List.lookup_eq_none_iff]
    intro q hq
    simp only [beq_eq_false_iff_ne, bne_iff_ne, ne_eq]
    exact fun e => h (List.mem_map.2 ⟨q, hq, by first | exact e.symm | exact e⟩)
  unfold Proxy.get
  rw [this]
  refine ⟨rfl, ?_⟩
  by_cases hm : p.msg = "" <;> simp [hm]

/-- C249: the same for the stand-ins of the compiled modules, whose exception says what to build. -/
theorem C249_dummy {V : Type} (p : Dummy V) (name : String) :
    (∀ v, p.get name = .val v → (name, v) ∈ p.attrs) ∧
    (name ∉ p.attrs.map Prod.fst ↔ p.get name = .raised p.msg) ∧
    ∀ v, (p.set name v).1 = .raised p.msg ∧ (p.set name v).2 = p := by
  have lk : ∀ (l : List (String × V)) v, l.lookup name = some v → (name, v) ∈ l := by
    intro l
    induction l with
    | nil => intro v h; cases h
    | cons a l ih =>
      obtain ⟨k, w⟩ := a
      intro v h
      rw [List.lookup_cons] at h
      cases e : name == k with
      | true => rw [e] at h; simp only [Option.some.injEq] at h; rw [← h, eq_of_beq e]; simp
      | false => rw [e] at h; exact List.mem_cons.2 (.inr (ih v h))
  unfold Dummy.get
  refine ⟨fun v h => ?_, ?_, fun v => ⟨rfl, rfl⟩⟩
  · cases e : p.attrs.lookup name with
    | none => rw [e] at h; cases h
    | some w => rw [e] at h; cases h; exact lk _ _ e
  · cases e : p.attrs.lookup name with
    | none =>
      simp only [iff_true]
      intro h
      obtain ⟨q, hq, h⟩ := List.mem_map.1 h
      rw [List.lookup_eq_none_iff] at e
      have := e q hq
      simp [h] at this
    | some w =>
      simp only [reduceCtorEq, iff_false, Classical.not_not]
      exact List.mem_map.2 ⟨_, lk _ _ e, rfl⟩

/-- C249 is violated: a proxy called with arguments (as a colour map or a formatter is) raises a TypeError, not the exception of the
failed import. -/
theorem C249_call_violated {V E : Type} (p : Proxy V E) (a : V) (args : List V) :
    p.call [] = .raised p.exception ∧ p.call (a :: args) = .typeError := ⟨rfl, rfl⟩

namespace IJ
/-- module `a` shares `x`; `b` is missing; `N` is no module, but an object there before -/
def aMod : PyMod Nat := ⟨1, some ["x"], fun n => if n = "x" then some 7 else none⟩
def someList : List (String × Imp Nat) := [("a", ⟨[("u", 3)], .ok aMod⟩), ("b", ⟨[], .error .importError⟩), ("N", ⟨[], .error .importError⟩)]
def someNs : Ns Nat := fun n => if n = "N" then some 9 else none
end IJ

example : (∀ x ∈ IJ.someList, Plain x.2) ∧ (inject false false IJ.someList IJ.someNs).2.list = ["a", "N", "x"] ∧
    (inject false false IJ.someList IJ.someNs).2.log = ["b"] ∧ (inject false false IJ.someList IJ.someNs).2.ns "x" = some 7 := by
  refine ⟨?_, by decide, by decide, by decide⟩
  intro x hx
  simp only [IJ.someList, List.mem_cons, List.not_mem_nil, or_false] at hx
  rcases hx with rfl | rfl | rfl
  · refine ⟨fun m h n hn => ?_, by simp⟩
    cases h
    simp only [IJ.aMod, Option.getD_some, List.mem_singleton] at hn
    subst hn
    simp [IJ.aMod]
  · exact ⟨fun m h => (by cases h), by simp⟩
  · exact ⟨fun m h => (by cases h), by simp⟩

/-- a module that shares a name it does not have is no plain one -/
example : ¬ Plain (⟨[], .ok ⟨1, some ["y"], fun _ => none⟩⟩ : Imp Nat) := fun h => h.1 _ rfl "y" (by simp) rfl

end Viscid.Props
