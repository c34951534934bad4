import Verif.Model.FortUnit
/-!
# C261: Fortran units for files
-/
namespace Viscid.Spec.FortUnit
open Viscid.FortUnit

/-- nothing of this program is open: no handle has a unit, and files of handles are not connected -/
structure Fresh (name : Nat → String) (st : St) : Prop where
  closed : ∀ h, st.unit h = -1
  unlocked : st.lock = none
  absent : ∀ h u, st.units u ≠ some (name h)

end Viscid.Spec.FortUnit

namespace Viscid.Props
open Viscid.FortUnit Viscid.Spec.FortUnit

namespace FU

theorem freeUnit_spec {units : Units} {u : Nat} (h : freeUnit units = some u) :
    units u = none ∧ 10 ≤ u ∧ u ≤ 10000 ∧ ¬ (100 ≤ u ∧ u ≤ 102) := by
  have h1 := List.find?_some h
  have h2 := List.mem_of_find?_eq_some h
  simp only [tried, List.mem_filter, List.mem_range, Bool.and_eq_true, decide_eq_true_eq, Bool.not_eq_true', Bool.and_eq_false_iff, decide_eq_false_iff_not] at h2
  refine ⟨by simpa using h1, by omega, by omega, by omega⟩

/-- what holds at all times -/
structure Inv (name : Nat → String) (units0 : Units) (st : St) : Prop where
  own : ∀ h, st.unit h > 0 → st.units (st.unit h).toNat = some (name h)
  sole : ∀ h u, st.units u = some (name h) → st.unit h = u ∧ 0 < u
  wait : ∀ h f, st.lock = some (h, f) → st.unit h ≤ 0 ∧ ∀ u, f ≠ .connected u
  free : ∀ h u, st.lock = some (h, .free (some u)) → st.units u = none ∧ 10 ≤ u
  others : ∀ u x, units0 u = some x → st.units u = some x
  named : ∀ h u, units0 u ≠ some (name h)

variable {name : Nat → String} {iostat : String → Nat} {units0 : Units}

theorem inv_start (hn : ∀ a b, name a = name b → a = b) {st : St} (i : Inv name units0 st) (h : Nat) : Inv name units0 (start name st h) := by
  unfold start
  split
  · next he =>
    split
    · have hu : st.unit h ≤ 0 := by
        unfold isopen at he
        split at he
        · split at he <;> simp at he
        · omega
      refine ⟨i.own, i.sole, ?_, ?_, i.others, i.named⟩
      · intro h' f e
        simp only [Option.some.injEq, Prod.mk.injEq] at e
        obtain ⟨rfl, rfl⟩ := e
        refine ⟨hu, fun u hc => ?_⟩
        unfold search at hc
        split at hc
        · next v hv =>
          have := List.find?_some hv
          have := i.sole h v (by simpa using this)
          omega
        · cases hc
      · intro h' u e
        simp only [Option.some.injEq, Prod.mk.injEq] at e
        obtain ⟨rfl, e⟩ := e
        unfold search at e
        split at e
        · cases e
        · injection e with e
          have := freeUnit_spec e
          exact ⟨this.1, this.2.1⟩
    · exact i
  · exact i

theorem inv_finish (hn : ∀ a b, name a = name b → a = b) {st : St} (i : Inv name units0 st) (h : Nat) :
    Inv name units0 (finish name iostat st h).1 := by
  unfold finish
  split
  · next h' f hl =>
    split
    · next e =>
      subst e
      obtain ⟨w1, w2⟩ := i.wait _ _ hl
      have hclosed : ∀ (v : Int), v ≤ 0 → Inv name units0 ⟨st.units, setUnit st.unit h' v, none⟩ := by
        intro v hv
        refine ⟨?_, ?_, by simp, by simp, i.others, i.named⟩
        · intro k hk
          by_cases e : k = h'
          · simp only [setUnit, e, if_true] at hk; omega
          · simp only [setUnit, e, if_false] at hk ⊢; exact i.own k hk
        · intro k u hu
          by_cases e : k = h'
          · subst e
            have := i.sole _ _ hu
            omega
          · simp only [setUnit, e, if_false]; exact i.sole k u hu
      split
      · next u => exact absurd rfl (w2 u)
      · next u =>
        obtain ⟨f1, f2⟩ := i.free _ _ hl
        split
        · refine ⟨?_, ?_, by simp, by simp, ?_, i.named⟩
          · intro k hk
            by_cases e : k = h'
            · subst e; simp [setUnit, setFile]
            · simp only [setUnit, e, if_false] at hk ⊢
              have ho := i.own k hk
              have : (st.unit k).toNat ≠ u := fun e' => by rw [e', f1] at ho; cases ho
              simp only [setFile, this, if_false]
              exact ho
          · intro k v hv
            by_cases ev : v = u
            · subst ev
              simp only [setFile, if_true, Option.some.injEq] at hv
              have := hn _ _ hv
              subst this
              simp only [setUnit, if_true]
              exact ⟨trivial, by omega⟩
            · simp only [setFile, ev, if_false] at hv
              have hs := i.sole k v hv
              have : k ≠ h' := fun e => by subst e; omega
              simp only [setUnit, this, if_false]
              exact hs
          · intro v x hx
            have ho := i.others v x hx
            have : v ≠ u := fun e => by rw [e, f1] at ho; cases ho
            simp only [setFile, this, if_false]
            exact ho
        · exact hclosed _ (by omega)
      · exact hclosed _ (by omega)
    · exact i
  · exact i

theorem inv_close {st : St} (hn : ∀ a b, name a = name b → a = b) (i : Inv name units0 st) (h : Nat) : Inv name units0 (close st h) := by
  unfold close
  split
  · next he =>
    have hu : st.unit h > 0 := by
      unfold isopen at he
      split at he
      · assumption
      · simp at he
    have ho := i.own h hu
    refine ⟨?_, ?_, ?_, ?_, ?_, i.named⟩
    · intro k hk
      by_cases e : k = h
      · subst e; simp [setUnit] at hk
      · simp only [setUnit, e, if_false] at hk ⊢
        have hk' := i.own k hk
        have : (st.unit k).toNat ≠ (st.unit h).toNat := fun e' => by
          rw [e', ho] at hk'
          exact e (hn _ _ (Option.some.inj hk')).symm
        simp only [setFile, this, if_false]
        exact hk'
    · intro k u hk
      by_cases e : u = (st.unit h).toNat
      · simp [setFile, e] at hk
      · simp only [setFile, e, if_false] at hk
        have hs := i.sole k u hk
        have : k ≠ h := fun e' => by subst e'; exact e (by omega)
        simp only [setUnit, this, if_false]
        exact hs
    · intro k f hl
      obtain ⟨w1, w2⟩ := i.wait k f hl
      have : k ≠ h := fun e => by subst e; omega
      simp only [setUnit, this, if_false]
      exact ⟨w1, w2⟩
    · intro k u hl
      obtain ⟨f1, f2⟩ := i.free k u hl
      refine ⟨?_, f2⟩
      simp only [setFile]
      split
      · rfl
      · exact f1
    · intro u x hx
      have hxo := i.others u x hx
      have : u ≠ (st.unit h).toNat := fun e => by
        rw [e] at hxo hx
        rw [ho] at hxo
        rw [← hxo] at hx
        exact i.named h _ hx
      simp only [setFile, this, if_false]
      exact hxo
  · exact i

theorem inv_run (hn : ∀ a b, name a = name b → a = b) {st : St} (i : Inv name units0 st) (l : List Event) : Inv name units0 (run name iostat st l) := by
  induction l generalizing st with
  | nil => exact i
  | cons e l ih =>
    refine ih (st := step name iostat st e) ?_
    cases e with
    | start h => exact inv_start hn i h
    | finish h => exact inv_finish hn i h
    | close h => exact inv_close hn i h

theorem inv_fresh {st : St} (hf : Fresh name st) : Inv name st.units st :=
  ⟨fun h hu => (by rw [hf.closed h] at hu; omega), fun h u hu => absurd hu (hf.absent h u), fun h f hl => (by rw [hf.unlocked] at hl; cases hl),
   fun h u hl => (by rw [hf.unlocked] at hl; cases hl), fun u x hx => hx, hf.absent⟩

end FU
open FU

/-- **C261, own files.** Whatever threads do, in any order, with handles of different files: what is read through a handle that
    is open is its own file, no two handles that are open have the same unit, and files of others stay connected. -/
theorem C261_own_partial (name : Nat → String) (hn : ∀ a b, name a = name b → a = b) (iostat : String → Nat) (st : St) (hf : Fresh name st)
    (l : List Event) :
    (∀ h, (run name iostat st l).unit h > 0 → reads (run name iostat st l) h = some (name h) ∧ isopen (run name iostat st l) h = .ok true) ∧
    (∀ a b, a ≠ b → (run name iostat st l).unit a > 0 → (run name iostat st l).unit b > 0 → (run name iostat st l).unit a ≠ (run name iostat st l).unit b) ∧
    (∀ h, ∃ b, isopen (run name iostat st l) h = .ok b) ∧
    (∀ u x, st.units u = some x → (run name iostat st l).units u = some x) := by
  have i := inv_run (iostat := iostat) hn (inv_fresh hf) l
  refine ⟨fun h hu => ?_, fun a b hab ha hb e => ?_, fun h => ?_, i.others⟩
  · have := i.own h hu
    simp [reads, hu, this, isopen, fisopen]
  · have h1 := i.own a ha
    have h2 := i.own b hb
    rw [e, h2] at h1
    exact hab (hn _ _ (Option.some.inj h1)).symm
  · by_cases hu : (run name iostat st l).unit h > 0
    · have := i.own h hu
      exact ⟨true, by simp [isopen, hu, fisopen, this]⟩
    · exact ⟨false, by simp [isopen, hu]⟩

/-- A program that meets the conditions: units five and six belong to others. -/
example : Fresh (fun n => String.ofList (List.replicate n 'a')) ⟨fun u => if u = 5 ∨ u = 6 then some "terminal" else none, fun _ => -1, none⟩ := by
  refine ⟨fun _ => rfl, rfl, fun h u => ?_⟩
  simp only
  split
  · intro e
    have e2 := congrArg String.toList (Option.some.inj e)
    simp only [String.toList_ofList] at e2
    have : 't' ∈ List.replicate h 'a' := by rw [← e2]; decide
    have := List.eq_of_mem_replicate this
    revert this; decide
  · simp

namespace FU

theorem lock_run {name : Nat → String} {iostat : String → Nat} {h : Nat} {f : Found} (l : List Event) : ∀ {st : St}, st.lock = some (h, f) →
    Event.finish h ∉ l → (run name iostat st l).lock = some (h, f) := by
  induction l with
  | nil => intro st hl _; exact hl
  | cons e l ih =>
    intro st hl hm
    simp only [List.mem_cons, not_or] at hm
    refine ih (st := step name iostat st e) ?_ hm.2
    cases e with
    | start k =>
      simp only [step, start, hl, Option.isNone_some, Bool.false_eq_true, if_false]
      split <;> exact hl
    | finish k =>
      have : h ≠ k := fun e => hm.1 (by rw [e])
      simp only [step, finish, hl, this, if_false]
    | close k =>
      simp only [step, close]
      split <;> exact hl

end FU

/-- **C261, threads.** A handle that began to open its file, at any time when the lock was free, has it open once it is done, and not before,
    whatever other threads try to open or close in between: they wait. -/
theorem C261_threads (name : Nat → String) (hn : ∀ a b, name a = name b → a = b) (iostat : String → Nat) (st : St) (hf : Fresh name st)
    (past : List Event) (h u : Nat) (hl : (run name iostat st past).lock = none) (hc : ¬ (run name iostat st past).unit h > 0)
    (hu : freeUnit (run name iostat st past).units = some u) (ho : iostat (name h) = 0) (meanwhile : List Event) (hm : Event.finish h ∉ meanwhile) :
    reads (run name iostat st (past ++ .start h :: meanwhile ++ [.finish h])) h = some (name h) ∧
    (∀ k, (run name iostat st (past ++ .start h :: meanwhile)).unit k > 0 → (run name iostat st past).unit k > 0) ∧
    ¬ (run name iostat st (past ++ .start h :: meanwhile)).unit h > 0 := by
  have i := inv_run (iostat := iostat) hn (inv_fresh hf) past
  have e1 : isopen (run name iostat st past) h = .ok false := by simp only [isopen, hc, if_false]
  have hs : search (run name iostat st past).units (name h) = .free (some u) := by
    unfold search
    rw [List.find?_eq_none.2 (fun v _ => ?_), hu]
    simp only [decide_eq_true_eq]
    intro e
    have := i.sole h v e
    omega
  have hsplit : ∀ l, run name iostat st (past ++ .start h :: l) = run name iostat (start name (run name iostat st past) h) l := by
    intro l; simp only [run, List.foldl_append, List.foldl_cons, step]
  have hst : start name (run name iostat st past) h = ⟨(run name iostat st past).units, (run name iostat st past).unit, some (h, .free (some u))⟩ := by
    simp only [start, e1, hl, Option.isNone_none, if_true, hs]
  have hlock : (run name iostat (start name (run name iostat st past) h) meanwhile).lock = some (h, .free (some u)) :=
    lock_run meanwhile (by rw [hst]) hm
  have hunit : ∀ (l : List Event) (s : St), s.lock = some (h, .free (some u)) → Event.finish h ∉ l →
      ∀ k, (run name iostat s l).unit k > 0 → s.unit k > 0 := by
    intro l
    induction l with
    | nil => intro s _ _ k hk; exact hk
    | cons e l ih =>
      intro s hs' hm' k hk
      simp only [List.mem_cons, not_or] at hm'
      have hl' := lock_run (name := name) (iostat := iostat) [e] hs' (by simpa using hm'.1)
      have hk' := ih (step name iostat s e) hl' hm'.2 k hk
      cases e with
      | start j =>
        simp only [step, start, hs', Option.isNone_some, Bool.false_eq_true, if_false] at hk'
        split at hk' <;> exact hk'
      | finish j =>
        have : h ≠ j := fun e => hm'.1 (by rw [e])
        simpa only [step, finish, hs', this, if_false] using hk'
      | close j =>
        simp only [step, close] at hk'
        split at hk'
        · simp only [setUnit] at hk'
          split at hk'
          · omega
          · exact hk'
        · exact hk'
  have hk := hunit meanwhile (start name (run name iostat st past) h) (by rw [hst]) hm
  refine ⟨?_, fun k hk' => ?_, fun hk' => ?_⟩
  · have : past ++ .start h :: meanwhile ++ [.finish h] = past ++ .start h :: (meanwhile ++ [.finish h]) := by simp
    have happ : ∀ (s : St) (a b : List Event), run name iostat s (a ++ b) = run name iostat (run name iostat s a) b := by
      intro s a b; simp only [run, List.foldl_append]
    have hfin := (freeUnit_spec hu).2.1
    rw [this, hsplit, happ]
    generalize run name iostat (start name (run name iostat st past) h) meanwhile = s at hlock ⊢
    have hp : (0 : Int) < u := by omega
    have hp' : 0 < u := by omega
    simp [run, step, finish, hlock, ho, reads, setUnit, setFile, hp']
  · rw [hsplit] at hk'
    have := hk k hk'
    rw [hst] at this
    exact this
  · rw [hsplit] at hk'
    have := hk h hk'
    rw [hst] at this
    exact hc this

/-- **C261, opening.** A file that can be opened gets the first unit that is free, from 10 to 10000 without 100 to 102, and is
    closed at the end of a `with`, after which all is as before. -/
theorem C261_with (name : Nat → String) (iostat : String → Nat) (st : St) (hf : Fresh name st) (h u : Nat) (hu : freeUnit st.units = some u)
    (ho : iostat (name h) = 0) :
    ∃ mid, enter name iostat st h = (mid, none) ∧ reads mid h = some (name h) ∧ mid.unit h = u ∧ (10 ≤ u ∧ u ≤ 10000 ∧ ¬ (100 ≤ u ∧ u ≤ 102)) ∧
      (∀ v < u, 10 ≤ v → ¬ (100 ≤ v ∧ v ≤ 102) → (st.units v).isSome) ∧
      exit mid h = (st, none) := by
  obtain ⟨f1, f2, f3, f4⟩ := freeUnit_spec hu
  have hs : search st.units (name h) = .free (some u) := by
    unfold search
    rw [List.find?_eq_none.2 (fun v _ => by simpa using hf.absent h v), hu]
  have e1 : isopen st h = .ok false := by simp [isopen, hf.closed h]
  have e2 : enter name iostat st h = (⟨setFile st.units u (some (name h)), setUnit st.unit h u, none⟩, none) := by
    simp only [enter, e1, openFile, start, hf.unlocked, Option.isNone_none, if_true, finish, hs, ho]
  refine ⟨_, e2, ?_, by simp [setUnit], ⟨f2, f3, f4⟩, ?_, ?_⟩
  · have : (0 : Int) < u := by omega
    simp [reads, setUnit, setFile, this]
    omega
  · intro v hv h1 h2
    unfold freeUnit at hu
    obtain ⟨-, as, bs, hl, hall⟩ := List.find?_eq_some_iff_append.1 hu
    have hmem : v ∈ tried := by
      simp only [tried, List.mem_filter, List.mem_range, Bool.and_eq_true, decide_eq_true_eq, Bool.not_eq_true', Bool.and_eq_false_iff, decide_eq_false_iff_not]
      omega
    rw [hl] at hmem
    have hsorted : tried.Pairwise (· < ·) := List.Pairwise.filter _ List.pairwise_lt_range
    rw [hl, List.pairwise_append] at hsorted
    rcases List.mem_append.1 hmem with hm | hm
    · have := hall v hm
      cases hx : st.units v with
      | none => simp [hx] at this
      | some x => rfl
    · rcases List.mem_cons.1 hm with rfl | hm
      · omega
      · have := (List.pairwise_cons.1 hsorted.2.1).1 v hm
        omega
  · have hp : (u : Int) > 0 := by omega
    simp only [exit, isopen, close, setUnit, if_true, hp, fisopen, Int.toNat_natCast, setFile, Option.isSome_some]
    refine Prod.ext ?_ rfl
    simp only
    have a1 : setFile (setFile st.units u (some (name h))) u none = st.units := by
      funext k
      unfold setFile
      by_cases e : k = u
      · subst e; simp [f1]
      · simp [e]
    have a2 : setUnit (setUnit st.unit h u) h (-1) = st.unit := by
      funext k
      unfold setUnit
      by_cases e : k = h
      · subst e; simp [hf.closed]
      · simp [e]
    rw [a1, a2, ← hf.unlocked]

/-- **C261, errors.** What Fortran cannot open raises RuntimeError, and leaves the file closed and the lock free. -/
theorem C261_error (name : Nat → String) (iostat : String → Nat) (st : St) (hf : Fresh name st) (h u : Nat) (hu : freeUnit st.units = some u)
    (ho : iostat (name h) ≠ 0) :
    ∃ st', enter name iostat st h = (st', some .runtime) ∧ isopen st' h = .ok false ∧ st'.lock = none ∧ st'.units = st.units := by
  have hs : search st.units (name h) = .free (some u) := by
    unfold search
    rw [List.find?_eq_none.2 (fun v _ => by simpa using hf.absent h v), hu]
  have e1 : isopen st h = .ok false := by simp [isopen, hf.closed h]
  refine ⟨⟨st.units, setUnit st.unit h (-(iostat (name h) : Int)), none⟩, ?_, ?_, rfl, rfl⟩
  · simp only [enter, e1, openFile, start, hf.unlocked, Option.isNone_none, if_true, finish, hs, ho, if_false]
  · have : ¬ (-(iostat (name h) : Int) > 0) := by omega
    simp only [isopen, setUnit, if_true, this, if_false]

/-- **C261 fails** for a `with` inside a `with` of the same file: after the inner one, the file is closed in the outer one. -/
theorem C261_nested_violated (name : Nat → String) (iostat : String → Nat) (st : St) (hf : Fresh name st) (h u : Nat) (hu : freeUnit st.units = some u)
    (ho : iostat (name h) = 0) (ftell : Nat → Int) :
    ∃ outer inner after, enter name iostat st h = (outer, none) ∧ enter name iostat outer h = (inner, none) ∧ exit inner h = (after, none) ∧
      isopen after h = .ok false ∧ tell ftell after h = .error .assertion := by
  obtain ⟨mid, h1, h2, h3, h4, -, h5⟩ := C261_with name iostat st hf h u hu ho
  have hopen : isopen mid h = .ok true := by
    have hp : mid.unit h > 0 := by omega
    simp only [reads, hp, if_true] at h2
    simp [isopen, hp, fisopen, h2]
  refine ⟨mid, mid, st, h1, by simp [enter, hopen], h5, ?_, ?_⟩
  · simp [isopen, hf.closed h]
  · simp [tell, isopen, hf.closed h]

namespace FU
/-- two handles of one file, and a third of another -/
def two (n c : String) : Nat → String := fun h => if h ≤ 1 then n else c
def empty : St := ⟨fun _ => none, fun _ => -1, none⟩

theorem run_append (name : Nat → String) (iostat : String → Nat) (st : St) (a b : List Event) :
    run name iostat st (a ++ b) = run name iostat (run name iostat st a) b := by
  simp only [run, List.foldl_append]

theorem free_empty : freeUnit (fun _ => none) = some 10 := by
  decide +kernel

end FU

/-- A case of `C261_threads`: nothing is open yet, and another thread tries to open its file in between. -/
example (name : Nat → String) : (run name (fun _ => 0) empty []).lock = none ∧ ¬ (run name (fun _ => 0) empty []).unit 0 > 0 ∧
    freeUnit (run name (fun _ => 0) empty []).units = some 10 ∧ Event.finish 0 ∉ [Event.start 1, .finish 1, .close 1] :=
  ⟨rfl, by simp [run, empty], free_empty, by decide⟩

/-- **C261 fails** for two handles of one file: they share a unit. Once one of them is closed the other raises RuntimeError, and
    once a third file is opened, the other reads from that. -/
theorem C261_same_violated (n c : String) (hc : n ≠ c) :
    let run := run (two n c) (fun _ => 0) empty
    let both := [Event.start 0, .finish 0, .start 1, .finish 1]
    reads (run both) 0 = some n ∧ reads (run both) 1 = some n ∧ (run both).unit 0 = (run both).unit 1 ∧
    isopen (run (both ++ [.close 0])) 1 = .error .runtime ∧
    reads (run (both ++ [.close 0, .start 2, .finish 2])) 1 = some c := by
  have s0 : search (fun _ => none) n = .free (some 10) := by
    unfold search
    rw [List.find?_eq_none.2 (fun v _ => by simp), free_empty]
  have s1 : search (setFile (fun _ => none) 10 (some n)) n = .connected 10 := by
    unfold search
    have : (List.range 10001).find? (fun i => decide (setFile (fun _ => none) 10 (some n) i = some n)) = some 10 := by
      have e : (fun i => decide (setFile (fun _ => none) 10 (some n) i = some n)) = fun i => decide (i = 10) := by
        funext i
        by_cases h : i = 10 <;> simp [setFile, h]
      rw [e]
      decide +kernel
    rw [this]
  have e3 : setFile (setFile (fun _ => none) 10 (some n)) 10 none = fun _ => none := by
    funext k
    by_cases h : k = 10 <;> simp [setFile, h]
  have s2 : search (fun _ => none) c = .free (some 10) := by
    unfold search
    rw [List.find?_eq_none.2 (fun v _ => by simp), free_empty]
  have t1 : run (two n c) (fun _ => 0) empty [.start 0, .finish 0] =
      ⟨setFile (fun _ => none) 10 (some n), setUnit (fun _ => -1) 0 10, none⟩ := by
    simp [run, step, start, isopen, empty, two, s0, finish]
  have t2 : run (two n c) (fun _ => 0) empty [.start 0, .finish 0, .start 1, .finish 1] =
      ⟨setFile (fun _ => none) 10 (some n), setUnit (setUnit (fun _ => -1) 0 10) 1 10, none⟩ := by
    have e : [Event.start 0, .finish 0, .start 1, .finish 1] = [.start 0, .finish 0] ++ [.start 1, .finish 1] := rfl
    rw [e, run_append, t1]
    simp [run, step, start, isopen, two, s1, finish, setUnit]
  have t3 : run (two n c) (fun _ => 0) empty ([.start 0, .finish 0, .start 1, .finish 1] ++ [.close 0]) =
      ⟨fun _ => none, setUnit (setUnit (setUnit (fun _ => -1) 0 10) 1 10) 0 (-1), none⟩ := by
    rw [run_append, t2]
    simp [run, step, close, isopen, setUnit, fisopen, setFile, e3]
  have t4 : run (two n c) (fun _ => 0) empty ([.start 0, .finish 0, .start 1, .finish 1] ++ [.close 0, .start 2, .finish 2]) =
      ⟨setFile (fun _ => none) 10 (some c), setUnit (setUnit (setUnit (setUnit (fun _ => -1) 0 10) 1 10) 0 (-1)) 2 10, none⟩ := by
    have e : [Event.start 0, .finish 0, .start 1, .finish 1] ++ [.close 0, .start 2, .finish 2] =
        ([.start 0, .finish 0, .start 1, .finish 1] ++ [.close 0]) ++ [.start 2, .finish 2] := rfl
    rw [e, run_append, t3]
    simp [run, step, start, isopen, two, s2, finish, setUnit]
  simp only [t2, t3, t4]
  refine ⟨?_, ?_, ?_, ?_, ?_⟩ <;> simp [reads, setUnit, setFile, isopen, fisopen]

example : ("a.3df" : String) ≠ "b.3df" := by decide

end Viscid.Props
