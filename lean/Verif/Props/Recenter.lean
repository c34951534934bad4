import Verif.Spec.Recenter
import Verif.Props.Crds
/-!
# C162: fields converted to another centering and the field they are made of show the same data
-/
namespace Viscid.Props
open Viscid.Recenter
open Viscid.Spec.Recenter
open Viscid.Hdf5 (Center)

theorem recenter_mem_modify {P : β → Prop} {g : β → β} (hg : ∀ b, P b → P (g b)) :
    ∀ (l : List β) (i : Nat), (∀ b ∈ l, P b) → ∀ b ∈ l.modify i g, P b
  | [], i, _, b, hb => by simp at hb
  | x :: l, 0, h, b, hb => by
    simp only [List.modify_zero_cons, List.mem_cons] at hb
    rcases hb with rfl | hb
    · exact hg _ (h x (by simp))
    · exact h b (by simp [hb])
  | x :: l, i + 1, h, b, hb => by
    simp only [List.modify_succ_cons, List.mem_cons] at hb
    rcases hb with rfl | hb
    · exact h _ (by simp)
    · exact recenter_mem_modify hg l i (fun b hb => h b (by simp [hb])) b hb

theorem setCache_mem {P : Fld V → Prop} (a : Option View) (hg : ∀ f, P f → P { f with cache := a }) (w : World V) (i : Option Nat)
    (h : ∀ f ∈ w.flds, P f) : ∀ f ∈ (w.setCache i a).flds, P f := by
  cases i with
  | none => exact h
  | some i => exact recenter_mem_modify hg _ _ h

theorem setCache_heap (w : World V) (i : Option Nat) (a : Option View) :
    (w.setCache i a).heap = w.heap ∧ (w.setCache i a).next = w.next := by
  cases i <;> exact ⟨rfl, rfl⟩

theorem setCache_get (c : Cfg V) (w : World V) (i : Option Nat) (a : Option View) (b : View) : (w.setCache i a).get c b = w.get c b := by
  unfold World.get; rw [(setCache_heap w i a).1]

theorem setCache_put_flds (c : Cfg V) (w : World V) (a : View) (x : V) : (w.put c a x).flds = w.flds := rfl

/-- Programs keep what every allowed step keeps. -/
theorem agrees_of_inv (c : Cfg V) (ok : Op V → Prop) (I : V → World V → Prop)
    (hread : ∀ v w i f, ok (.read i) → I v w → w.flds[i]? = some f →
      (w.data c i f).1.get c (w.data c i f).2 = v ∧ I v (w.data c i f).1)
    (hwrite : ∀ v w i f g, ok (.write i g) → I v w → w.flds[i]? = some f →
      I (g v) ((w.data c i f).1.put c (w.data c i f).2 (g ((w.data c i f).1.get c (w.data c i f).2))))
    (hclear : ∀ v w i f, ok (.clear i) → I v w → w.flds[i]? = some f → I v (w.clear i f))
    (hassign : ∀ i x, ¬ ok (.assign i x))
    (hconvert : ∀ v w i f ce, I v w → w.flds[i]? = some f → I v { w with flds := w.flds ++ [convert i f ce] })
    (hshell : ∀ v w i f b, ok (.adjust i) ∨ ok (.shell i b) → I v w → w.flds[i]? = some f →
      I v { w with flds := w.flds ++ [shell f f.refl] } ∧ I v { w with flds := w.flds ++ [shell f false] }) :
    ∀ (ops : List (Op V)) (v : V) (w w' : World V) (os : List (Out V)), (∀ op ∈ ops, ok op) → I v w → w.run c ops = some (w', os) →
      Agrees v ops os
  | [], v, w, w', os, _, _, h => by
    simp only [World.run, Option.some.injEq, Prod.mk.injEq] at h
    rw [← h.2]; trivial
  | op :: ops, v, w, w', os, hok, hI, h => by
    have ih := agrees_of_inv c ok I hread hwrite hclear hassign hconvert hshell ops
    have hok' : ∀ op ∈ ops, ok op := fun o ho => hok o (by simp [ho])
    have hop := hok op (by simp)
    simp only [World.run] at h
    cases hs : w.step c op with
    | none => rw [hs] at h; simp at h
    | some r =>
      obtain ⟨w1, o⟩ := r
      rw [hs] at h
      simp only at h
      cases hr : w1.run c ops with
      | none => rw [hr] at h; simp at h
      | some r =>
        obtain ⟨w2, os'⟩ := r
        rw [hr] at h
        simp only [Option.some.injEq, Prod.mk.injEq] at h
        rw [← h.2]
        cases op with
        | assign i x => exact absurd hop (hassign i x)
        | convert i tgt =>
          simp only [World.step, Option.map_eq_some_iff] at hs
          obtain ⟨f, hf, hs⟩ := hs
          have : I v w1 := by
            unfold World.asCentered at hs
            split at hs
            · rw [← (Prod.mk.inj hs).1]; exact hI
            · split at hs
              · rw [← (Prod.mk.inj hs).1]; exact hI
              · rw [← (Prod.mk.inj hs).1]; exact hconvert v w i f _ hI hf
            · rw [← (Prod.mk.inj hs).1]; exact hI
          exact ih v w1 w2 os' hok' this hr
        | shell i force =>
          simp only [World.step, Option.map_eq_some_iff] at hs
          obtain ⟨f, hf, hs⟩ := hs
          have : I v w1 := by
            unfold World.shellCopy at hs
            split at hs
            · rw [← (Prod.mk.inj hs).1]; exact hI
            · rw [← (Prod.mk.inj hs).1]; exact (hshell v w i f force (Or.inr hop) hI hf).1
          exact ih v w1 w2 os' hok' this hr
        | adjust i =>
          simp only [World.step, Option.map_eq_some_iff] at hs
          obtain ⟨f, hf, hs⟩ := hs
          have : I v w1 := by
            unfold World.adjustCrds at hs
            rw [← (Prod.mk.inj hs).1]; exact (hshell v w i f true (Or.inl hop) hI hf).2
          exact ih v w1 w2 os' hok' this hr
        | read i =>
          simp only [World.step, Option.map_eq_some_iff] at hs
          obtain ⟨f, hf, hs⟩ := hs
          obtain ⟨h1, h2⟩ := hread v w i f hop hI hf
          obtain ⟨ha, hb⟩ := Prod.mk.inj hs
          refine ⟨?_, ih v w1 w2 os' hok' (ha ▸ h2) hr⟩
          rw [← hb, h1]
        | clear i =>
          simp only [World.step, Option.map_eq_some_iff] at hs
          obtain ⟨f, hf, hs⟩ := hs
          obtain ⟨ha, hb⟩ := Prod.mk.inj hs
          exact ih v w1 w2 os' hok' (ha ▸ hclear v w i f hop hI hf) hr
        | write i g =>
          simp only [World.step, Option.map_eq_some_iff] at hs
          obtain ⟨f, hf, hs⟩ := hs
          obtain ⟨ha, hb⟩ := Prod.mk.inj hs
          exact ih (g v) w1 w2 os' hok' (ha ▸ hwrite v w i f g hop hI hf) hr

theorem get_mem {l : List β} {i : Nat} {b : β} (h : l[i]? = some b) : b ∈ l := List.mem_of_getElem? h

/-- C162, nothing is written: whatever is converted, copied with other coordinates, read and cleared in whichever order, and from and to whichever centering, reading any of the fields
    gives the data of the source, transformed once. Reflected coordinates are excluded, and arrays that are transformed in place. -/
theorem C162_unwritten_partial (c : Cfg V) (center : Center) (inMemory : Bool) (v : V) (hm : inMemory = true → c.tf = none ∨ c.copy = true)
    (ops : List (Op V)) (hops : ∀ op ∈ ops, noAssign op ∧ noWrite op) (w : World V) (os : List (Out V))
    (h : (start center false inMemory v).run c ops = some (w, os)) :
    Agrees (match c.tf with | none => v | some g => g v) ops os := by
  obtain ⟨e, he⟩ : ∃ e, e = (match c.tf with | none => v | some g => g v) := ⟨_, rfl⟩
  obtain ⟨S, hS⟩ : ∃ S : Src V, S = (if inMemory then .mem ⟨0, false⟩ else .file v) := ⟨_, rfl⟩
  rw [← he]
  let I : V → World V → Prop := fun x w => x = e ∧
    (∀ f ∈ w.flds, f.src = S ∧ f.refl = false ∧ ∀ a, f.cache = some a → a.addr < w.next ∧ w.get c a = e) ∧
    (0 < w.next ∧ (inMemory = true → w.heap 0 = v))
  have hload : ∀ (w : World V) (f : Fld V), I e w → f.src = S → f.refl = false →
      (w.load c f).1.flds = w.flds ∧ (w.load c f).2.addr < (w.load c f).1.next ∧ (w.load c f).1.get c (w.load c f).2 = e ∧
      w.next ≤ (w.load c f).1.next ∧ (∀ k, k < w.next → (w.load c f).1.heap k = w.heap k) := by
    intro w f hI hsrc hrefl
    obtain ⟨-, -, h0, hv⟩ := hI
    unfold World.load
    rw [hsrc, hrefl, hS]
    cases inMemory with
    | false =>
      simp only [Bool.false_eq_true, if_false, World.alloc, bne_self_eq_false]
      cases htf : c.tf with
      | none =>
        rw [htf] at he
        refine ⟨rfl, by simp, by simp [World.get, he], by simp, fun k hk => by simp; omega⟩
      | some g =>
        rw [htf] at he
        simp only
        cases c.copy with
        | true =>
          refine ⟨rfl, by simp, ?_, by simp; omega, fun k hk => by simp; rw [if_neg (by omega), if_neg (by omega)]⟩
          simp [World.get, he]
        | false =>
          refine ⟨rfl, by simp [World.put], ?_, by simp [World.put], fun k hk => ?_⟩
          · simp [World.get, World.put, he]
          · simp [World.put]; rw [if_neg (by omega), if_neg (by omega)]
    | true =>
      simp only [if_true, bne_self_eq_false]
      have hv := hv rfl
      cases htf : c.tf with
      | none =>
        rw [htf] at he
        exact ⟨rfl, h0, by simp [World.get, he, hv], Nat.le_refl _, fun k _ => rfl⟩
      | some g =>
        rw [htf] at he
        have hc : c.copy = true := by
          rcases hm rfl with h | h
          · rw [htf] at h; simp at h
          · exact h
        simp only [hc, if_true, World.alloc]
        refine ⟨trivial, by simp, ?_, by simp, fun k hk => by simp; omega⟩
        simp [World.get, he, hv]
  have hdata : ∀ (x : V) (w : World V) (i : Nat) (f : Fld V), I x w → w.flds[i]? = some f →
      (w.data c i f).1.get c (w.data c i f).2 = x ∧ I x (w.data c i f).1 := by
    intro x w i f hI hf
    obtain ⟨rfl, hI2⟩ := hI
    obtain ⟨hsrc, hrefl, hcache⟩ := hI2.1 f (get_mem hf)
    cases hfc : f.cache with
    | some a =>
      simp only [World.data, hfc]
      exact ⟨(hcache a hfc).2, rfl, hI2⟩
    | none =>
      obtain ⟨h1, h2, h3, h4, h5⟩ := hload w f ⟨rfl, hI2⟩ hsrc hrefl
      simp only [World.data, hfc, World.fill, setCache_get]
      refine ⟨h3, rfl, ?_, ?_⟩
      · rw [(setCache_heap _ _ _).2, (setCache_heap _ _ _).2]
        simp only [setCache_get]
        apply setCache_mem
        · intro f hf
          exact ⟨hf.1, hf.2.1, fun a ha => by simp only [Option.some.injEq] at ha; rw [← ha]; exact ⟨h2, h3⟩⟩
        apply setCache_mem
        · intro f hf
          exact ⟨hf.1, hf.2.1, fun a ha => by simp only [Option.some.injEq] at ha; rw [← ha]; exact ⟨h2, h3⟩⟩
        rw [h1]
        intro f hf
        obtain ⟨ha, hb, hc⟩ := hI2.1 f hf
        refine ⟨ha, hb, fun a hfa => ?_⟩
        obtain ⟨p, q⟩ := hc a hfa
        refine ⟨by omega, ?_⟩
        rw [← q]; unfold World.get; rw [h5 _ p]
      · rw [(setCache_heap _ _ _).2, (setCache_heap _ _ _).2, (setCache_heap _ _ _).1, (setCache_heap _ _ _).1]
        refine ⟨by omega, fun hb => ?_⟩
        rw [h5 0 hI2.2.1]; exact hI2.2.2 hb
  refine agrees_of_inv c (fun op => noAssign op ∧ noWrite op) I (fun x w i f _ => hdata x w i f) (fun x w i f g hok => absurd hok.2 (by simp [noWrite]))
    ?_ (fun i x hok => by simp [noAssign] at hok) ?_ ?_ ops e _ w os hops ?_ h
  · intro x w i f _ hI hf
    refine ⟨hI.1, ?_, ?_⟩
    · unfold World.clear
      rw [(setCache_heap _ _ _).2, (setCache_heap _ _ _).2]
      simp only [setCache_get]
      exact setCache_mem _ (fun f hf => ⟨hf.1, hf.2.1, by simp⟩) _ _ (setCache_mem _ (fun f hf => ⟨hf.1, hf.2.1, by simp⟩) _ _ hI.2.1)
    · unfold World.clear
      rw [(setCache_heap _ _ _).2, (setCache_heap _ _ _).2, (setCache_heap _ _ _).1, (setCache_heap _ _ _).1]
      exact hI.2.2
  · intro x w i f ce hI hf
    refine ⟨hI.1, ?_, hI.2.2⟩
    intro f' hf'
    simp only [List.mem_append, List.mem_singleton] at hf'
    rcases hf' with hf' | rfl
    · exact hI.2.1 f' hf'
    · obtain ⟨p, q, r⟩ := hI.2.1 f (get_mem hf)
      exact ⟨p, rfl, r⟩
  · intro x w i f b _ hI hf
    obtain ⟨p, q, r⟩ := hI.2.1 f (get_mem hf)
    refine ⟨⟨hI.1, ?_, hI.2.2⟩, ⟨hI.1, ?_, hI.2.2⟩⟩ <;>
    · intro f' hf'
      simp only [List.mem_append, List.mem_singleton] at hf'
      rcases hf' with hf' | rfl
      · exact hI.2.1 f' hf'
      · exact ⟨p, by first | exact q | rfl, by simp [shell]⟩
  · refine ⟨rfl, ?_, by simp [start], fun _ => rfl⟩
    intro f hf
    simp only [start, List.mem_singleton] at hf
    subst hf
    exact ⟨hS ▸ rfl, rfl, by simp⟩

/-- C162, the source is an array: all fields show this array, so that reading any of them gives what was written last through any of them, whatever is
    converted, copied, read, written in place and cleared in between. -/
theorem C162_shared_partial (c : Cfg V) (htf : c.tf = none) (center : Center) (v : V)
    (ops : List (Op V)) (hops : ∀ op ∈ ops, noAssign op) (w : World V) (os : List (Out V))
    (h : (start center false true v).run c ops = some (w, os)) : Agrees v ops os := by
  let a : View := ⟨0, false⟩
  let I : V → World V → Prop := fun x w => w.heap 0 = x ∧
    ∀ f ∈ w.flds, f.src = .mem a ∧ f.refl = false ∧ (f.cache = none ∨ f.cache = some a)
  have hdata : ∀ (x : V) (w : World V) (i : Nat) (f : Fld V), I x w → w.flds[i]? = some f →
      (w.data c i f).2 = a ∧ I x (w.data c i f).1 := by
    intro x w i f hI hf
    obtain ⟨hsrc, hrefl, hcache⟩ := hI.2 f (get_mem hf)
    rcases hcache with hfc | hfc
    · have hl : w.load c f = (w, a) := by
        unfold World.load; rw [hsrc, hrefl, htf]; rfl
      simp only [World.data, hfc, World.fill, hl]
      refine ⟨trivial, ?_, ?_⟩
      · rw [(setCache_heap _ _ _).1, (setCache_heap _ _ _).1]; exact hI.1
      · exact setCache_mem _ (fun f hf => ⟨hf.1, hf.2.1, Or.inr rfl⟩) _ _ (setCache_mem _ (fun f hf => ⟨hf.1, hf.2.1, Or.inr rfl⟩) _ _ hI.2)
    · simp only [World.data, hfc]
      exact ⟨trivial, hI⟩
  refine agrees_of_inv c noAssign I ?_ ?_ ?_ (fun i x hok => by simp [noAssign] at hok) ?_ ?_ ops v _ w os hops ?_ h
  · intro x w i f _ hI hf
    obtain ⟨h1, h2⟩ := hdata x w i f hI hf
    rw [h1]
    exact ⟨h2.1, h2⟩
  · intro x w i f g _ hI hf
    obtain ⟨h1, h2⟩ := hdata x w i f hI hf
    rw [h1]
    refine ⟨?_, h2.2⟩
    have : (w.data c i f).1.get c a = x := h2.1
    rw [this]; simp [World.put, a]
  · intro x w i f _ hI hf
    unfold World.clear
    refine ⟨?_, ?_⟩
    · rw [(setCache_heap _ _ _).1, (setCache_heap _ _ _).1]; exact hI.1
    · exact setCache_mem _ (fun f hf => ⟨hf.1, hf.2.1, Or.inl rfl⟩) _ _ (setCache_mem _ (fun f hf => ⟨hf.1, hf.2.1, Or.inl rfl⟩) _ _ hI.2)
  · intro x w i f ce hI hf
    refine ⟨hI.1, ?_⟩
    intro f' hf'
    simp only [List.mem_append, List.mem_singleton] at hf'
    rcases hf' with hf' | rfl
    · exact hI.2 f' hf'
    · obtain ⟨p, q, r⟩ := hI.2 f (get_mem hf)
      exact ⟨p, rfl, r⟩
  · intro x w i f b _ hI hf
    obtain ⟨p, q, r⟩ := hI.2 f (get_mem hf)
    refine ⟨⟨hI.1, ?_⟩, ⟨hI.1, ?_⟩⟩ <;>
    · intro f' hf'
      simp only [List.mem_append, List.mem_singleton] at hf'
      rcases hf' with hf' | rfl
      · exact hI.2 f' hf'
      · exact ⟨p, by first | exact q | rfl, Or.inl rfl⟩
  · refine ⟨rfl, ?_⟩
    intro f hf
    simp only [start, List.mem_singleton] at hf
    subst hf
    exact ⟨rfl, rfl, Or.inl rfl⟩

/-- C162, the field is read before it is converted: all fields show the array that was read, also with reflected coordinates and transformed data,
    until a cache is cleared, new data is assigned or a shell copy is made. -/
theorem C162_read_first_partial (c : Cfg V) (hmir : ∀ v, c.mirror (c.mirror v) = v) (center : Center) (refl inMemory : Bool) (v : V)
    (ops : List (Op V)) (hops : ∀ op ∈ ops, noAssign op ∧ noClear op ∧ noCopy op) (w : World V) (os : List (Out V))
    (h : (start center refl inMemory v).run c (.read 0 :: ops) = some (w, os)) :
    Agrees (let x := if refl then c.mirror v else v; match c.tf with | none => x | some g => g x) (.read 0 :: ops) os := by
  obtain ⟨e, he⟩ : ∃ e, e = (let x := if refl then c.mirror v else v; match c.tf with | none => x | some g => g x) := ⟨_, rfl⟩
  rw [← he]
  obtain ⟨f0, hf0⟩ : ∃ f0 : Fld V, (start center refl inMemory v).flds = [f0] ∧ f0.cache = none ∧ f0.parent = none ∧
    ((start center refl inMemory v).load c f0).1.flds = [f0] ∧
    ((start center refl inMemory v).load c f0).1.get c ((start center refl inMemory v).load c f0).2 = e := by
    refine ⟨_, rfl, rfl, rfl, ?_, ?_⟩
    · unfold World.load start
      cases inMemory <;> cases c.tf <;> simp only [World.alloc, World.put, Bool.false_eq_true, if_true, if_false] <;> (try rfl) <;>
        (cases c.copy <;> rfl)
    · rw [he]
      unfold World.load start
      cases inMemory <;> cases c.tf <;> cases refl <;>
        simp only [World.alloc, World.put, World.get, Bool.false_eq_true, if_true, if_false, bne_self_eq_false, Bool.false_bne] <;>
        (cases c.copy <;> simp [hmir])
  obtain ⟨hfl, hc0, hp0, hlf, hle⟩ := hf0
  obtain ⟨w1, hw1⟩ : ∃ w1, w1 = ((start center refl inMemory v).load c f0).1 := ⟨_, rfl⟩
  obtain ⟨a, ha⟩ : ∃ a, a = ((start center refl inMemory v).load c f0).2 := ⟨_, rfl⟩
  rw [← hw1, ← ha] at hle
  rw [← hw1] at hlf
  let I : V → World V → Prop := fun x w => w.get c a = x ∧ ∀ f ∈ w.flds, f.cache = some a
  have hstep : (start center refl inMemory v).step c (.read 0) = some (w1.setCache (some 0) (some a), .val e) := by
    simp only [World.step, hfl, List.length_cons, List.length_nil, Nat.zero_add, Nat.lt_add_one, getElem?_pos, List.getElem_cons_zero, Option.map_some,
      World.data, hc0, World.fill, hp0, ← hw1, ← ha]
    show some (w1.setCache (some 0) (some a), Out.val ((w1.setCache (some 0) (some a)).get c a)) = _
    rw [setCache_get, hle]
  simp only [World.run] at h
  rw [hstep] at h
  simp only at h
  cases hr : (w1.setCache (some 0) (some a)).run c ops with
  | none => rw [hr] at h; simp at h
  | some r =>
    obtain ⟨w2, os'⟩ := r
    rw [hr] at h
    simp only [Option.some.injEq, Prod.mk.injEq] at h
    rw [← h.2]
    refine ⟨rfl, ?_⟩
    refine agrees_of_inv c (fun op => noAssign op ∧ noClear op ∧ noCopy op) I ?_ ?_ (fun x w i f hok => absurd hok.2.1 (by simp [noClear]))
      (fun i x hok => by simp [noAssign] at hok) ?_ (fun x w i f b hok => by simp [noCopy] at hok) ops e _ w2 os' hops ?_ hr
    · intro x w i f _ hI hf
      have := hI.2 f (get_mem hf)
      simp only [World.data, this]
      exact ⟨hI.1, hI⟩
    · intro x w i f g _ hI hf
      have := hI.2 f (get_mem hf)
      simp only [World.data, this]
      refine ⟨?_, hI.2⟩
      rw [hI.1]
      unfold World.get World.put
      cases a.mir <;> simp [hmir]
    · intro x w i f ce hI hf
      refine ⟨hI.1, ?_⟩
      intro f' hf'
      simp only [List.mem_append, List.mem_singleton] at hf'
      rcases hf' with hf' | rfl
      · exact hI.2 f' hf'
      · exact hI.2 f (get_mem hf)
    · refine ⟨by rw [setCache_get]; exact hle, ?_⟩
      simp only [World.setCache, hlf, List.modify_zero_cons]
      intro f hf
      simp only [List.mem_singleton] at hf
      rw [hf]

/-- C162, what conversions give: for `node` and `cell` a field with this centering, which is the field itself if it has it; the field itself if no
    centering is given; else a NotImplementedError. No other field changes, and nothing is read. -/
theorem C162_convert (w : World V) (i : Nat) (f : Fld V) (hf : w.flds[i]? = some f) (c : Cfg V) :
    (∀ tgt ce, (tgt = .node ∧ ce = Center.node) ∨ (tgt = .cell ∧ ce = Center.cell) →
      ∃ w' j g, w.step c (.convert i tgt) = some (w', .field j) ∧ w'.flds[j]? = some g ∧ g.center = ce ∧ w'.heap = w.heap ∧ w'.next = w.next ∧
        w'.flds.take w.flds.length = w.flds ∧ (f.center = ce → w' = w ∧ j = i) ∧ (f.center ≠ ce → j = w.flds.length ∧ g.parent = some i)) ∧
    w.step c (.convert i .none) = some (w, .field i) ∧
    (∀ s, w.step c (.convert i (.other s)) = some (w, .notImplemented)) := by
  refine ⟨?_, by simp [World.step, hf, World.asCentered], fun s => by simp [World.step, hf, World.asCentered, Target.center]⟩
  rintro tgt ce h
  by_cases hc : f.center = ce
  · refine ⟨w, i, f, ?_, hf, hc, rfl, rfl, by simp, fun _ => ⟨rfl, rfl⟩, fun h => absurd hc h⟩
    rcases h with ⟨rfl, rfl⟩ | ⟨rfl, rfl⟩ <;> simp [World.step, hf, World.asCentered, Target.center, hc]
  · refine ⟨{ w with flds := w.flds ++ [convert i f ce] }, w.flds.length, convert i f ce, ?_, by simp, rfl, rfl, rfl, by simp, fun h => absurd h hc,
      fun _ => ⟨rfl, rfl⟩⟩
    rcases h with ⟨rfl, rfl⟩ | ⟨rfl, rfl⟩ <;> simp [World.step, hf, World.asCentered, Target.center, hc]

/-- C162, every operation on a field that exists gives something: nothing hangs on the history. -/
theorem C162_total (c : Cfg V) (w : World V) (op : Op V) :
    (w.step c op).isSome ↔ (match op with | .convert i _ => i | .shell i _ => i | .adjust i => i | .read i => i | .clear i => i | .assign i _ => i | .write i _ => i) < w.flds.length := by
  cases op <;> simp [World.step]

/-- C162, copies: `shell_copy` of a field that was not read, or with `force`, is a new field with the same centering and the same reflected axes, that
    has not been read and shares nothing but the source; otherwise it is the field itself. -/
theorem C162_copy (c : Cfg V) (w : World V) (i : Nat) (f : Fld V) (hf : w.flds[i]? = some f) (force : Bool) :
    (f.cache = none ∨ force = true → w.step c (.shell i force) =
      some ({ w with flds := w.flds ++ [⟨f.center, f.src, f.refl, none, none⟩] }, .field w.flds.length)) ∧
    (f.cache ≠ none → force = false → w.step c (.shell i force) = some (w, .field i)) := by
  refine ⟨fun h => ?_, fun h1 h2 => ?_⟩
  · rcases h with h | h <;> simp [World.step, hf, World.shellCopy, shell, h]
  · cases hc : f.cache with
    | none => exact absurd hc h1
    | some a => simp [World.step, hf, World.shellCopy, hc, h2]

/-- C162, assigning: a field without reflected axes shows the data that was assigned to it, whatever happened to it before. -/
theorem C162_assign_partial (c : Cfg V) (htf : c.tf = none) (w : World V) (i : Nat) (f : Fld V) (hf : w.flds[i]? = some f) (hr : f.refl = false) (x : V) :
    ∃ w', w.step c (.assign i x) = some (w', .done) ∧ (w'.step c (.read i)).map Prod.snd = some (.val x) := by
  have hlt : i < w.flds.length := (List.getElem?_eq_some_iff.mp hf).1
  obtain ⟨g, hg1, hg2, hg3⟩ : ∃ g : Fld V, (w.clear i f).flds[i]? = some g ∧ g.refl = false ∧ g.cache = none := by
    unfold World.clear
    cases hp : f.parent with
    | none => exact ⟨{ f with cache := none }, by simp [World.setCache, hf], hr, rfl⟩
    | some k =>
      by_cases hk : k = i
      · subst hk; exact ⟨{ f with cache := none }, by simp [World.setCache, hf], hr, rfl⟩
      · exact ⟨{ f with cache := none }, by simp [World.setCache, hf, List.getElem?_modify, hk], hr, rfl⟩
  have hstep : w.step c (.assign i x) = some (⟨((w.clear i f).alloc x).1.heap, ((w.clear i f).alloc x).1.next,
      (w.clear i f).flds.modify i fun q => { q with src := .mem ((w.clear i f).alloc x).2 }⟩, .done) := by
    simp only [World.step, hf, Option.map_some]
    rfl
  have hg4 : ((w.clear i f).flds.modify i fun q => { q with src := .mem ((w.clear i f).alloc x).2 })[i]? =
      some { g with src := .mem ((w.clear i f).alloc x).2 } := by
    rw [List.getElem?_modify, hg1]; simp
  refine ⟨_, hstep, ?_⟩
  simp only [World.step, hg4, Option.map_some, World.data, hg3, World.fill, World.load, htf, hg2]
  simp [World.get, World.setCache, World.alloc]
  cases g.parent <;> simp

/-- C162 fails for reflected coordinates (of OpenGGCM files that are turned to GSE when they are read): a field that was converted before it was read
    shows the data as it is on disk, not mirrored as its coordinates are. And if it is the first to be read, the field it was made of shows the same from
    then on, although it shows the mirrored data if it is read first. -/
theorem C162_reflected_violated (c : Cfg V) (htf : c.tf = none) (v : V) :
    ((start .node true false v).run c [.read 0]).map Prod.snd = some [.val (c.mirror v)] ∧
    ((start .node true false v).run c [.convert 0 .cell, .read 1, .read 0]).map Prod.snd = some [.field 1, .val v, .val v] ∧
    ((start .cell true false v).run c [.convert 0 .node, .read 0, .read 1]).map Prod.snd = some [.field 1, .val (c.mirror v), .val v] := by
  obtain ⟨m, tf, cp⟩ := c
  subst htf
  exact ⟨rfl, rfl, rfl⟩

/-- C162 fails for reflected coordinates also without conversion: data that is assigned to a field is mirrored when it is read back. -/
theorem C162_assign_reflected_violated (c : Cfg V) (htf : c.tf = none) (center : Center) (b : Bool) (v x : V) :
    ((start center true b v).run c [.assign 0 x, .read 0]).map Prod.snd = some [.done, .val (c.mirror x)] := by
  obtain ⟨m, tf, cp⟩ := c
  subst htf
  cases b <;> rfl

/-- C162 fails for data that is assigned to the converted field: if the original shows it depends on which of them is read first. -/
theorem C162_assign_converted_violated (c : Cfg V) (htf : c.tf = none) (b : Bool) (v x : V) :
    ((start .node false b v).run c [.convert 0 .cell, .assign 1 x, .read 0]).map Prod.snd = some [.field 1, .done, .val v] ∧
    ((start .node false b v).run c [.convert 0 .cell, .assign 1 x, .read 1, .read 0]).map Prod.snd = some [.field 1, .done, .val x, .val x] := by
  obtain ⟨m, tf, cp⟩ := c
  subst htf
  cases b <;> exact ⟨rfl, rfl⟩

/-- C162 fails for data that is assigned to the original: the converted field keeps the old data, and reading it puts the old data back into the cache of
    the original. -/
theorem C162_assign_original_violated (c : Cfg V) (htf : c.tf = none) (b : Bool) (v x : V) :
    ((start .node false b v).run c [.convert 0 .cell, .assign 0 x, .read 0, .read 1, .read 0]).map Prod.snd =
      some [.field 1, .done, .val x, .val v, .val v] := by
  obtain ⟨m, tf, cp⟩ := c
  subst htf
  cases b <;> rfl

/-- C162 fails for files, if the field is converted before it is read: what is written into the data is lost when the converted field is read. -/
theorem C162_write_lost_violated (c : Cfg V) (htf : c.tf = none) (v : V) (g : V → V) :
    ((start .node false false v).run c [.convert 0 .cell, .write 0 g, .read 0, .read 1, .read 0]).map Prod.snd =
      some [.field 1, .done, .val (g v), .val v, .val v] := by
  obtain ⟨m, tf, cp⟩ := c
  subst htf
  rfl

/-- C162 fails for files, if the cache of a converted field is cleared: the original is read again, other converted fields still show what was written. -/
theorem C162_clear_violated (c : Cfg V) (htf : c.tf = none) (v : V) (g : V → V) :
    ((start .node false false v).run c [.read 0, .convert 0 .cell, .convert 0 .cell, .write 0 g, .clear 1, .read 0, .read 2]).map Prod.snd =
      some [.val v, .field 1, .field 2, .done, .done, .val v, .val (g v)] := by
  obtain ⟨m, tf, cp⟩ := c
  subst htf
  rfl

/-- C162 fails for arrays that are transformed in place: they are transformed again whenever they are read again. -/
theorem C162_transform_violated (m : V → V) (g : V → V) (v : V) :
    ((start .node false true v).run ⟨m, some g, false⟩ [.read 0, .clear 0, .read 0]).map Prod.snd = some [.val (g v), .done, .val (g (g v))] ∧
    ((start .node false true v).run ⟨m, some g, false⟩ [.convert 0 .cell, .read 0, .read 1, .read 0]).map Prod.snd =
      some [.field 1, .val (g v), .val (g (g v)), .val (g (g v))] := ⟨rfl, rfl⟩

/-- C162 fails for copies with adjusted coordinates of fields of files: what was written into the data is not in the copy, and with reflected coordinates
    the copy shows the data as it is on disk, not mirrored as its coordinates are, even if the field was read before. -/
theorem C162_adjusted_violated (c : Cfg V) (htf : c.tf = none) (center : Center) (v : V) (g : V → V) :
    ((start center false false v).run c [.write 0 g, .adjust 0, .read 0, .read 1]).map Prod.snd = some [.done, .field 1, .val (g v), .val v] ∧
    ((start center true false v).run c [.read 0, .adjust 0, .read 0, .read 1]).map Prod.snd =
      some [.val (c.mirror v), .field 1, .val (c.mirror v), .val v] := by
  obtain ⟨m, tf, cp⟩ := c
  subst htf
  exact ⟨rfl, rfl⟩

/-- C162, `shell_copy`: a field that has been read is returned itself unless a copy is forced, and a copy does not share the array of a file. -/
theorem C162_shell_copy (c : Cfg V) (htf : c.tf = none) (center : Center) (v : V) (g : V → V) :
    ((start center false false v).run c [.read 0, .write 0 g, .shell 0 false, .shell 0 true, .read 0, .read 1, .write 1 g, .clear 0, .read 0, .read 1]).map
      Prod.snd = some [.val v, .done, .field 0, .field 1, .val (g v), .val v, .done, .done, .val v, .val (g v)] := by
  obtain ⟨m, tf, cp⟩ := c
  subst htf
  rfl

/-- programs that meet the hypotheses -/
example : (∀ op ∈ [Op.convert 0 .cell, .read 1, .clear 1, .convert 1 .node, .adjust 2, .read 3, .read (V := Nat) 0], noAssign op ∧ noWrite op) ∧
    ((start .node false false 7).run ⟨id, some (· + 1), false⟩ [.convert 0 .cell, .read 1, .clear 1, .convert 1 .node, .adjust 2, .read 3, .read 0]).map Prod.snd =
      some [.field 1, .val 8, .done, .field 2, .field 3, .val 8, .val 8] := by
  refine ⟨by simp [noAssign, noWrite], rfl⟩

example : (∀ op ∈ [Op.convert 0 .cell, .write 1 (· ++ [3]), .clear 1, .convert 1 .node, .write 2 List.reverse, .read (V := List Nat) 0], noAssign op) ∧
    ((start .node false true [1, 2]).run ⟨List.reverse, none, false⟩ [.convert 0 .cell, .write 1 (· ++ [3]), .clear 1, .convert 1 .node,
      .write 2 List.reverse, .read 0]).map Prod.snd = some [.field 1, .done, .done, .field 2, .done, .val [3, 2, 1]] := by
  refine ⟨by simp [noAssign], rfl⟩

example : (∀ op ∈ [Op.convert 0 .cell, .write 1 (· ++ [3]), .convert 1 .node, .read (V := List Nat) 2], noAssign op ∧ noClear op ∧ noCopy op) ∧
    (∀ l : List Nat, l.reverse.reverse = l) ∧
    ((start .node true false [1, 2]).run ⟨List.reverse, none, false⟩ [.read 0, .convert 0 .cell, .write 1 (· ++ [3]), .convert 1 .node, .read 2]).map
      Prod.snd = some [.val [2, 1], .field 1, .done, .field 2, .val [2, 1, 3]] := by
  refine ⟨by simp [noAssign, noClear, noCopy], by simp, rfl⟩

/-! ## C163: where the values are -/

open Viscid.Crds (Uniform Axis linspace mid)

/-- C163, arrays: the nodes of a cell centred field that was made node centred are halfway between the nodes of the field, as it shows them (with
    reflections applied). A single node stays where it is. -/
theorem C163_arrays_partial (a : Axis) (hcc : a.cc = none) :
    (2 ≤ a.nodes.length → (axisToNode a).nodes.length + 1 = a.nodes.length ∧
      ∀ (i : Nat) (x y : ℚ), a.nodes[i]? = some x → a.nodes[i + 1]? = some y → (axisToNode a).nodes[i]? = some ((x + y) / 2)) ∧
    (∀ x, a.nodes = [x] → (axisToNode a).nodes = [x]) := by
  have h : (axisToNode a).nodes = mid a.nodes := by
    show a.centres = _
    unfold Axis.centres; rw [hcc]
  rw [h]
  refine ⟨fun h2 => ⟨by rw [Crds.mid_length _ h2]; omega, fun i x y hx hy => ?_⟩, fun x hx => by rw [hx]; rfl⟩
  rw [Crds.mid_get _ h2 i x y hx hy]
  congr 1; ring

/-- C163, evenly spaced arrays with at least three nodes: a node centred field that was made cell centred and node centred again has the nodes it had. -/
theorem C163_even_arrays_partial (l : List ℚ) (d w : ℚ) (h3 : 3 ≤ l.length) (hd : Spec.Crds.Equidistant l d) :
    ((axisToCell ⟨l, none, false⟩ w).map fun a => (axisToNode a).nodes) = some l := by
  obtain ⟨b, hb, hc⟩ := Crds.C65_equidistant_partial l d w h3 hd
  unfold axisToCell
  rw [hb]
  exact congrArg some hc

/-- C163, uniform coordinates, forth and back: a node centred field that was made cell centred and node centred again has the nodes it had. -/
theorem C163_node_cell_node_partial (u : Uniform) (w : ℚ) (hn : 1 ≤ u.n) (hne : u.xl ≠ u.xh) : uniformToNode (uniformToCell u w) = u := by
  obtain ⟨xl, xh, n⟩ := u
  simp only at hn hne
  have h0 : (n : ℚ) ≠ 0 := by
    have : (1 : ℚ) ≤ n := by exact_mod_cast hn
    linarith
  have h1 : (n : ℚ) + 1 ≠ 0 := by
    have : (1 : ℚ) ≤ n := by exact_mod_cast hn
    linarith
  have hd : 0 < |(xh - xl) / (n : ℚ)| := abs_pos.mpr (div_ne_zero (sub_ne_zero.mpr (Ne.symm hne)) h0)
  simp only [uniformToNode, uniformToCell, Uniform.nc2cc, Uniform.xlCc, Uniform.xhCc, Uniform.shapeCc, Uniform.halfDx, if_pos hd, Uniform.mk.injEq]
  have hm : max (n + 1) 1 = n + 1 := by omega
  rw [hm]
  push_cast
  refine ⟨?_, ?_, by omega⟩
  · field_simp; ring
  · field_simp; ring

/-- C163, uniform coordinates, back and forth: a cell centred field that was made node centred and cell centred again has the nodes it had. -/
theorem C163_cell_node_cell_partial (u : Uniform) (w : ℚ) (hn : 2 ≤ u.n) (hne : u.xl ≠ u.xh) : uniformToCell (uniformToNode u) w = u := by
  obtain ⟨xl, xh, n⟩ := u
  simp only at hn hne
  obtain ⟨k, rfl⟩ : ∃ k, n = k + 2 := ⟨n - 2, by omega⟩
  have hk : (0 : ℚ) ≤ k := by exact_mod_cast Nat.zero_le k
  have h1 : (k : ℚ) + 1 ≠ 0 := by linarith
  have h2 : (k : ℚ) + 2 ≠ 0 := by linarith
  have hm : max (k + 2) 1 = k + 2 := by omega
  have hs : max (k + 2 - 1) 0 = k + 1 := by omega
  have e : xh - (1 / 2) * (xh - xl) / ((k + 2 : Nat) : ℚ) - (xl + (1 / 2) * (xh - xl) / ((k + 2 : Nat) : ℚ)) = (xh - xl) * (k + 1) / (k + 2) := by
    push_cast; field_simp; ring
  have hd : 0 < |(xh - xl) * ((k : ℚ) + 1) / (k + 2) / ((k + 1 : Nat) : ℚ)| := by
    push_cast
    exact abs_pos.mpr (div_ne_zero (div_ne_zero (mul_ne_zero (sub_ne_zero.mpr (Ne.symm hne)) h1) h2) h1)
  simp only [uniformToNode, uniformToCell, Uniform.nc2cc, Uniform.xlCc, Uniform.xhCc, Uniform.shapeCc, Uniform.halfDx, hm, hs, e, if_pos hd,
    Uniform.mk.injEq]
  push_cast
  refine ⟨?_, ?_, by trivial⟩
  · field_simp; ring
  · field_simp; ring

/-- C163 fails for uniform coordinates: the first node of the node centred field is not the centre of the first cell, unless there is no extent. -/
theorem C163_uniform_violated (u : Uniform) (hn : 3 ≤ u.n) (hne : u.xl ≠ u.xh) :
    (uniformToNode u).axis.nodes.length = u.axis.centres.length ∧ (uniformToNode u).axis.nodes[0]? ≠ u.axis.centres[0]? := by
  obtain ⟨h1, h2, h3, -⟩ := Crds.C36_centres u (by omega)
  obtain ⟨g1, g2, -⟩ := Crds.C36_nodes (uniformToNode u) (by show 2 ≤ u.shapeCc; omega)
  refine ⟨by rw [g1, h1]; exact h2, ?_⟩
  rw [g2]
  have := (Crds.C36_extent_violated u (by omega) hne).1
  exact fun h => this h.symm

/-- C163 fails for axes with one node: after conversion to cells and back, the node has moved by a quarter of the default width. -/
theorem C163_one_node_violated (x w : ℚ) : (uniformToNode (uniformToCell ⟨x, x, 1⟩ w)).xl = x - w / 4 := by
  simp only [uniformToNode, uniformToCell, Uniform.nc2cc, Uniform.xlCc, Uniform.halfDx]
  norm_num
  ring

/-- C163 fails for arrays with uneven steps: neither round trip gives the nodes back. -/
theorem C163_uneven_violated :
    ((axisToCell ⟨[0, 1, 3], none, false⟩ (1/100000)).map fun a => (axisToNode a).nodes) = some [0, 5/4, 3] ∧
    ((axisToCell (axisToNode ⟨[0, 1, 3, 4], none, false⟩) (1/100000)).map Axis.nodes) = some [-1/4, 5/4, 11/4, 17/4] := by
  refine ⟨by decide +kernel, by decide +kernel⟩

example : (Axis.mk [0, 1, 3] none true).nodes = [-3, -1, 0] ∧ (axisToNode ⟨[0, 1, 3], none, true⟩).nodes = [-2, -1/2] := by
  constructor <;> decide +kernel

example : uniformToCell ⟨0, 8, 4⟩ (1/100000) = ⟨-1, 9, 5⟩ ∧ uniformToNode ⟨-1, 9, 5⟩ = ⟨0, 8, 4⟩ := by
  constructor <;> decide +kernel

end Viscid.Props
