import Verif.Model.Parents
/-!
# C267: parents of nodes
-/
namespace Viscid.Spec.Parents
open Viscid.Parents (Op)

/-- the parents each node should have: what is done with one node changes that node only -/
def should (P : Nat → Option (List Nat)) : Op → Nat → Option (List Nat)
  | .make n ps, k => if k = n then some ps else P k
  | .amr n m, k => if k = n then P m else P k
  | .add p c, k => if k = c then (P k).map (fun l => if p ∈ l then l else l ++ [p]) else P k
  | .remove p c, k => if k = c then (P k).map (fun l => l.erase p) else P k
  | .field n ps pf, k => if k = n then some (pf :: ps) else P k

def history (l : List Op) : Nat → Option (List Nat) := l.foldl should fun _ => none

def isAmr : Op → Bool
  | .amr _ _ => true
  | _ => false

/-- nodes are made with parents that are not repeated -/
def Once : Op → Prop
  | .make _ ps => ps.Nodup
  | .field _ ps pf => (pf :: ps).Nodup
  | _ => True

end Viscid.Spec.Parents

namespace Viscid.Props
open Viscid.Parents Viscid.Spec.Parents

namespace PN

/-- every list has one node -/
structure Inv (w : World) : Prop where
  one : ∀ n m r, w.ref n = some r → w.ref m = some r → n = m
  old : ∀ n r, w.ref n = some r → r < w.next

theorem inv_make {w : World} (h : Inv w) (n : Nat) (ps : List Nat) : Inv (make w n ps) := by
  constructor
  · intro a b r ha hb
    simp only [make] at ha hb
    split at ha <;> split at hb
    · omega
    · have := h.old b r hb; simp only [Option.some.injEq] at ha; omega
    · have := h.old a r ha; simp only [Option.some.injEq] at hb; omega
    · exact h.one a b r ha hb
  · intro a r ha
    simp only [make] at ha ⊢
    split at ha
    · simp only [Option.some.injEq] at ha; omega
    · have := h.old a r ha; omega

theorem parents_make {w : World} (h : Inv w) (n : Nat) (ps : List Nat) (k : Nat) : parents (make w n ps) k = if k = n then some ps else parents w k := by
  simp only [parents, make]
  split
  · simp
  · cases hr : w.ref k with
    | none => rfl
    | some r =>
      have := h.old k r hr
      have : r ≠ w.next := by omega
      simp [this]

theorem ref_alter (w : World) (c : Nat) (f : List Nat → List Nat) : (alter w c f).ref = w.ref ∧ (alter w c f).next = w.next := by
  unfold alter
  split <;> exact ⟨rfl, rfl⟩

theorem inv_alter {w : World} (h : Inv w) (c : Nat) (f : List Nat → List Nat) : Inv (alter w c f) := by
  obtain ⟨h1, h2⟩ := ref_alter w c f
  exact ⟨by rw [h1]; exact h.one, by rw [h1, h2]; exact h.old⟩

theorem parents_alter {w : World} (h : Inv w) (c : Nat) (f : List Nat → List Nat) (k : Nat) :
    parents (alter w c f) k = if k = c then (parents w k).map f else parents w k := by
  unfold alter
  cases hc : w.ref c with
  | none =>
    simp only
    split
    · rename_i e; subst e; simp [parents, hc]
    · rfl
  | some r =>
    simp only [parents]
    split
    · rename_i e; subst e; simp [hc]
    · rename_i e
      cases hk : w.ref k with
      | none => rfl
      | some q =>
        have : q ≠ r := fun e' => e (h.one k c r (e' ▸ hk) hc)
        simp [this]

theorem refine {w : World} (h : Inv w) {P : Nat → Option (List Nat)} (hp : ∀ k, parents w k = P k) : ∀ l : List Op, (∀ o ∈ l, isAmr o = false) →
    ∀ k, parents (run w l) k = l.foldl should P k := by
  intro l
  induction l generalizing w P with
  | nil => intro _ k; exact hp k
  | cons o l ih =>
    intro hl
    have ho := hl o List.mem_cons_self
    have hl' : ∀ o ∈ l, isAmr o = false := fun x hx => hl x (List.mem_cons_of_mem _ hx)
    refine ih (w := step w o) (P := should P o) ?_ ?_ hl'
    · cases o with
      | make n ps => exact inv_make h n ps
      | amr n m => simp [isAmr] at ho
      | add p c => exact inv_alter h c fun l => if p ∈ l then l else l ++ [p]
      | remove p c => exact inv_alter h c fun l => l.erase p
      | field n ps pf => exact inv_alter (inv_make h n ps) n fun l => pf :: l
    · intro k
      cases o with
      | make n ps => simp only [step, parents_make h, should, hp]
      | amr n m => simp [isAmr] at ho
      | add p c => simp only [step, prepareChild, parents_alter h, should, hp]
      | remove p c => simp only [step, tearDownChild, parents_alter h, should, hp]
      | field n ps pf =>
        simp only [step, parentField, parents_alter (inv_make h n ps), parents_make h, should, hp]
        split <;> rfl

theorem nodup_alter {w : World} (h : ∀ i, (w.lists i).Nodup) (c : Nat) (f : List Nat → List Nat) (hf : ∀ l, w.ref c = none ∨ (∃ r, w.ref c = some r ∧ w.lists r = l) → l.Nodup → (f l).Nodup) :
    ∀ i, ((alter w c f).lists i).Nodup := by
  intro i
  unfold alter
  cases hc : w.ref c with
  | none => exact h i
  | some r =>
    simp only
    split
    · rename_i e; subst e; exact hf _ (Or.inr ⟨i, hc, rfl⟩) (h i)
    · exact h i

theorem nodup_run : ∀ (l : List Op) (w : World), (∀ i, (w.lists i).Nodup) → (∀ o ∈ l, Once o) → ∀ i, ((run w l).lists i).Nodup := by
  intro l
  induction l with
  | nil => intro w h _; exact h
  | cons o l ih =>
    intro w h hl
    have ho := hl o List.mem_cons_self
    refine ih (step w o) ?_ fun x hx => hl x (List.mem_cons_of_mem _ hx)
    have mk : ∀ (n : Nat) (ps : List Nat), ps.Nodup → ∀ i, ((make w n ps).lists i).Nodup := by
      intro n ps hp i
      simp only [make]
      split
      · exact hp
      · exact h i
    cases o with
    | make n ps => exact mk n ps ho
    | amr n m => exact h
    | add p c =>
      refine nodup_alter h c _ fun l _ hn => ?_
      split
      · exact hn
      · rename_i hp
        rw [List.nodup_append]
        refine ⟨hn, by simp, fun a ha b hb => ?_⟩
        simp only [List.mem_singleton] at hb
        subst hb
        exact fun e => hp (e ▸ ha)
    | remove p c => exact nodup_alter h c _ fun l _ hn => hn.erase p
    | field n ps pf =>
      have ho' : pf ∉ ps ∧ ps.Nodup := by simpa [Once] using ho
      refine nodup_alter (mk n ps ho'.2) n _ fun l hl hn => ?_
      rcases hl with hl | ⟨r, hr, hl⟩
      · simp [make] at hl
      · simp only [make, if_true, Option.some.injEq] at hr
        subst hr
        simp only [make, if_true] at hl
        subst hl
        exact List.nodup_cons.mpr ho'

end PN
open PN

/-- **C267, without AMR grids.** Whatever is made, added and removed, every node has the parents that it should have: what is done with one node changes the parents of that node only. -/
theorem C267_own_partial (l : List Op) (h : ∀ o ∈ l, isAmr o = false) (k : Nat) : parents (run World.empty l) k = history l k :=
  refine (w := World.empty) ⟨by simp [World.empty], by simp [World.empty]⟩ (fun _ => rfl) l h k

/-- **C267**: a parent is there at most once, whatever was done before, also with AMR grids. Once a child is added it has that parent; once it is removed it does not. -/
theorem C267_once (l : List Op) (h : ∀ o ∈ l, Once o) (p c : Nat) (ps : List Nat) (hc : parents (run World.empty l) c = some ps) :
    ps.Nodup ∧ (∃ qs, parents (run World.empty (l ++ [.add p c])) c = some qs ∧ p ∈ qs ∧ qs.Nodup ∧ ∀ q, q ∈ qs ↔ q = p ∨ q ∈ ps) ∧
    (∃ qs, parents (run World.empty (l ++ [.remove p c])) c = some qs ∧ ∀ q, q ∈ qs ↔ q ≠ p ∧ q ∈ ps) := by
  have hn := nodup_run l World.empty (by simp [World.empty]) h
  have hn2 := nodup_run (l ++ [.add p c]) World.empty (by simp [World.empty]) (by
    intro o ho
    rcases List.mem_append.mp ho with ho | ho
    · exact h o ho
    · simp only [List.mem_singleton] at ho; subst ho; trivial)
  simp only [run, List.foldl_append, List.foldl_cons, List.foldl_nil] at hn hn2 hc ⊢
  generalize List.foldl step World.empty l = w at *
  cases hr : w.ref c with
  | none => simp [parents, hr] at hc
  | some r =>
    simp only [parents, hr, Option.map_some, Option.some.injEq] at hc
    subst hc
    refine ⟨hn r, ⟨if p ∈ w.lists r then w.lists r else w.lists r ++ [p], by simp [step, prepareChild, alter, parents, hr], ?_, ?_, ?_⟩,
      ⟨(w.lists r).erase p, by simp [step, tearDownChild, alter, parents, hr], fun q => (hn r).mem_erase_iff⟩⟩
    · split <;> simp_all
    · have := hn2 r
      simpa [step, prepareChild, alter, hr] using this
    · intro q
      split
      · exact ⟨Or.inr, fun e => e.elim (fun e => e ▸ ‹_›) id⟩
      · simp only [List.mem_append, List.mem_singleton]; exact Or.comm

/-- A case: a dataset 0 with two grids 1 and 2, an AMR grid of them, a field of grid 1 that is centred anew and given to grid 2 -/
example : (∀ o ∈ [Op.make 0 [], .make 1 [], .make 2 [], .add 0 1, .add 0 2, .make 4 [1], .field 5 [] 4, .add 2 5, .remove 2 5], isAmr o = false ∧ Once o) := by
  simp [isAmr, Once]
example : parents (run .empty [Op.make 0 [], .make 1 [], .make 2 [], .add 0 1, .add 0 2, .amr 3 1, .make 4 [1], .field 5 [] 4, .add 2 5]) 5 = some [4, 2] := by decide

/-- **C267 fails** with AMR grids, whatever was done before: a dataset to which an AMR grid is added becomes a parent of its first patch too; and what is removed from
the AMR grid is removed from the first patch. -/
theorem C267_amr_violated (l : List Op) (n m p : Nat) (hm : m ≠ n) (ps : List Nat) (h : parents (run World.empty l) m = some ps) (hp : p ∉ ps) :
    parents (run World.empty (l ++ [.amr n m, .add p n])) m = some (ps ++ [p]) ∧
    history [.make m ps, .amr n m, .add p n] m = some ps ∧
    parents (run World.empty (l ++ [.add p m, .amr n m, .remove p n])) m = some ps ∧
    history [.make m (ps ++ [p]), .amr n m, .remove p n] m = some (ps ++ [p]) := by
  simp only [run, List.foldl_append, List.foldl_cons, List.foldl_nil] at h ⊢
  generalize List.foldl step World.empty l = w at *
  cases hr : w.ref m with
  | none => simp [parents, hr] at h
  | some r =>
    simp only [parents, hr, Option.map_some, Option.some.injEq] at h
    subst h
    refine ⟨?_, ?_, ?_, ?_⟩
    · simp [step, share, prepareChild, alter, parents, hr, hm, hp]
    · simp [history, should, hm]
    · simp [step, share, prepareChild, tearDownChild, alter, parents, hr, hm, hp, List.erase_append_right]
    · simp [history, should, hm]

example : parents (run .empty [Op.make 0 [], .make 1 [], .add 0 1]) 1 = some [0] ∧ (7 : Nat) ∉ [0] := by decide

end Viscid.Props
