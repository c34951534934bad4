import Verif.Spec.Readers
import Mathlib.Order.Defs.LinearOrder
/-!
# C40: file type detection
-/
namespace Viscid.Readers
open Viscid.Spec.Readers

variable {N : Type}

theorem mem_serializeRev {cs : List (Cls N)} {k : N} :
    k ∈ serializeRev cs ↔ ∃ c ∈ cs, k ∈ serialize c := by
  induction cs with
  | nil => simp [serializeRev]
  | cons c cs ih =>
    simp only [serializeRev, List.mem_append, ih, List.mem_cons]
    constructor
    · rintro (⟨d, hd, hk⟩ | hk)
      · exact ⟨d, Or.inr hd, hk⟩
      · exact ⟨c, Or.inl rfl, hk⟩
    · rintro ⟨d, rfl | hd, hk⟩
      · exact Or.inr hk
      · exact Or.inl ⟨d, hd, hk⟩

theorem mem_of_below {t root : Cls N} (h : Below t root) : nameOf t ∈ serialize root := by
  induction h with
  | refl => obtain ⟨n, subs⟩ := t; simp [serialize, nameOf]
  | sub hc _ ih =>
    simp only [serialize, List.mem_append]
    exact Or.inl (mem_serializeRev.mpr ⟨_, hc, ih⟩)

/-- Every occurrence of a name in the serialised hierarchy is immediately preceded by the serialised
subclasses of that occurrence. -/
theorem occurrence (root : Cls N) : ∀ (pre : List N) (b : N) (post : List N), serialize root = pre ++ b :: post →
    ∃ (subs : List (Cls N)) (pre' : List N), Below (.node b subs) root ∧ pre = pre' ++ serializeRev subs := by
  refine Cls.rec
    (motive_1 := fun root => ∀ (pre : List N) (b : N) (post : List N), serialize root = pre ++ b :: post →
      ∃ (subs : List (Cls N)) (pre' : List N), Below (.node b subs) root ∧ pre = pre' ++ serializeRev subs)
    (motive_2 := fun cs => ∀ (pre : List N) (b : N) (post : List N), serializeRev cs = pre ++ b :: post →
      ∃ (subs : List (Cls N)) (pre' : List N) (c : Cls N), c ∈ cs ∧ Below (.node b subs) c ∧
        pre = pre' ++ serializeRev subs)
    ?_ ?_ ?_ root
  · intro n subs ih pre b post h
    simp only [serialize] at h
    rcases List.append_eq_append_iff.mp h with ⟨l, h1, h2⟩ | ⟨l, h1, h2⟩
    · have : l = [] ∧ b = n ∧ post = [] := by
        cases l with
        | nil => simp at h2; exact ⟨rfl, h2.1.symm, h2.2⟩
        | cons x xs => simp at h2
      obtain ⟨rfl, rfl, rfl⟩ := this
      exact ⟨subs, [], Below.refl _, by simpa using h1⟩
    · cases l with
      | nil =>
        simp at h2
        obtain ⟨rfl, rfl⟩ := h2
        refine ⟨subs, [], Below.refl _, by simpa using h1.symm⟩
      | cons x xs =>
        simp only [List.cons_append, List.cons.injEq] at h2
        obtain ⟨rfl, h2⟩ := h2
        obtain ⟨s, p, c, hc, hb, hp⟩ := ih pre b xs h1
        exact ⟨s, p, Below.sub hc hb, hp⟩
  · intro pre b post h
    simp [serializeRev] at h
  · intro c cs ihc ihcs pre b post h
    simp only [serializeRev] at h
    rcases List.append_eq_append_iff.mp h with ⟨l, h1, h2⟩ | ⟨l, h1, h2⟩
    · obtain ⟨s, p, hb, hp⟩ := ihc l b post h2
      exact ⟨s, serializeRev cs ++ p, c, by simp, hb, by rw [h1, hp, List.append_assoc]⟩
    · cases l with
      | nil =>
        simp only [List.nil_append] at h2
        obtain ⟨s, p, hb, hp⟩ := ihc [] b post (by simpa using h2.symm)
        have : p = [] ∧ serializeRev s = [] := by simpa using hp.symm
        refine ⟨s, pre, c, by simp, hb, by rw [this.2]; simp⟩
      | cons x xs =>
        simp only [List.cons_append, List.cons.injEq] at h2
        obtain ⟨rfl, h2⟩ := h2
        obtain ⟨s, p, d, hd, hb, hp⟩ := ihcs pre b xs h1
        exact ⟨s, p, d, by simp [hd], hb, hp⟩

/-- C40, registry order: the registry lists every class of the hierarchy, and nothing else. -/
theorem C40_registry_complete (root : Cls N) (k : N) :
    k ∈ serialize root ↔ ∃ t, Below t root ∧ nameOf t = k := by
  constructor
  · intro h
    obtain ⟨pre, post, h⟩ := List.append_of_mem h
    obtain ⟨subs, _, hb, _⟩ := occurrence root pre k post h
    exact ⟨_, hb, rfl⟩
  · rintro ⟨t, ht, rfl⟩
    exact mem_of_below ht

/-- C40, registry order: a subclass comes before each of its bases. -/
theorem C40_derived_first (root : Cls N) (hcons : Consistent root) (d b : N) (h : Derived root d b)
    (pre post : List N) (hs : serialize root = pre ++ b :: post) : d ∈ pre := by
  obtain ⟨subs, c, t, hb, hc, ht, rfl⟩ := h
  obtain ⟨subs', pre', hb', rfl⟩ := occurrence root pre b post hs
  have : subs = subs' := by
    have := hcons _ _ hb hb' rfl
    injection this
  subst this
  exact List.mem_append_right _ (mem_serializeRev.mpr ⟨c, hc, mem_of_below ht⟩)

theorem insDesc_perm (prio : N → Int) (x : N) (l : List N) : (insDesc prio x l).Perm (x :: l) := by
  induction l with
  | nil => exact List.Perm.refl _
  | cons y ys ih =>
    unfold insDesc
    split
    · exact List.Perm.refl _
    · exact (ih.cons y).trans (List.Perm.swap x y ys)

theorem sortDesc_perm (prio : N → Int) (l : List N) : (sortDesc prio l).Perm l := by
  induction l with
  | nil => exact List.Perm.refl _
  | cons x xs ih => exact (insDesc_perm prio x _).trans (ih.cons x)

theorem insDesc_sorted (prio : N → Int) (x : N) (l : List N) (h : l.Pairwise fun a b => prio b ≤ prio a) :
    (insDesc prio x l).Pairwise fun a b => prio b ≤ prio a := by
  induction l with
  | nil => simp [insDesc]
  | cons y ys ih =>
    unfold insDesc
    rw [List.pairwise_cons] at h
    split
    · rename_i hxy
      refine List.pairwise_cons.mpr ⟨?_, List.pairwise_cons.mpr h⟩
      intro z hz
      rcases List.mem_cons.mp hz with rfl | hz
      · exact hxy
      · exact Int.le_trans (h.1 z hz) hxy
    · rename_i hxy
      refine List.pairwise_cons.mpr ⟨?_, ih h.2⟩
      intro z hz
      rcases List.mem_cons.mp ((insDesc_perm prio x ys).mem_iff.mp hz) with rfl | hz
      · omega
      · exact h.1 z hz

theorem sortDesc_sorted (prio : N → Int) (l : List N) : (sortDesc prio l).Pairwise fun a b => prio b ≤ prio a := by
  induction l with
  | nil => exact List.Pairwise.nil
  | cons x xs ih => exact insDesc_sorted prio x _ ih

theorem insDesc_ties (prio : N → Int) (x : N) (l : List N) (t : Int) :
    (insDesc prio x l).filter (fun c => prio c = t) = (x :: l).filter (fun c => prio c = t) := by
  induction l with
  | nil => rfl
  | cons y ys ih =>
    unfold insDesc
    split
    · rfl
    · rename_i hxy
      rw [List.filter_cons, ih]
      by_cases hy : prio y = t
      · have hx : ¬ prio x = t := by omega
        simp [hy, hx]
      · by_cases hx : prio x = t <;> simp [hy, hx]

theorem sortDesc_ties (prio : N → Int) (l : List N) (t : Int) :
    (sortDesc prio l).filter (fun c => prio c = t) = l.filter (fun c => prio c = t) := by
  induction l with
  | nil => rfl
  | cons x xs ih =>
    show (insDesc prio x (sortDesc prio xs)).filter _ = _
    rw [insDesc_ties, List.filter_cons, List.filter_cons, ih]

/-- What it means that `k` is the choice among the readers `p` of a registry: it is one of them, none has
a higher priority, and all those of equal priority come after it in the registry. -/
def Best (reg : List N) (p : N → Bool) (prio : N → Int) (k : N) : Prop :=
  p k = true ∧ (∀ k' ∈ reg, p k' = true → prio k' ≤ prio k) ∧
    ∃ pre post, reg = pre ++ k :: post ∧ ∀ k' ∈ pre, p k' = true → prio k' < prio k

theorem split_of_filter {α : Type} (q : α → Bool) : ∀ (l : List α) (k : α) (tl : List α), l.filter q = k :: tl →
    ∃ pre post, l = pre ++ k :: post ∧ ∀ x ∈ pre, q x = false := by
  intro l
  induction l with
  | nil => intro k tl h; cases h
  | cons x xs ih =>
    intro k tl h
    by_cases hx : q x = true
    · rw [List.filter_cons_of_pos hx] at h
      cases h
      exact ⟨[], xs, rfl, by simp⟩
    · rw [List.filter_cons_of_neg hx] at h
      obtain ⟨pre, post, rfl, hp⟩ := ih k tl h
      refine ⟨x :: pre, post, rfl, ?_⟩
      intro y hy
      rcases List.mem_cons.mp hy with rfl | hy
      · simpa using hx
      · exact hp y hy

theorem best_of_sorted (reg : List N) (acc q : N → Bool) (prio : N → Int) (k : N) (tl : List N)
    (h : (sortDesc prio (reg.filter acc)).filter q = k :: tl) :
    Best reg (fun n => acc n && q n) prio k := by
  have hperm := sortDesc_perm prio (reg.filter acc)
  have hk : k ∈ (sortDesc prio (reg.filter acc)).filter q := by rw [h]; exact List.mem_cons_self
  obtain ⟨hk1, hk2⟩ := List.mem_filter.mp hk
  obtain ⟨hkreg, hkacc⟩ := List.mem_filter.mp (hperm.mem_iff.mp hk1)
  have hmax : ∀ k' ∈ reg, (acc k' && q k') = true → prio k' ≤ prio k := by
    intro k' hk' hp
    rw [Bool.and_eq_true] at hp
    have hm : k' ∈ (sortDesc prio (reg.filter acc)).filter q :=
      List.mem_filter.mpr ⟨hperm.mem_iff.mpr (List.mem_filter.mpr ⟨hk', hp.1⟩), hp.2⟩
    have hs : ((sortDesc prio (reg.filter acc)).filter q).Pairwise fun a b => prio b ≤ prio a :=
      (sortDesc_sorted prio _).filter _
    rw [h] at hm hs
    rcases List.mem_cons.mp hm with rfl | hm
    · exact Int.le_refl _
    · exact (List.pairwise_cons.mp hs).1 k' hm
  refine ⟨by simp [hkacc, hk2], hmax, ?_⟩
  -- equal priorities keep the registry order
  have ht := sortDesc_ties prio (reg.filter acc) (prio k)
  have hk3 : ((reg.filter acc).filter (fun c => prio c = prio k)).filter q =
      k :: tl.filter (fun c => prio c = prio k) := by
    rw [← ht, List.filter_filter, show (fun a => q a && decide (prio a = prio k)) =
      (fun a => decide (prio a = prio k) && q a) from funext fun a => Bool.and_comm _ _,
      ← List.filter_filter, h, List.filter_cons]
    simp
  rw [List.filter_filter, List.filter_filter] at hk3
  obtain ⟨pre, post, hreg, hpre⟩ := split_of_filter _ _ _ _ hk3
  refine ⟨pre, post, hreg, ?_⟩
  intro k' hk' hp
  have h1 := hpre k' hk'
  have h2 := hmax k' (by rw [hreg]; exact List.mem_append_left _ hk') hp
  rw [Bool.and_eq_true] at hp
  simp only [hp.1, hp.2, Bool.and_true, Bool.true_and, decide_eq_false_iff_not] at h1
  omega

/-- C40: detect_type fails exactly when no reader accepts the file. -/
theorem C40_none_iff (root : Cls N) (accepts : N → Bool) (prio : N → Int) (prefer : Option (N → Bool)) :
    detect root accepts prio prefer = none ↔ ∀ t, Below t root → accepts (nameOf t) = false := by
  have hperm := sortDesc_perm prio ((serialize root).filter accepts)
  unfold detect
  cases hl : sortDesc prio ((serialize root).filter accepts) with
  | nil =>
    simp only [hl, true_iff]
    intro t ht
    rw [hl] at hperm
    have := List.nil_perm.mp hperm
    rw [List.filter_eq_nil_iff] at this
    simpa using this _ (mem_of_below ht)
  | cons k ks =>
    rw [hl] at hperm
    have hk := List.mem_filter.mp (hperm.mem_iff.mp List.mem_cons_self)
    obtain ⟨t, ht, hn⟩ := (C40_registry_complete root k).mp hk.1
    simp only [hl]
    constructor
    · intro h; cases prefer <;> cases h
    · intro h
      have := h t ht
      rw [hn, hk.2] at this
      cases this

/-- C40: without a preference, detect_type returns a reader that accepts the file, with maximal priority
among those, and the first of these in the registry. -/
theorem C40_detect (root : Cls N) (accepts : N → Bool) (prio : N → Int) (k : N)
    (h : detect root accepts prio none = some k) : Best (serialize root) accepts prio k := by
  unfold detect at h
  cases hl : sortDesc prio ((serialize root).filter accepts) with
  | nil => simp only [hl] at h; cases h
  | cons k' ks =>
    simp only [hl] at h
    cases h
    have := best_of_sorted (serialize root) accepts (fun _ => true) prio k ks (by simp [hl])
    simpa using this

/-- C40: so no reader derived from the chosen one accepts the file with the same or a higher priority. -/
theorem C40_most_derived (root : Cls N) (hcons : Consistent root) (accepts : N → Bool) (prio : N → Int) (k d : N)
    (h : detect root accepts prio none = some k) (hd : Derived root d k) (ha : accepts d = true) :
    prio d < prio k := by
  obtain ⟨_, _, pre, post, hreg, hpre⟩ := C40_detect root accepts prio k h
  exact hpre d (C40_derived_first root hcons d k hd pre post hreg) ha

theorem preferLoop_append (likes : N → Bool) (l : List N) (x r : N) :
    preferLoop likes (l ++ [x]) r = if likes x then x else preferLoop likes l r := by
  induction l generalizing r with
  | nil => rfl
  | cons y ys ih => exact ih _

theorem preferLoop_reverse (likes : N → Bool) (l : List N) (r : N) :
    preferLoop likes l.reverse r = match l.filter likes with | [] => r | x :: _ => x := by
  induction l with
  | nil => rfl
  | cons y ys ih =>
    rw [List.reverse_cons, preferLoop_append, ih]
    by_cases hy : likes y = true
    · rw [if_pos hy, List.filter_cons_of_pos hy]
    · rw [if_neg hy, List.filter_cons_of_neg hy]

/-- C40: with a preference, the choice is the best accepting reader with a matching name if there is one,
and otherwise the best accepting reader. -/
theorem C40_prefer (root : Cls N) (accepts likes : N → Bool) (prio : N → Int) (k : N)
    (h : detect root accepts prio (some likes) = some k) :
    Best (serialize root) (fun n => accepts n && likes n) prio k ∨
      ((∀ k' ∈ serialize root, accepts k' = true → likes k' = false) ∧ Best (serialize root) accepts prio k) := by
  unfold detect at h
  cases hl : sortDesc prio ((serialize root).filter accepts) with
  | nil => simp only [hl] at h; cases h
  | cons k' ks =>
    simp only [hl] at h
    rw [preferLoop_reverse, Option.some.injEq] at h
    cases hf : (k' :: ks).filter likes with
    | nil =>
      rw [hf] at h
      cases h
      refine Or.inr ⟨?_, ?_⟩
      · intro n hn ha
        have hm : n ∈ k' :: ks := by
          rw [← hl]
          exact (sortDesc_perm prio _).mem_iff.mpr (List.mem_filter.mpr ⟨hn, ha⟩)
        have := List.filter_eq_nil_iff.mp hf n hm
        simpa using this
      · exact C40_detect root accepts prio k' (by unfold detect; simp only [hl])
    | cons x xs =>
      rw [hf] at h
      cases h
      exact Or.inl (best_of_sorted (serialize root) accepts likes prio x xs (by rw [hl]; exact hf))

/-- A hierarchy with a base (0), two readers (1, 2) and a reader derived from 1 (3). -/
def demo : Cls Nat := .node 0 [.node 1 [.node 3 []], .node 2 []]

example : serialize demo = [2, 3, 1, 0] := by decide +kernel
example : detect demo (fun n => n == 1 || n == 3) (fun _ => 0) none = some 3 := by decide +kernel
example : detect demo (fun n => n != 0) (fun n => if n = 1 then 5 else 0) none = some 1 := by decide +kernel
example : detect demo (fun n => n != 0) (fun _ => 0) (some fun n => n == 1) = some 1 := by decide +kernel

/-- `demo` meets the hypotheses of the theorems about derived classes. -/
example : Derived demo 3 1 :=
  ⟨[.node 3 []], .node 3 [], .node 3 [], Below.sub (c := .node 1 [.node 3 []]) (by simp) (Below.refl _), by simp,
    Below.refl _, rfl⟩

theorem below_node {t : Cls N} {n : N} {subs : List (Cls N)} :
    Below t (.node n subs) ↔ t = .node n subs ∨ ∃ c ∈ subs, Below t c := by
  constructor
  · intro h
    cases h with
    | refl => exact Or.inl rfl
    | sub hc hb => exact Or.inr ⟨_, hc, hb⟩
  · rintro (rfl | ⟨c, hc, hb⟩)
    · exact Below.refl _
    · exact Below.sub hc hb

example : Consistent demo := by
  intro t u ht hu h
  simp only [demo, below_node, List.mem_cons, List.not_mem_nil, or_false, exists_eq_or_imp, exists_eq_left,
    false_and, exists_false] at ht hu
  rcases ht with rfl | (rfl | rfl) | rfl <;> rcases hu with rfl | (rfl | rfl) | rfl <;>
    first | rfl | (simp [nameOf] at h)

end Viscid.Readers
