import Verif.Spec.GgcmFile
import Verif.Props.TimeDelta
import Mathlib.Data.String.Basic
import Mathlib.Tactic.Linarith
import Mathlib.Tactic.Ring
import Mathlib.Data.List.GetD
namespace Viscid.GgcmFile
open Viscid.Spec.GgcmFile

/-! ### words -/

theorem splitWords_word (w rest cur : List Char) (h : ∀ c ∈ w, c.isWhitespace = false) :
    splitWords (w ++ rest) cur = splitWords rest (w.reverse ++ cur) := by
  induction w generalizing cur with
  | nil => rfl
  | cons c w ih =>
    rw [List.cons_append, splitWords, if_neg (by simp [h c]), ih _ fun d hd => h d (by simp [hd])]
    simp

theorem splitWords_blank (b rest : List Char) (h : Blank b) : splitWords (b ++ rest) [] = splitWords rest [] := by
  induction b with
  | nil => rfl
  | cons c b ih =>
    rw [List.cons_append, splitWords, if_pos (h c (by simp)), if_pos rfl]
    exact ih fun d hd => h d (by simp [hd])

theorem splitWords_end (b rest cur : List Char) (h : Blank b) (hb : b ≠ []) (hc : cur ≠ []) :
    splitWords (b ++ rest) cur = cur.reverse :: splitWords rest [] := by
  cases b with
  | nil => exact absurd rfl hb
  | cons c b =>
    rw [List.cons_append, splitWords, if_pos (h c (by simp)), if_neg hc]
    rw [splitWords_blank b rest fun d hd => h d (by simp [hd])]

theorem splitWords_last (rest cur : List Char) (h : ∀ c, rest.head? = some c → c.isWhitespace = true) (hc : cur ≠ []) :
    ∃ l, splitWords rest cur = cur.reverse :: l := by
  cases rest with
  | nil => exact ⟨[], by rw [splitWords, if_neg hc]⟩
  | cons c r => exact ⟨splitWords r [], by rw [splitWords, if_pos (h c rfl), if_neg hc]⟩

theorem header_words {s w0 w1 w2 : List Char} (h : Header s w0 w1 w2) :
    "time=".toList.isPrefixOf s = true ∧ ∃ l, splitWords (s.drop 5) [] = w0 :: w1 :: w2 :: l := by
  obtain ⟨⟨n0, h0⟩, ⟨n1, h1⟩, ⟨n2, h2⟩, b0, b1, b2, rest, hb0, hb1, hb2, e1, e2, hr, rfl⟩ := h
  constructor
  · rw [List.isPrefixOf_iff_prefix]
    simp only [List.append_assoc]
    exact List.prefix_append _ _
  · obtain ⟨l, hl⟩ := splitWords_last rest w2.reverse hr (by simpa using n2)
    refine ⟨l, ?_⟩
    have : List.drop 5 ("time=".toList ++ b0 ++ w0 ++ b1 ++ w1 ++ b2 ++ w2 ++ rest) =
        b0 ++ (w0 ++ (b1 ++ (w1 ++ (b2 ++ (w2 ++ rest))))) := by
      simp only [List.append_assoc]
      rfl
    rw [this, splitWords_blank _ _ hb0, splitWords_word _ _ _ h0, splitWords_end _ _ _ hb1 e1 (by simpa using n0),
      splitWords_word _ _ _ h1, splitWords_end _ _ _ hb2 e2 (by simpa using n1), splitWords_word _ _ _ h2]
    simp only [List.append_nil, List.reverse_reverse, hl]

theorem roundTo_near (x : ℚ) : |x - Viscid.TimeDelta.roundTo x 1| ≤ 1 / 20 := by
  have h := abs_le.mp (Viscid.TimeDelta.nint_near (x * 10 ^ 1))
  unfold Viscid.TimeDelta.roundTo
  rw [abs_le]
  constructor <;> norm_num at h ⊢ <;> linarith

theorem roundTo_tenth (k : Int) : Viscid.TimeDelta.roundTo ((k : ℚ) / 10) 1 = k / 10 := by
  unfold Viscid.TimeDelta.roundTo
  have : (k : ℚ) / 10 * 10 ^ 1 = k := by ring
  rw [this, Viscid.TimeDelta.nint_int]
  norm_num

/-! ### stable sorting -/

theorem insertBy_perm (le : α → α → Bool) (a : α) (l : List α) : (insertBy le a l).Perm (a :: l) := by
  induction l with
  | nil => rfl
  | cons b l ih =>
    rw [insertBy]
    split
    · rfl
    · exact (ih.cons b).trans (List.Perm.swap a b l)

theorem sortBy_perm (le : α → α → Bool) (l : List α) : (sortBy le l).Perm l := by
  induction l with
  | nil => rfl
  | cons a l ih => exact (insertBy_perm le a _).trans (ih.cons a)

theorem sortBy_pairwise [LinearOrder κ] (k : α → κ) (le : α → α → Bool) (hle : ∀ a b, le a b = true ↔ k a ≤ k b)
    (R : α → α → Prop) (l : List α) (h : l.Pairwise R) :
    (sortBy le l).Pairwise fun a b => k a < k b ∨ k a = k b ∧ R a b := by
  induction l with
  | nil => exact .nil
  | cons a l ih =>
    rw [List.pairwise_cons] at h
    have hs := ih h.2
    have hR : ∀ b ∈ sortBy le l, R a b := fun b hb => h.1 b ((sortBy_perm le l).mem_iff.mp hb)
    show (insertBy le a (sortBy le l)).Pairwise _
    generalize sortBy le l = m at hs hR
    clear ih h
    induction m with
    | nil => simp [insertBy]
    | cons b m ih =>
      rw [List.pairwise_cons] at hs
      rw [insertBy]
      split
      · rename_i hab
        rw [hle] at hab
        rw [List.pairwise_cons, List.pairwise_cons]
        refine ⟨fun c hc => ?_, hs⟩
        have hac : k a ≤ k c := by
          rcases List.mem_cons.mp hc with rfl | hc'
          · exact hab
          · rcases hs.1 c hc' with h1 | h1
            · exact hab.trans h1.le
            · exact hab.trans h1.1.le
        rcases lt_or_eq_of_le hac with h1 | h1
        · exact .inl h1
        · exact .inr ⟨h1, hR c hc⟩
      · rename_i hab
        rw [hle, not_le] at hab
        rw [List.pairwise_cons]
        refine ⟨fun c hc => ?_, ih hs.2 fun c hc => hR c (by simp [hc])⟩
        rcases List.mem_cons.mp ((insertBy_perm le a m).mem_iff.mp hc) with rfl | hc'
        · exact .inl hab
        · exact hs.1 c hc'

/-! ### grouping -/

theorem groupRuns_flatten (same : α → α → Bool) (l : List α) : (groupRuns same l).flatten = l := by
  induction l with
  | nil => rfl
  | cons a l ih =>
    rw [groupRuns]
    split
    · rename_i b g gs h
      rw [h] at ih
      split <;> simpa using ih
    · simpa using ih

theorem groupRuns_ne (same : α → α → Bool) (l : List α) : ∀ g ∈ groupRuns same l, g ≠ [] := by
  induction l with
  | nil => simp [groupRuns]
  | cons a l ih =>
    rw [groupRuns]
    split
    · rename_i b g gs h
      rw [h] at ih
      split
      · intro x hx
        rcases List.mem_cons.mp hx with rfl | hx
        · simp
        · exact ih x (by simp [hx])
      · intro x hx
        rcases List.mem_cons.mp hx with rfl | hx
        · simp
        · exact ih x hx
    · intro x hx
      rcases List.mem_cons.mp hx with rfl | hx
      · simp
      · exact ih x hx

/-- grouping a list whose entries are in the order `B` or the same `S` -/
theorem groupRuns_spec (same : α → α → Bool) (S B : α → α → Prop) (hS : ∀ a b, same a b = true ↔ S a b)
    (hrefl : ∀ a, S a a) (hsymm : ∀ a b, S a b → S b a) (htrans : ∀ a b c, S a b → S b c → S a c)
    (hBtrans : ∀ a b c, B a b → B b c → B a c) (hBS : ∀ a b c, B a b → S b c → B a c) (hSB : ∀ a b c, S a b → B b c → B a c)
    (l : List α) (h : l.Pairwise fun a b => B a b ∨ S a b) :
    (∀ g ∈ groupRuns same l, ∀ a ∈ g, ∀ b ∈ g, S a b) ∧
    (groupRuns same l).Pairwise fun g g' => ∀ a ∈ g, ∀ b ∈ g', B a b := by
  induction l with
  | nil => simp [groupRuns]
  | cons a l ih =>
    rw [List.pairwise_cons] at h
    obtain ⟨ih1, ih2⟩ := ih h.2
    have hfl := groupRuns_flatten same l
    have hne := groupRuns_ne same l
    rw [groupRuns]
    split
    · rename_i b g gs hg
      rw [hg] at ih1 ih2 hfl
      rw [List.pairwise_cons] at ih2
      split
      · rename_i hab
        rw [hS] at hab
        have hall : ∀ x ∈ b :: g, S a x := fun x hx => htrans a b x hab (ih1 (b :: g) (by simp) b (by simp) x hx)
        refine ⟨fun x hx => ?_, ?_⟩
        · rcases List.mem_cons.mp hx with rfl | hx
          · intro u hu v hv
            rcases List.mem_cons.mp hu with rfl | hu'
            · rcases List.mem_cons.mp hv with rfl | hv
              · exact hrefl _
              · exact hall v hv
            · rcases List.mem_cons.mp hv with rfl | hv
              · exact hsymm _ _ (hall u hu')
              · exact ih1 (b :: g) (by simp) u hu' v hv
          · exact ih1 x (by simp [hx])
        · rw [List.pairwise_cons]
          refine ⟨fun x hx u hu v hv => ?_, ih2.2⟩
          rcases List.mem_cons.mp hu with rfl | hu
          · exact hSB _ b v hab (ih2.1 x hx b (by simp) v hv)
          · exact ih2.1 x hx u hu v hv
      · rename_i hab
        rw [hS] at hab
        refine ⟨fun x hx => ?_, ?_⟩
        · rcases List.mem_cons.mp hx with rfl | hx
          · intro u hu v hv
            rw [List.mem_singleton] at hu hv
            subst hu hv
            exact hrefl _
          · exact ih1 x hx
        · rw [List.pairwise_cons]
          have hBab : B a b := by
            have hb : b ∈ l := by rw [← hfl]; simp
            rcases h.1 b hb with h1 | h1
            · exact h1
            · exact absurd h1 hab
          refine ⟨fun x hx u hu v hv => ?_, List.pairwise_cons.mpr ih2⟩
          rw [List.mem_singleton] at hu
          subst hu
          rcases List.mem_cons.mp hx with rfl | hx
          · exact hBS _ b v hBab (ih1 (b :: g) (by simp) b (by simp) v hv)
          · exact hBtrans _ b v hBab (ih2.1 x hx b (by simp) v hv)
    · rename_i hg
      have hnil : groupRuns same l = [] := by
        cases hc : groupRuns same l with
        | nil => rfl
        | cons x xs =>
          cases x with
          | nil => exact absurd rfl (hne [] (by rw [hc]; simp))
          | cons b g => exact (hg b g xs hc).elim
      rw [hnil]
      refine ⟨fun x hx u hu v hv => ?_, by simp⟩
      rw [List.mem_singleton] at hx
      subst hx
      rw [List.mem_singleton] at hu hv
      subst hu hv
      exact hrefl _

theorem pairwise_mem {R : α → α → Prop} {l : List α} (h : l.Pairwise R) {a b : α} (ha : a ∈ l) (hb : b ∈ l) :
    a = b ∨ R a b ∨ R b a := by
  induction l with
  | nil => simp at ha
  | cons x l ih =>
    rw [List.pairwise_cons] at h
    rcases List.mem_cons.mp ha with h1 | h1 <;> rcases List.mem_cons.mp hb with h2 | h2
    · exact .inl (h1.trans h2.symm)
    · exact .inr (.inl (h1 ▸ h.1 b h2))
    · exact .inr (.inr (h2 ▸ h.1 a h1))
    · exact ih h.2 h1 h2

theorem matchAll_ok (re : N → Option Match) (m : N → Match) (names : List N) (h : ∀ n ∈ names, re n = some (m n)) :
    matchAll re names = .ok (names.map fun n => (n, m n)) := by
  induction names with
  | nil => rfl
  | cons n ns ih => rw [matchAll, h n (by simp), ih fun k hk => h k (by simp [hk])]; rfl

theorem matchAll_err (re : N → Option Match) (names : List N) (n : N) (hn : n ∈ names) (h : re n = none) :
    matchAll re names = .error .attribute := by
  induction names with
  | nil => simp at hn
  | cons k ns ih =>
    rw [matchAll]
    rcases List.mem_cons.mp hn with rfl | hn
    · rw [h]
    · rw [ih hn]
      cases re k <;> rfl

theorem Before.ne {a b : Match} (h : Before a b) : ¬ SameRun a b := by
  rintro ⟨h1, h2⟩
  rcases h with h | h
  · exact absurd h1 (ne_of_lt h)
  · exact absurd h2 (ne_of_lt h.2)

/-- the sorted files -/
def sorted (l : List (N × Match)) : List (N × Match) :=
  sortBy (fun a b => decide (a.2.run ≤ b.2.run)) (sortBy (fun a b => decide (a.2.ftype ≤ b.2.ftype))
    (sortBy (fun a b => decide (a.2.time ≤ b.2.time)) l))

theorem sorted_perm (l : List (N × Match)) : (sorted l).Perm l :=
  ((sortBy_perm _ _).trans (sortBy_perm _ _)).trans (sortBy_perm _ _)

theorem sorted_order (l : List (N × Match)) :
    (sorted l).Pairwise fun a b => Before a.2 b.2 ∨ SameRun a.2 b.2 ∧ a.2.time ≤ b.2.time := by
  have h1 := sortBy_pairwise (fun a : N × Match => a.2.time) (fun a b => decide (a.2.time ≤ b.2.time)) (by simp)
    (fun _ _ => True) l (List.pairwise_of_forall fun _ _ => trivial)
  have h2 := sortBy_pairwise (fun a : N × Match => a.2.ftype) (fun a b => decide (a.2.ftype ≤ b.2.ftype)) (by simp) _ _ h1
  have h3 := sortBy_pairwise (fun a : N × Match => a.2.run) (fun a b => decide (a.2.run ≤ b.2.run)) (by simp) _ _ h2
  refine h3.imp fun {a b} h => ?_
  rcases h with h | ⟨h, h' | ⟨h', h''⟩⟩
  · exact .inl (.inl h)
  · exact .inl (.inr ⟨h, h'⟩)
  · refine .inr ⟨⟨h, h'⟩, ?_⟩
    rcases h'' with h'' | h''
    · exact h''.le
    · exact h''.1.le

theorem groups_spec (l : List (N × Match)) (gs : List (List (N × Match)))
    (hgs : gs = groupRuns (fun a b => decide (a.2.run = b.2.run ∧ a.2.ftype = b.2.ftype)) (sorted l)) :
    gs.flatten.Perm l ∧ (∀ g ∈ gs, g ≠ []) ∧ (∀ g ∈ gs, ∀ a ∈ g, ∀ b ∈ g, SameRun a.2 b.2) ∧
    (gs.Pairwise fun g g' => ∀ a ∈ g, ∀ b ∈ g', Before a.2 b.2) ∧
    ∀ g ∈ gs, g.Pairwise fun a b => a.2.time ≤ b.2.time := by
  subst hgs
  have hfl := groupRuns_flatten (fun a b : N × Match => decide (a.2.run = b.2.run ∧ a.2.ftype = b.2.ftype)) (sorted l)
  have hord := sorted_order l
  obtain ⟨h1, h2⟩ := groupRuns_spec (fun a b : N × Match => decide (a.2.run = b.2.run ∧ a.2.ftype = b.2.ftype))
    (fun a b => SameRun a.2 b.2) (fun a b => Before a.2 b.2) (fun a b => by simp [SameRun])
    (fun a => ⟨rfl, rfl⟩) (fun a b h => ⟨h.1.symm, h.2.symm⟩) (fun a b c h h' => ⟨h.1.trans h'.1, h.2.trans h'.2⟩)
    (fun a b c h h' => by
      rcases h with h | ⟨h, k⟩ <;> rcases h' with h' | ⟨h', k'⟩
      · exact .inl (h.trans h')
      · exact .inl (h' ▸ h)
      · exact .inl (h ▸ h')
      · exact .inr ⟨h.trans h', k.trans k'⟩)
    (fun a b c h h' => by
      unfold Before at h ⊢
      rw [← h'.1, ← h'.2]
      exact h)
    (fun a b c h h' => by
      unfold Before at h' ⊢
      rw [h.1, h.2]
      exact h') (sorted l) (hord.imp fun {a b} h => h.imp id fun k => k.1)
  refine ⟨by rw [hfl]; exact sorted_perm l, groupRuns_ne _ _, h1, h2, fun g hg => ?_⟩
  have hsub : g.Sublist (sorted l) := by
    rw [← hfl]
    exact List.sublist_flatten_of_mem hg
  refine (hord.sublist hsub).imp_of_mem fun {a b} ha hb h => ?_
  rcases h with h | h
  · exact absurd (h1 g hg a ha b hb) (Before.ne h)
  · exact h.2

theorem dropRunLevel_ne (g : List (N × Match)) (h : g ≠ []) : dropRunLevel g ≠ [] := by
  unfold dropRunLevel
  split
  · rename_i h1
    rw [List.any_eq_true] at h1
    obtain ⟨x, hx, h2⟩ := h1
    intro h3
    have : x ∈ g.filter fun x => x.2.grp3 ≠ none := List.mem_filter.mpr ⟨hx, h2⟩
    rw [h3] at this
    simp at this
  · exact h

theorem dropRunLevel_sublist (g : List (N × Match)) : (dropRunLevel g).Sublist g := by
  unfold dropRunLevel
  split
  · exact List.filter_sublist
  · rfl

open Classical in
theorem dropRunLevel_kept (m : N → Match) (names : List N) (gs : List (List (N × Match)))
    (h1 : gs.flatten.Perm (names.map fun n => (n, m n))) (h2 : ∀ g ∈ gs, ∀ a ∈ g, ∀ b ∈ g, SameRun a.2 b.2)
    (h3 : gs.Pairwise fun g g' => ∀ a ∈ g, ∀ b ∈ g', Before a.2 b.2) (g : List (N × Match)) (hg : g ∈ gs) :
    dropRunLevel g = g.filter fun x => decide (Kept m names x.1) := by
  have hm : ∀ x ∈ g, x.1 ∈ names ∧ x.2 = m x.1 := by
    intro x hx
    have := h1.mem_iff.mp (List.mem_flatten.mpr ⟨g, hg, hx⟩)
    rw [List.mem_map] at this
    obtain ⟨n, hn, rfl⟩ := this
    exact ⟨hn, rfl⟩
  have hin : ∀ x ∈ g, ∀ k ∈ names, SameRun (m x.1) (m k) → (k, m k) ∈ g := by
    intro x hx k hk hs
    have : (k, m k) ∈ gs.flatten := h1.mem_iff.mpr (List.mem_map.mpr ⟨k, hk, rfl⟩)
    obtain ⟨g', hg', hk'⟩ := List.mem_flatten.mp this
    rw [← (hm x hx).2] at hs
    rcases pairwise_mem h3 hg hg' with h | h | h
    · rw [h]; exact hk'
    · exact absurd hs (Before.ne (h x hx _ hk'))
    · exact absurd ⟨hs.1.symm, hs.2.symm⟩ (Before.ne (h _ hk' x hx))
  unfold dropRunLevel
  split
  · rename_i hany
    rw [List.any_eq_true] at hany
    obtain ⟨y, hy, hy2⟩ := hany
    apply List.filter_congr
    intro x hx
    rw [decide_eq_decide]
    constructor
    · intro h
      left
      rw [← (hm x hx).2]
      exact h
    · rintro (h | h)
      · rw [← (hm x hx).2] at h
        exact h
      · have hs := h2 g hg x hx y hy
        rw [(hm x hx).2, (hm y hy).2] at hs
        have := h y.1 (hm y hy).1 hs
        rw [← (hm y hy).2] at this
        exact absurd (by simpa [Slice] using hy2) this
  · rename_i hany
    symm
    rw [List.filter_eq_self]
    intro x hx
    rw [decide_eq_true_iff]
    right
    intro k hk hs hsl
    apply hany
    rw [List.any_eq_true]
    exact ⟨(k, m k), hin x hx k hk hs, by simpa [Slice] using hsl⟩

/-! ### nodes -/

theorem nodes_spec (cc : List ℚ) (h : 2 ≤ cc.length) :
    ∃ nc, nodes cc = .ok nc ∧ nc.length = cc.length + 1 ∧
      nc.getD 0 0 = cc.getD 0 0 - (cc.getD 1 0 - cc.getD 0 0) / 2 ∧
      (∀ i, i + 1 < cc.length → nc.getD (i + 1) 0 = (cc.getD i 0 + cc.getD (i + 1) 0) / 2) ∧
      nc.getD cc.length 0 = cc.getD (cc.length - 1) 0 + (cc.getD (cc.length - 1) 0 - cc.getD (cc.length - 2) 0) / 2 := by
  match cc, h with
  | c0 :: c1 :: cs, _ =>
    refine ⟨_, rfl, ?_, ?_, ?_, ?_⟩
    · simp
    · simp
      ring
    · intro i hi
      simp only [List.getD_cons_succ]
      have hi' : i < cs.length + 1 := by simpa using hi
      rw [List.getD_append _ _ _ _ (by simp; omega), List.getD_eq_getElem _ _ (by simp; omega),
        List.getD_eq_getElem _ _ (by simp; omega), List.getD_eq_getElem _ _ (by simp; omega)]
      simp only [List.getElem_zipWith, List.getElem_dropLast, List.getElem_tail, List.getElem_cons_succ]
      ring
    · simp only [List.length_cons, List.getD_cons_succ]
      rw [List.getD_append_right _ _ _ _ (by simp)]
      simp only [List.getLast?_eq_getElem?, List.length_zipWith, List.length_dropLast, List.length_cons, List.length_tail]
      have e1 : cs.length + 1 + 1 - 1 = cs.length + 1 := by omega
      have e2 : cs.length + 1 + 1 - 2 = cs.length := by omega
      simp only [e1, e2, min_self, Nat.sub_self, List.getD_cons_zero, Nat.add_sub_cancel]
      rw [List.getElem?_eq_getElem (by simp), List.getElem?_eq_getElem (by simp),
        List.getD_eq_getElem _ _ (by simp), List.getD_eq_getElem _ _ (by rw [List.length_cons, List.length_cons]; omega)]
      simp only [Option.getD_some, List.getElem_zipWith, List.getElem_dropLast, List.getElem_tail]
      ring

theorem argminFrom_spec (xs : List ℚ) (all : List ℚ) (i : Nat) (best : ℚ) (ib : Nat)
    (hib : ib < i) (hbest : all[ib]? = some best)
    (hmin : ∀ (j : Nat) (x : ℚ), j < i → all[j]? = some x → best ≤ x ∧ (j < ib → best < x))
    (hxs : xs = all.drop i) (hi : i ≤ all.length) :
    ∃ b, all[argminFrom xs i best ib]? = some b ∧
      ∀ (j : Nat) (x : ℚ), all[j]? = some x → b ≤ x ∧ (j < argminFrom xs i best ib → b < x) := by
  induction xs generalizing i best ib with
  | nil =>
    have hlen : all.length ≤ i := by
      have := congrArg List.length hxs
      simp at this
      omega
    refine ⟨best, hbest, fun j x hj => hmin j x ?_ hj⟩
    have := (List.getElem?_eq_some_iff.mp hj).1
    omega
  | cons y ys ih =>
    have hlt : i < all.length := by
      have := congrArg List.length hxs
      simp at this
      omega
    rw [List.drop_eq_getElem_cons hlt] at hxs
    injection hxs with hy hys
    have hyi : all[i]? = some y := by rw [List.getElem?_eq_getElem hlt, hy]
    rw [argminFrom]
    split
    · rename_i hlt'
      refine ih (i + 1) y i (by omega) hyi ?_ hys (by omega)
      intro j x hj hx
      rcases Nat.lt_succ_iff_lt_or_eq.mp hj with h | h
      · have := (hmin j x h hx).1
        exact ⟨by linarith, fun _ => by linarith⟩
      · subst h
        rw [hyi] at hx
        injection hx with hx
        exact ⟨by linarith, fun h => absurd h (lt_irrefl _)⟩
    · rename_i hge
      refine ih (i + 1) best ib (by omega) hbest ?_ hys (by omega)
      intro j x hj hx
      rcases Nat.lt_succ_iff_lt_or_eq.mp hj with h | h
      · exact hmin j x h hx
      · subst h
        rw [hyi] at hx
        injection hx with hx
        exact ⟨by linarith [not_lt.mp hge], fun h => by omega⟩

end Viscid.GgcmFile
