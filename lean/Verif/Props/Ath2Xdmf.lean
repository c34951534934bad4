import Verif.Spec.Ath2Xdmf
import Mathlib.Data.List.Sort
import Mathlib.Data.List.Perm.Subperm
import Mathlib.Tactic.NormNum
import Mathlib.Tactic.Linarith
import Mathlib.Tactic.Positivity
import Mathlib.Tactic.Choose
import Mathlib.Tactic.Ring
import Mathlib.Tactic.ByContra
/-! # C217: joining the files of processes -/
namespace Viscid.Props
open Viscid.Ath2Xdmf Viscid.Spec.Ath2Xdmf

namespace AX

theorem close_refl (a : ℚ) : close a a = true := by
  simp only [close, sub_self, abs_zero, decide_eq_true_eq]
  have := abs_nonneg a
  positivity

/-- what the proofs need of the arrays of an axis: numbered, one after another -/
structure Line (f : Nat → List ℚ) (n : Nat) : Prop where
  order : ∀ a b, a < b → b < n → last (f a) ≤ first (f b) ∧ first (f a) < first (f b)
  close : ∀ a b, a < n → b < n → (Ath2Xdmf.close (first (f a)) (first (f b)) = true ↔ a = b)

def ins (S : List Nat) (j : Nat) : List Nat := if j ∈ S then S else S.orderedInsert (· ≤ ·) j

theorem place_ins {f n} (h : Line f n) (S : List Nat) (j : Nat) (hS : ∀ a ∈ S, a < n) (hj : j < n) (hn : j ∉ S) :
    place (f j) (S.map f) = .ok ((S.orderedInsert (· ≤ ·) j).map f) := by
  induction S with
  | nil => rfl
  | cons a S ih =>
    have ha := hS a (by simp)
    have hne : j ≠ a := by rintro rfl; simp at hn
    rw [List.map_cons, place]
    by_cases hja : j < a
    · have := h.order j a hja ha
      rw [if_pos this.2, if_neg (by linarith [this.1]), List.orderedInsert, if_pos (by omega)]; rfl
    · have := h.order a j (by omega) hj
      rw [if_neg (by linarith [this.2]), ih (fun b hb => hS b (by simp [hb])) (by intro hb; exact hn (by simp [hb])), List.orderedInsert, if_neg (by omega)]; rfl

theorem find_in {f n} (h : Line f n) (S : List Nat) (j : Nat) (hS : ∀ a ∈ S, a < n) (hj : j < n) :
    (S.map f).find? (fun u => close (first (f j)) (first u)) = if j ∈ S then some (f j) else none := by
  induction S with
  | nil => rfl
  | cons a S ih =>
    have ih := ih fun b hb => hS b (by simp [hb])
    rw [List.map_cons, List.find?_cons]
    by_cases e : j = a
    · subst e; rw [close_refl]; simp
    · have : close (first (f j)) (first (f a)) = false := by
        rw [← Bool.not_eq_true, h.close j a hj (hS a (by simp))]; exact e
      rw [this]; simp only [ih, List.mem_cons, e, false_or]

theorem add_ins {f n} (h : Line f n) (S : List Nat) (j : Nat) (hS : ∀ a ∈ S, a < n) (hj : j < n) :
    add (S.map f) (f j) = .ok ((ins S j).map f) := by
  unfold add ins
  rw [find_in h S j hS hj]
  by_cases e : j ∈ S
  · simp [e, close_refl]
  · simp only [e, if_false]; exact place_ins h S j hS hj e

theorem mem_ins (S : List Nat) (j a : Nat) : a ∈ ins S j ↔ a = j ∨ a ∈ S := by
  unfold ins
  split
  · constructor
    · exact .inr
    · rintro (rfl | h) <;> assumption
  · exact List.mem_orderedInsert ..

theorem sorted_ins (S : List Nat) (j : Nat) (hS : S.Pairwise (· < ·)) : (ins S j).Pairwise (· < ·) := by
  unfold ins
  split
  · exact hS
  · rename_i hj
    induction S with
    | nil => simp
    | cons a S ih =>
      rw [List.pairwise_cons] at hS
      rw [List.orderedInsert]
      split
      · have : j < a := by
          rename_i h; rcases Nat.lt_or_eq_of_le h with h | rfl
          · exact h
          · simp at hj
        rw [List.pairwise_cons]
        refine ⟨?_, List.pairwise_cons.2 hS⟩
        intro b hb
        rcases List.mem_cons.1 hb with rfl | hb
        · exact this
        · exact Nat.lt_trans this (hS.1 b hb)
      · rw [List.pairwise_cons]
        refine ⟨?_, ih hS.2 (by intro h; exact hj (by simp [h]))⟩
        intro b hb
        rw [List.mem_orderedInsert] at hb
        rcases hb with rfl | hb
        · omega
        · exact hS.1 b hb

theorem fold_ins {f n} (h : Line f n) (js : List Nat) (hj : ∀ j ∈ js, j < n) (S : List Nat) (hS : S.Pairwise (· < ·)) (hn : ∀ a ∈ S, a < n) :
    ∃ T : List Nat, (js.map f).foldlM add (S.map f) = .ok (T.map f) ∧ T.Pairwise (· < ·) ∧ ∀ a, a ∈ T ↔ a ∈ S ∨ a ∈ js := by
  induction js generalizing S with
  | nil => exact ⟨S, rfl, hS, by simp⟩
  | cons j js ih =>
    have hj0 := hj j (by simp)
    obtain ⟨T, e, h1, h2⟩ := ih (fun a ha => hj a (by simp [ha])) (ins S j) (sorted_ins S j hS) (by
      intro a ha; rcases (mem_ins S j a).1 ha with rfl | ha
      · exact hj0
      · exact hn a ha)
    refine ⟨T, ?_, h1, ?_⟩
    · rw [List.map_cons, List.foldlM_cons, add_ins h S j hn hj0]; exact e
    · intro a; rw [h2, mem_ins, List.mem_cons]; tauto

theorem sorted_range (T : List Nat) (n : Nat) (h : T.Pairwise (· < ·)) (hm : ∀ a, a ∈ T ↔ a < n) : T = List.range n := by
  have h1 : (List.range n).Pairwise (· < ·) := List.pairwise_lt_range
  have hp : T.Perm (List.range n) := by
    rw [List.perm_ext_iff_of_nodup (h.imp fun h => Nat.ne_of_lt h) List.nodup_range]
    intro a; rw [hm, List.mem_range]
  exact hp.eq_of_pairwise (fun a b _ _ h1 h2 => absurd h1 (by omega)) h h1

theorem uniques_range {f n} (h : Line f n) (js : List Nat) (hm : ∀ a, a ∈ js ↔ a < n) : uniques (js.map f) = .ok ((List.range n).map f) := by
  obtain ⟨T, e, h1, h2⟩ := fold_ins h js (fun a ha => (hm a).1 ha) [] .nil (by simp)
  rw [← sorted_range T n h1 fun a => by rw [h2, ← hm]; simp]
  exact e

theorem findIdx_range {f n} (h : Line f n) (j : Nat) (hj : j < n) : ((List.range n).map f).findIdx? (fun u => close (first (f j)) (first u)) = some j := by
  rw [List.findIdx?_eq_some_iff_getElem]
  refine ⟨by simpa using hj, by simp [close_refl], ?_⟩
  intro k hk
  have := h.close j k hj (by omega)
  simp only [List.getElem_map, List.getElem_range]
  rw [this]; omega

/-- the arrays of a chain, numbered -/
def nth (bs : List (List ℚ)) (k : Nat) : List ℚ := bs[k]?.getD []

theorem range_nth (bs : List (List ℚ)) : (List.range bs.length).map (nth bs) = bs := by
  apply List.ext_getElem? ; intro k
  by_cases hk : k < bs.length
  · simp [hk, nth]
  · simp [List.getElem?_eq_none (show bs.length ≤ k by omega), hk]

theorem first_last (b : List ℚ) (h : 2 ≤ b.length) (hp : b.Pairwise (· < ·)) : b.head? = some (first b) ∧ b.getLast? = some (last b) ∧ first b < last b := by
  match b, h with
  | x :: y :: l, _ =>
    refine ⟨rfl, ?_, ?_⟩
    · simp [last, List.getLastD_eq_getLast?, List.getLast?_eq_some_getLast]
    · rw [List.pairwise_cons] at hp
      have : last (x :: y :: l) ∈ y :: l := by
        simp only [last, List.getLastD_eq_getLast?, List.getLast?_eq_some_getLast (show x :: y :: l ≠ [] by simp), Option.getD_some]
        rw [List.getLast_cons (by simp)]
        exact List.getLast_mem _
      exact hp.1 _ this

theorem chain_pairwise (bs : List (List ℚ)) (h1 : bs.IsChain (fun b c => b.getLast? = c.head?)) (h2 : ∀ b ∈ bs, 2 ≤ b.length ∧ b.Pairwise (· < ·)) :
    bs.Pairwise (fun b c => last b ≤ first c) := by
  induction bs with
  | nil => exact .nil
  | cons b bs ih =>
    have hb := first_last b (h2 b (by simp)).1 (h2 b (by simp)).2
    have ih := ih h1.tail fun c hc => h2 c (by simp [hc])
    refine List.pairwise_cons.2 ⟨?_, ih⟩
    cases bs with
    | nil => simp
    | cons c cs =>
      have hc := first_last c (h2 c (by simp)).1 (h2 c (by simp)).2
      have e : last b = first c := by
        have : b.getLast? = c.head? := by
          cases h1 with
          | cons_cons h _ => exact h
        rw [hb.2.1, hc.1] at this
        exact Option.some.inj this
      intro d hd
      rcases List.mem_cons.1 hd with rfl | hd
      · rw [e]
      · have := (List.pairwise_cons.1 ih).1 d hd
        linarith [hc.2.2]

theorem nth_mem (bs : List (List ℚ)) (k : Nat) (h : k < bs.length) : nth bs k ∈ bs ∧ bs[k]? = some (nth bs k) := by
  unfold nth; rw [List.getElem?_eq_getElem h]; simp

theorem chain_line (bs : List (List ℚ)) (h : Chain bs) : Line (nth bs) bs.length := by
  have hp := chain_pairwise bs h.1 h.2.1
  have ho : ∀ a b, a < b → b < bs.length → last (nth bs a) ≤ first (nth bs b) ∧ first (nth bs a) < first (nth bs b) := by
    intro a b hab hb
    have h1 := List.pairwise_iff_getElem.1 hp a b (by omega) hb hab
    have e : ∀ k (hk : k < bs.length), nth bs k = bs[k] := by intro k hk; simp [nth, hk]
    have h2 := h.2.1 _ (nth_mem bs a (by omega)).1
    have h3 := (first_last _ h2.1 h2.2).2.2
    rw [← e, ← e] at h1
    exact ⟨h1, by linarith⟩
  refine ⟨ho, ?_⟩
  intro a b ha hb
  constructor
  · intro hc
    by_contra hne
    have hfl : ∀ k, k < bs.length → (nth bs k).head? = some (first (nth bs k)) := fun k hk =>
      (first_last _ (h.2.1 _ (nth_mem bs k hk).1).1 (h.2.1 _ (nth_mem bs k hk).1).2).1
    have hd : first (nth bs a) ≠ first (nth bs b) := by
      rcases Nat.lt_or_gt_of_ne hne with h | h
      · exact ne_of_lt (ho a b h hb).2
      · exact ne_of_gt (ho b a h ha).2
    have := h.2.2 _ (nth_mem bs a ha).1 _ (nth_mem bs b hb).1 _ _ (hfl a ha) (hfl b hb) hd
    simp only [close, decide_eq_true_eq] at hc
    linarith
  · rintro rfl; exact close_refl _

theorem coords_cons (b c : List ℚ) (bs : List (List ℚ)) (h : c ≠ []) : coordsOf (b :: c :: bs) = b ++ (coordsOf (c :: bs)).tail := by
  cases c with
  | nil => exact absurd rfl h
  | cons x c => simp [coordsOf]

theorem coords_nodes (bs : List (List ℚ)) (h : Chain bs) : Nodes bs (coordsOf bs) ∧ ∀ b, bs.head? = some b → (coordsOf bs).head? = b.head? := by
  obtain ⟨h1, h2, h3⟩ := h
  clear h3
  induction bs with
  | nil => exact ⟨⟨.nil, by simp [coordsOf]⟩, by simp⟩
  | cons b bs ih =>
    cases bs with
    | nil =>
      have := (h2 b (by simp)).2
      refine ⟨⟨by simpa [coordsOf] using this, by simp [coordsOf]⟩, ?_⟩
      intro c hc; simp at hc; subst hc; simp [coordsOf]
    | cons c cs =>
      obtain ⟨⟨i1, i2⟩, i3⟩ := ih h1.tail (fun d hd => h2 d (by simp [hd]))
      have hb := first_last b (h2 b (by simp)).1 (h2 b (by simp)).2
      have hc := first_last c (h2 c (by simp)).1 (h2 c (by simp)).2
      have e : last b = first c := by
        have : b.getLast? = c.head? := by
          cases h1 with
          | cons_cons h _ => exact h
        rw [hb.2.1, hc.1] at this
        exact Option.some.inj this
      have i3 := i3 c rfl
      have hcne : c ≠ [] := by rintro rfl; have := (h2 [] (by simp)).1; simp at this
      have hbne : b ≠ [] := by rintro rfl; have := (h2 [] (by simp)).1; simp at this
      rw [coords_cons b c cs hcne]
      generalize coordsOf (c :: cs) = l at i1 i2 i3
      rw [hc.1] at i3
      cases l with
      | nil => cases i3
      | cons x l =>
        simp only [List.head?_cons, Option.some.injEq] at i3
        subst i3
        rw [List.tail_cons]
        rw [List.pairwise_cons] at i1
        have hle : ∀ y ∈ b, y ≤ first c := by
          intro y hy
          rw [← e]
          have hbp := (h2 b (by simp)).2
          have := hb.2.1
          rw [List.getLast?_eq_some_getLast hbne, Option.some.injEq] at this
          obtain ⟨k, hk, rfl⟩ := List.getElem_of_mem hy
          rw [← this, List.getLast_eq_getElem]
          by_cases hkk : k = b.length - 1
          · subst hkk; exact le_refl _
          · exact le_of_lt (List.pairwise_iff_getElem.1 hbp _ _ hk (by omega) (by omega))
        refine ⟨⟨?_, ?_⟩, ?_⟩
        · rw [List.pairwise_append]
          refine ⟨(h2 b (by simp)).2, i1.2, ?_⟩
          intro y hy z hz
          exact lt_of_le_of_lt (hle y hy) (i1.1 z hz)
        · intro y
          rw [List.mem_append]
          have i2 := i2 y
          rw [List.mem_cons] at i2
          constructor
          · rintro (h | h)
            · exact ⟨b, by simp, h⟩
            · obtain ⟨d, hd, hy⟩ := i2.1 (.inr h); exact ⟨d, by simp [List.mem_cons.1 hd], hy⟩
          · rintro ⟨d, hd, hy⟩
            rcases List.mem_cons.1 hd with rfl | hd
            · exact .inl hy
            · rcases i2.2 ⟨d, hd, hy⟩ with rfl | h
              · left; rw [← e]; exact List.mem_of_getLast? hb.2.1
              · exact .inr h
        · intro d hd; simp at hd; subst hd
          rw [List.head?_append_of_ne_nil _ hbne]

/-- where a node of one of the arrays is among the joined ones, if all are of the same length -/
theorem flatten_get (m : Nat) (ls : List (List ℚ)) (h : ∀ l ∈ ls, l.length = m) (k c : Nat) (hc : c < m) : ls.flatten[k * m + c]? = (ls[k]?).bind (·[c]?) := by
  induction ls generalizing k with
  | nil => simp
  | cons l ls ih =>
    have hl := h l (by simp)
    rw [List.flatten_cons]
    cases k with
    | zero => rw [List.getElem?_append_left (by omega)]; simp
    | succ k =>
      rw [List.getElem?_append_right (by rw [hl, Nat.succ_mul]; omega)]
      have : (k + 1) * m + c - l.length = k * m + c := by rw [hl, Nat.succ_mul]; omega
      rw [this, ih (fun l hl => h l (by simp [hl])) k]; simp

theorem flatten_length (m : Nat) (ls : List (List ℚ)) (h : ∀ l ∈ ls, l.length = m) : ls.flatten.length = ls.length * m := by
  induction ls with
  | nil => simp
  | cons l ls ih => rw [List.flatten_cons, List.length_append, ih fun l hl => h l (by simp [hl]), h l (by simp), List.length_cons, Nat.succ_mul]; omega

theorem coords_length (m : Nat) (bs : List (List ℚ)) (hne : bs ≠ []) (h : ∀ b ∈ bs, b.length = m + 1) : (coordsOf bs).length = bs.length * m + 1 := by
  cases bs with
  | nil => exact absurd rfl hne
  | cons b bs =>
    rw [coordsOf, List.length_append, flatten_length m _ (by
      intro l hl; obtain ⟨b', hb', rfl⟩ := List.mem_map.1 hl; rw [List.length_tail, h b' (by simp [hb'])]; omega), h b (by simp), List.length_map, List.length_cons, Nat.succ_mul]
    omega

theorem coords_get (m : Nat) (bs : List (List ℚ)) (h : ∀ b ∈ bs, b.length = m + 1) (hm : 1 ≤ m) (hch : bs.IsChain (fun b c => b.getLast? = c.head?))
    (k c : Nat) (hk : k < bs.length) (hc : c ≤ m) : (coordsOf bs)[k * m + c]? = (nth bs k)[c]? := by
  have main : ∀ k c, k < bs.length → c ≤ m → (c ≠ 0 ∨ k = 0) → (coordsOf bs)[k * m + c]? = (nth bs k)[c]? := by
    intro k c hk hc h0
    cases bs with
    | nil => simp at hk
    | cons b bs =>
      rw [coordsOf]
      have hb := h b (by simp)
      cases k with
      | zero => rw [List.getElem?_append_left (by omega)]; simp [nth]
      | succ k =>
        have hc0 : c ≠ 0 := by rcases h0 with h | h <;> omega
        rw [List.getElem?_append_right (by rw [hb, Nat.succ_mul]; omega)]
        have : (k + 1) * m + c - b.length = k * m + (c - 1) := by rw [hb, Nat.succ_mul]; omega
        rw [this, flatten_get m _ (by
          intro l hl; obtain ⟨b', hb', rfl⟩ := List.mem_map.1 hl; rw [List.length_tail, h b' (by simp [hb'])]; omega) k (c - 1) (by omega)]
        simp only [List.length_cons] at hk
        rw [List.getElem?_map, List.getElem?_eq_getElem (show k < bs.length by omega)]
        simp only [Option.map_some, Option.bind_some, nth, List.getElem?_cons_succ, List.getElem?_eq_getElem (show k < bs.length by omega), Option.getD_some]
        rw [List.getElem?_tail]
        congr 1; omega
  by_cases h0 : c ≠ 0 ∨ k = 0
  · exact main k c hk hc h0
  · have hc0 : c = 0 := by omega
    obtain ⟨k, rfl⟩ : ∃ j, k = j + 1 := ⟨k - 1, by omega⟩
    subst hc0
    have e : (k + 1) * m + 0 = k * m + m := by rw [Nat.succ_mul]; omega
    rw [e, main k m (by omega) (le_refl _) (.inl (by omega))]
    have hcc := List.isChain_iff_getElem.1 hch k (by omega)
    have e1 : nth bs k = bs[k] := by simp [nth, show k < bs.length by omega]
    have e2 : nth bs (k + 1) = bs[k + 1] := by simp [nth, hk]
    rw [e1, e2, ← List.head?_eq_getElem?, ← hcc, List.getLast?_eq_getElem?, h _ (List.getElem_mem _)]
    rfl

theorem take_sum (m k : Nat) (ns : List Nat) (h : ∀ n ∈ ns, n = m) (hk : k ≤ ns.length) : start ns k = k * m := by
  unfold start
  have : ns.take k = List.replicate k m := by
    rw [List.eq_replicate_iff]
    exact ⟨by simp [hk], fun n hn => h n (List.mem_of_mem_take hn)⟩
  rw [this]; simp

theorem all3_ok (f : Fin 3 → Except Err A) (r : Fin 3 → A) (h : ∀ i, f i = .ok (r i)) : all3 f = .ok r := by
  unfold all3
  rw [h 0, h 1, h 2]
  show Except.ok _ = _
  congr 1
  funext i
  match i with
  | 0 => rfl
  | 1 => rfl
  | 2 => rfl

/-- the indices into the box that entry `e` fills -/
def Inside (beg n : Fin 3 → Nat) (idx : Fin 3 → Nat) : Prop := ∀ i, beg i ≤ idx i ∧ idx i < beg i + n i

theorem fold_assign (shape : Fin 3 → Nat) (beg n : E → Fin 3 → Nat) (d : E → (Fin 3 → Nat) → V) (L : List E) (h : ∀ e ∈ L, ∀ i, beg e i + n e i ≤ shape i)
    (t : (Fin 3 → Nat) → Option V) :
    ∃ r, L.foldlM (fun t e => assign shape t (beg e) (n e) (d e)) t = .ok r ∧
      (∀ idx, (∀ e ∈ L, ¬ Inside (beg e) (n e) idx) → r idx = t idx) ∧
      ∀ idx, ∀ e ∈ L, Inside (beg e) (n e) idx → (∀ e' ∈ L, Inside (beg e') (n e') idx → e' = e) → r idx = some (d e fun i => idx i - beg e i) := by
  induction L generalizing t with
  | nil => exact ⟨t, rfl, fun _ _ => rfl, by simp⟩
  | cons e L ih =>
    have he := h e (by simp)
    have ha : assign shape t (beg e) (n e) (d e) = .ok fun idx => if ∀ i, beg e i ≤ idx i ∧ idx i < min (beg e i + n e i) (shape i)
        then some (d e fun i => idx i - beg e i) else t idx := by
      unfold assign
      rw [if_pos]
      intro i
      have := he i
      left; omega
    have hin : ∀ idx, (∀ i, beg e i ≤ idx i ∧ idx i < min (beg e i + n e i) (shape i)) ↔ Inside (beg e) (n e) idx := by
      intro idx
      unfold Inside
      constructor
      · intro h i; have := h i; omega
      · intro h i; have := h i; have := he i; omega
    obtain ⟨r, e1, h1, h2⟩ := ih (fun e' he' => h e' (by simp [he'])) (fun idx => if ∀ i, beg e i ≤ idx i ∧ idx i < min (beg e i + n e i) (shape i)
        then some (d e fun i => idx i - beg e i) else t idx)
    refine ⟨r, ?_, ?_, ?_⟩
    · rw [List.foldlM_cons, ha]; exact e1
    · intro idx hi
      rw [h1 idx fun e' he' => hi e' (by simp [he'])]
      rw [if_neg]; rw [hin]; exact hi e (by simp)
    · intro idx e' he' hi hu
      by_cases hx : ∃ e'' ∈ L, Inside (beg e'') (n e'') idx
      · obtain ⟨e'', hm, hi''⟩ := hx
        have : e'' = e' := hu e'' (by simp [hm]) hi''
        subst this
        exact h2 idx e'' hm hi fun e3 h3 hi3 => hu e3 (by simp [h3]) hi3
      · have hx : ∀ e'' ∈ L, ¬ Inside (beg e'') (n e'') idx := fun e'' hm hi => hx ⟨e'', hm, hi⟩
        have : e' = e := by
          rcases List.mem_cons.1 he' with h | h
          · exact h
          · exact absurd hi (hx e' h)
        subst this
        rw [h1 idx hx, if_pos ((hin idx).2 hi)]

section tile
variable {V : Type} {gs : List (Grid V)} {bs : Fin 3 → List (List ℚ)} {pos : Nat → Fin 3 → Nat}

theorem pos_lt (h : Tiling gs bs pos) (k : Nat) (hk : k < gs.length) (i : Fin 3) : pos k i < (bs i).length := by
  have := h.crds k _ (List.getElem?_eq_getElem hk) i
  exact (List.getElem?_eq_some_iff.1 this).1

theorem crds_map (h : Tiling gs bs pos) (i : Fin 3) : gs.map (·.crds i) = ((List.range gs.length).map fun k => pos k i).map (nth (bs i)) := by
  apply List.ext_getElem?; intro k
  by_cases hk : k < gs.length
  · have := h.crds k _ (List.getElem?_eq_getElem hk) i
    simp [hk, nth, this]
  · simp [hk]

theorem pos_range (h : Tiling gs bs pos) (i : Fin 3) (a : Nat) : a ∈ (List.range gs.length).map (fun k => pos k i) ↔ a < (bs i).length := by
  rw [List.mem_map]
  constructor
  · rintro ⟨k, hk, rfl⟩; exact pos_lt h k (List.mem_range.1 hk) i
  · intro ha
    have hg : 0 < gs.length := List.length_pos_of_ne_nil h.some
    obtain ⟨k, hk, e⟩ := h.all (fun j => if j = i then a else pos 0 j) (by
      intro j
      by_cases hj : j = i
      · subst hj; simpa using ha
      · simp only [hj, if_false]; exact pos_lt h 0 hg j)
    exact ⟨k, List.mem_range.2 hk, by rw [e]; simp⟩

theorem tile_uniques (h : Tiling gs bs pos) (i : Fin 3) : uniques (gs.map (·.crds i)) = .ok (bs i) := by
  rw [crds_map h i, uniques_range (chain_line _ (h.chain i)) _ (pos_range h i), range_nth]

theorem grid_crds (h : Tiling gs bs pos) (k : Nat) (g : Grid V) (hk : gs[k]? = some g) (i : Fin 3) : g.crds i = nth (bs i) (pos k i) := by
  have := h.crds k g hk i
  simp [nth, this]

theorem tile_pos (h : Tiling gs bs pos) : (gs.mapM fun g => all3 fun i => posOf (bs i) (g.crds i)) = .ok ((List.range gs.length).map pos) := by
  have one : ∀ k g, gs[k]? = some g → (all3 fun i => posOf (bs i) (g.crds i)) = .ok (pos k) := by
    intro k g hk
    apply all3_ok
    intro i
    have hlt := pos_lt h k (List.getElem?_eq_some_iff.1 hk).1 i
    rw [grid_crds h k g hk i]
    unfold posOf
    have hl := ((h.chain i).2.1 _ (nth_mem _ _ hlt).1).1
    rw [if_neg (by omega)]
    have := findIdx_range (chain_line _ (h.chain i)) _ hlt
    rw [range_nth] at this
    rw [this]
  have gen : ∀ (l : List (Grid V)) (f : Grid V → Except Err (Fin 3 → Nat)) (p : Nat → Fin 3 → Nat), (∀ k g, l[k]? = some g → f g = .ok (p k)) →
      l.mapM f = .ok ((List.range l.length).map p) := by
    intro l f
    induction l with
    | nil => intro p _; rfl
    | cons g l ih =>
      intro p hp
      rw [List.mapM_cons, hp 0 g rfl, ih (fun k => p (k + 1)) fun k g' hg' => hp (k + 1) g' hg', List.length_cons, List.range_succ_eq_map]
      simp; rfl
  exact gen gs _ pos one

theorem join_eq (h : Tiling gs bs pos) (node : Bool) : join node gs = (do
    let data ← (gs.zip ((List.range gs.length).map pos)).foldlM (fun t e =>
      assign (fun i => size node (coordsOf (bs i))) t (fun i => start (gs.map fun g => size node (g.crds i)) (e.2 i)) (fun i => size node (e.1.crds i)) e.1.data) (fun _ => none)
    return ⟨fun i => coordsOf (bs i), fun i => size node (coordsOf (bs i)), data⟩) := by
  have hu : all3 (fun i => uniques (gs.map (·.crds i))) = .ok bs := all3_ok _ _ (tile_uniques h)
  have hp := tile_pos h
  have ht : ∀ g ∈ gs, ∀ h' ∈ gs, g.time = h'.time := h.time
  have hne := h.some
  unfold join
  cases gs with
  | nil => exact absurd rfl hne
  | cons g0 rest =>
    have : rest.any (fun g => g.time ≠ g0.time) = false := by
      simp only [List.any_eq_false, decide_eq_true_eq, not_not]
      intro g hg; exact ht g (by simp [hg]) g0 (by simp)
    dsimp only
    rw [this, hu]
    simp only [bind, Except.bind] at hp ⊢
    rw [hp]
    rfl

theorem zip_mem (k : Nat) (e : Grid V × (Fin 3 → Nat)) : (gs.zip ((List.range gs.length).map pos))[k]? = some e ↔ gs[k]? = some e.1 ∧ e.2 = pos k := by
  obtain ⟨g, p⟩ := e
  rw [List.getElem?_zip_eq_some]
  simp only
  constructor
  · rintro ⟨h1, h2⟩
    refine ⟨h1, ?_⟩
    have := (List.getElem?_eq_some_iff.1 h1).1
    simp [this] at h2
    exact h2.symm
  · rintro ⟨h1, rfl⟩
    have := (List.getElem?_eq_some_iff.1 h1).1
    exact ⟨h1, by simp [this]⟩

theorem blocks_le (h : Tiling gs bs pos) (i : Fin 3) : (bs i).length ≤ gs.length := by
  have hs : List.range (bs i).length ⊆ (List.range gs.length).map fun k => pos k i := by
    intro a ha; rw [pos_range h i]; exact List.mem_range.1 ha
  have := (List.subperm_of_subset List.nodup_range hs).length_le
  simpa using this

theorem ne_blocks (h : Tiling gs bs pos) (i : Fin 3) : bs i ≠ [] := by
  have := pos_lt h 0 (List.length_pos_of_ne_nil h.some) i
  rintro e; rw [e] at this; simp at this

end tile
end AX

/-- C217: the coordinates of the joined file are all nodes, once each and in order. -/
theorem C217_coords (gs : List (Grid V)) (bs : Fin 3 → List (List ℚ)) (pos : Nat → Fin 3 → Nat) (h : Tiling gs bs pos) (node : Bool) (out : Out V)
    (ho : join node gs = .ok out) (i : Fin 3) : Nodes (bs i) (out.crds i) := by
  rw [AX.join_eq h node] at ho
  generalize (List.foldlM (m := Except Err) _ _ _) = r at ho
  cases r with
  | error e => cases ho
  | ok d => cases ho; exact (AX.coords_nodes _ (h.chain i)).1

/-- C217: each cell of the joined file has the value of the grid it is in (if along each axis all grids have the same number of cells). -/
theorem C217_cells_partial (gs : List (Grid V)) (bs : Fin 3 → List (List ℚ)) (pos : Nat → Fin 3 → Nat) (h : Tiling gs bs pos) (hs : ∀ i, SameSize (bs i)) :
    ∃ out, join false gs = .ok out ∧
      (∀ g ∈ gs, ∀ c : Fin 3 → Nat, (∀ i, c i + 1 < (g.crds i).length) → ∃ idx, SameCell out g idx c) ∧
      (∀ g ∈ gs, ∀ idx c, SameCell out g idx c → out.data idx = some (g.data c)) ∧
      ∀ idx : Fin 3 → Nat, (∀ i, idx i + 1 < (out.crds i).length) → ∃ g ∈ gs, ∃ c, SameCell out g idx c := by
  -- sizes along the axes
  have hm : ∀ i, ∃ m, 1 ≤ m ∧ ∀ b ∈ bs i, b.length = m + 1 := by
    intro i
    obtain ⟨b, hb⟩ := List.exists_mem_of_ne_nil _ (AX.ne_blocks h i)
    have := ((h.chain i).2.1 b hb).1
    exact ⟨b.length - 1, by omega, fun c hc => by have := hs i b hb c hc; omega⟩
  choose m hm1 hm2 using hm
  have hgl : ∀ (k : Nat) g, gs[k]? = some g → ∀ i, (g.crds i).length = m i + 1 := by
    intro k g hk i
    rw [AX.grid_crds h k g hk i]
    exact hm2 i _ (AX.nth_mem _ _ (AX.pos_lt h k (List.getElem?_eq_some_iff.1 hk).1 i)).1
  have hst : ∀ k, k < gs.length → ∀ i, start (gs.map fun g => size false (g.crds i)) (pos k i) = pos k i * m i := by
    intro k hk i
    apply AX.take_sum
    · intro n hn
      obtain ⟨g, hg, rfl⟩ := List.mem_map.1 hn
      obtain ⟨l, hl⟩ := List.mem_iff_getElem?.1 hg
      simp [size, hgl l g hl i]
    · have := AX.pos_lt h k hk i
      have := AX.blocks_le h i
      simp; omega
  have hsh : ∀ i, size false (coordsOf (bs i)) = (bs i).length * m i := by
    intro i; simp [size, AX.coords_length (m i) _ (AX.ne_blocks h i) (hm2 i)]
  have hcg : ∀ k g, gs[k]? = some g → ∀ i c, c ≤ m i → (coordsOf (bs i))[pos k i * m i + c]? = (g.crds i)[c]? := by
    intro k g hk i c hc
    rw [AX.grid_crds h k g hk i]
    exact AX.coords_get (m i) _ (hm2 i) (hm1 i) (h.chain i).1 _ c (AX.pos_lt h k (List.getElem?_eq_some_iff.1 hk).1 i) hc
  have hzip : ∀ e ∈ gs.zip ((List.range gs.length).map pos), ∃ k, gs[k]? = some e.1 ∧ e.2 = pos k := by
    intro e he
    obtain ⟨k, hk⟩ := List.mem_iff_getElem?.1 he
    exact ⟨k, (AX.zip_mem k e).1 hk⟩
  obtain ⟨r, e1, _, h2⟩ := AX.fold_assign (fun i => size false (coordsOf (bs i)))
    (fun (e : Grid V × (Fin 3 → Nat)) i => start (gs.map fun g => size false (g.crds i)) (e.2 i)) (fun e i => size false (e.1.crds i)) (fun e => e.1.data)
    (gs.zip ((List.range gs.length).map pos)) (by
      intro e he i
      obtain ⟨k, hk, hp⟩ := hzip e he
      have hlt := (List.getElem?_eq_some_iff.1 hk).1
      rw [hsh i, hp, hst k hlt i]
      have : size false (e.1.crds i) = m i := by simp [size, hgl k _ hk i]
      rw [this]
      have := AX.pos_lt h k hlt i
      calc pos k i * m i + m i = (pos k i + 1) * m i := by rw [Nat.succ_mul]
        _ ≤ _ := Nat.mul_le_mul_right _ this) (fun _ => none)
  refine ⟨⟨fun i => coordsOf (bs i), fun i => size false (coordsOf (bs i)), r⟩, ?_, ?_, ?_, ?_⟩
  · rw [AX.join_eq h false, e1]; rfl
  · intro g hg c hc
    obtain ⟨k, hk⟩ := List.mem_iff_getElem?.1 hg
    refine ⟨fun i => pos k i * m i + c i, fun i => ⟨hc i, ?_, ?_⟩⟩
    · have := hc i; have := hgl k g hk i
      exact hcg k g hk i (c i) (by omega)
    · have := hc i; have := hgl k g hk i
      exact hcg k g hk i (c i + 1) (by omega)
  · intro g hg idx c hsc
    obtain ⟨k, hk⟩ := List.mem_iff_getElem?.1 hg
    have hlt := (List.getElem?_eq_some_iff.1 hk).1
    have hidx : ∀ i, idx i = pos k i * m i + c i := by
      intro i
      obtain ⟨hc, h1, _⟩ := hsc i
      have hl := hgl k g hk i
      have h3 := hcg k g hk i (c i) (by omega)
      rw [← h3] at h1
      have hnd : (coordsOf (bs i)).Nodup := ((AX.coords_nodes _ (h.chain i)).1.1).imp fun h => ne_of_lt h
      have hlen : pos k i * m i + c i < (coordsOf (bs i)).length := by
        by_contra hlen
        rw [List.getElem?_eq_none (by omega)] at h3
        rw [List.getElem?_eq_getElem (by omega)] at h3
        cases h3
      rw [List.getElem?_eq_getElem hlen] at h1
      obtain ⟨hlt', h1⟩ := List.getElem?_eq_some_iff.1 h1
      exact (List.Nodup.getElem_inj_iff hnd).1 h1
    have hc : ∀ i, c i < m i := by intro i; have := (hsc i).1; have := hgl k g hk i; omega
    have := h2 idx (g, pos k) (by
      rw [List.mem_iff_getElem?]; exact ⟨k, (AX.zip_mem k _).2 ⟨hk, rfl⟩⟩) (by
      intro i
      simp only
      rw [hst k hlt i, hidx i]
      have := hc i
      have : size false (g.crds i) = m i := by simp [size, hgl k _ hk i]
      omega) (by
      intro e' he' hi'
      obtain ⟨l, hl, hp⟩ := hzip e' he'
      have hll := (List.getElem?_eq_some_iff.1 hl).1
      have hpe : pos l = pos k := by
        funext i
        have hi := hi' i
        simp only at hi
        rw [hp, hst l hll i, hidx i] at hi
        have : size false (e'.1.crds i) = m i := by simp [size, hgl l _ hl i]
        rw [this] at hi
        have hci := hc i
        have h1 : (pos k i * m i + c i) / m i = pos k i := by
          rw [Nat.mul_comm, Nat.mul_add_div (by omega), Nat.div_eq_of_lt hci]; omega
        have h2 : (pos k i * m i + c i) / m i = pos l i := by
          rw [Nat.div_eq_iff (by omega)]
          have : (pos l i + 1) * m i = pos l i * m i + m i := Nat.succ_mul ..
          omega
        omega
      have : l = k := h.apart l k hll hlt hpe
      subst this
      rw [hk] at hl
      obtain ⟨a, b⟩ := e'
      simp only at hl hp
      rw [hp, ← Option.some.inj hl])
    show r idx = _
    rw [this]
    congr 2
    funext i
    simp only
    rw [hst k hlt i, hidx i]; omega
  · intro idx hidx
    simp only at hidx
    have hq : ∀ i, idx i / m i < (bs i).length := by
      intro i
      have := hidx i
      rw [AX.coords_length (m i) _ (AX.ne_blocks h i) (hm2 i)] at this
      rw [Nat.div_lt_iff_lt_mul (by have := hm1 i; omega)]
      omega
    obtain ⟨k, hk, hp⟩ := h.all (fun i => idx i / m i) hq
    have hkg := List.getElem?_eq_getElem hk
    refine ⟨gs[k], List.getElem_mem _, fun i => idx i % m i, fun i => ?_⟩
    have hl := hgl k _ hkg i
    have hmod : idx i % m i < m i := Nat.mod_lt _ (hm1 i)
    have hsum : pos k i * m i + idx i % m i = idx i := by
      rw [hp]; simp only; rw [Nat.mul_comm]; exact Nat.div_add_mod _ _
    have h1 := hcg k _ hkg i (idx i % m i) (by omega)
    have h2 := hcg k _ hkg i (idx i % m i + 1) (by omega)
    rw [← Nat.add_assoc, hsum] at h2
    rw [hsum] at h1
    exact ⟨by show idx i % m i + 1 < _; omega, h1, h2⟩

/-- C217 is false: node centred fields cannot be joined: if there is more than one grid along an axis there is an error. -/
theorem C217_node_violated (gs : List (Grid V)) (bs : Fin 3 → List (List ℚ)) (pos : Nat → Fin 3 → Nat) (h : Tiling gs bs pos) (i : Fin 3) (hs : SameSize (bs i))
    (h2 : 2 ≤ (bs i).length) : join true gs = .error .value := by
  obtain ⟨b, hb⟩ := List.exists_mem_of_ne_nil _ (AX.ne_blocks h i)
  have hb2 := ((h.chain i).2.1 b hb).1
  obtain ⟨m, hm1, hm2⟩ : ∃ m, 1 ≤ m ∧ ∀ b ∈ bs i, b.length = m + 1 :=
    ⟨b.length - 1, by omega, fun c hc => by have := hs b hb c hc; omega⟩
  have hgl : ∀ (k : Nat) g, gs[k]? = some g → (g.crds i).length = m + 1 := by
    intro k g hk
    rw [AX.grid_crds h k g hk i]
    exact hm2 _ (AX.nth_mem _ _ (AX.pos_lt h k (List.getElem?_eq_some_iff.1 hk).1 i)).1
  -- the last along the axis
  have hmem := (AX.pos_range h i ((bs i).length - 1)).2 (by omega)
  obtain ⟨k, hk, hpk⟩ := List.mem_map.1 hmem
  rw [List.mem_range] at hk
  have hst : start (gs.map fun g => size true (g.crds i)) (pos k i) = pos k i * (m + 1) := by
    apply AX.take_sum
    · intro n hn
      obtain ⟨g, hg, rfl⟩ := List.mem_map.1 hn
      obtain ⟨l, hl⟩ := List.mem_iff_getElem?.1 hg
      simp [size, hgl l g hl]
    · have := AX.pos_lt h k hk i
      have := AX.blocks_le h i
      simp; omega
  have herr : ∀ t : (Fin 3 → Nat) → Option V, assign (fun i => size true (coordsOf (bs i))) t (fun i => start (gs.map fun g => size true (g.crds i)) (pos k i))
      (fun i => size true ((gs[k]).crds i)) (gs[k]).data = .error .value := by
    intro t
    unfold assign
    rw [if_neg]
    intro hall
    have hi := hall i
    dsimp only at hi
    rw [hst, hpk] at hi
    have e1 : size true ((gs[k]).crds i) = m + 1 := by simp [size, hgl k _ (List.getElem?_eq_getElem hk)]
    have e2 : size true (coordsOf (bs i)) = (bs i).length * m + 1 := by simp [size, AX.coords_length m _ (AX.ne_blocks h i) hm2]
    rw [e1, e2] at hi
    obtain ⟨n, hn⟩ : ∃ n, (bs i).length = n + 2 := ⟨(bs i).length - 2, by omega⟩
    rw [hn] at hi
    have e3 : (n + 2 - 1) * (m + 1) = n * m + n + m + 1 := by
      rw [show n + 2 - 1 = n + 1 by omega]; ring
    have e4 : (n + 2) * m = n * m + 2 * m := by ring
    rw [e3, e4] at hi
    generalize n * m = z at hi
    omega
  rw [AX.join_eq h true]
  have hfold : ∀ (L : List (Grid V × (Fin 3 → Nat))) (t : (Fin 3 → Nat) → Option V), (gs[k], pos k) ∈ L → L.foldlM (fun t e =>
      assign (fun i => size true (coordsOf (bs i))) t (fun i => start (gs.map fun g => size true (g.crds i)) (e.2 i)) (fun i => size true (e.1.crds i)) e.1.data) t = .error .value := by
    intro L
    induction L with
    | nil => intro t h; cases h
    | cons e L ih =>
      intro t hmem
      rw [List.foldlM_cons]
      rcases List.mem_cons.1 hmem with rfl | hmem
      · have := herr t
        simp only at this ⊢
        rw [this]; rfl
      · generalize hr : assign _ _ _ _ _ = r
        cases r with
        | error e' =>
          have : e' = Err.value := by
            unfold assign at hr
            split at hr
            · cases hr
            · cases hr; rfl
          subst this; rfl
        | ok t' => exact ih t' hmem
  rw [hfold _ _ (by rw [List.mem_iff_getElem?]; exact ⟨k, (AX.zip_mem k _).2 ⟨List.getElem?_eq_getElem hk, rfl⟩⟩)]
  rfl

/-- C217 is false: two grids with different numbers of cells along an axis, the upper one in the first file: the last cells of the joined file are never set
(if there is no error). -/
theorem C217_sizes_violated (g0 g1 : Grid V) (bs : Fin 3 → List (List ℚ)) (pos : Nat → Fin 3 → Nat) (h : Tiling [g1, g0] bs pos) (i : Fin 3)
    (hb : bs i = [g0.crds i, g1.crds i]) (hl : (g0.crds i).length ≠ (g1.crds i).length) (out : Out V) (ho : join false [g1, g0] = .ok out)
    (idx : Fin 3 → Nat) (hi : idx i + 2 = (out.crds i).length) : out.data idx = none := by
  have hp0 := h.crds 0 g1 rfl i
  have hp1 := h.crds 1 g0 rfl i
  have l0 := ((h.chain i).2.1 (g0.crds i) (by rw [hb]; simp)).1
  have l1 := ((h.chain i).2.1 (g1.crds i) (by rw [hb]; simp)).1
  rw [hb] at hp0 hp1
  have e0 : pos 0 i = 1 := by
    rcases hq : pos 0 i with _ | _ | n
    · rw [hq] at hp0; simp at hp0; rw [hp0] at hl; exact absurd rfl hl
    · rfl
    · rw [hq] at hp0; simp at hp0
  have e1 : pos 1 i = 0 := by
    rcases hq : pos 1 i with _ | _ | n
    · rfl
    · rw [hq] at hp1; simp at hp1; rw [hp1] at hl; exact absurd rfl hl
    · rw [hq] at hp1; simp at hp1
  rw [AX.join_eq h false] at ho
  have hlen : (coordsOf (bs i)).length = (g0.crds i).length + ((g1.crds i).length - 1) := by rw [hb]; simp [coordsOf]
  have hs1 : start ([g1, g0].map fun g => size false (g.crds i)) (pos 0 i) = (g1.crds i).length - 1 := by rw [e0]; simp [start, size]
  have hs0 : start ([g1, g0].map fun g => size false (g.crds i)) (pos 1 i) = 0 := by rw [e1]; simp [start]
  have hz : [g1, g0].zip ((List.range [g1, g0].length).map pos) = [(g1, pos 0), (g0, pos 1)] := rfl
  rw [hz] at ho
  simp only [List.foldlM_cons, List.foldlM_nil] at ho
  generalize ha : assign _ _ _ _ _ = r at ho
  cases r with
  | error e => cases ho
  | ok t =>
    simp only [bind, Except.bind] at ho
    generalize hc : assign _ _ _ _ _ = r at ho
    cases r with
    | error e => cases ho
    | ok u =>
      cases ho
      simp only at hi ⊢
      rw [hlen] at hi
      unfold assign at ha hc
      split at ha
      · rename_i hall
        split at hc
        · cases ha; cases hc
          have hi1 := hall i
          simp only [hs1] at hi1
          have z1 : size false (g1.crds i) = (g1.crds i).length - 1 := rfl
          have z2 : size false (coordsOf (bs i)) = (g0.crds i).length + ((g1.crds i).length - 1) - 1 := by rw [← hlen]; rfl
          have z0 : size false (g0.crds i) = (g0.crds i).length - 1 := rfl
          rw [z1, z2] at hi1
          dsimp only
          rw [if_neg, if_neg]
          · intro hin
            have := hin i
            rw [hs1, z1, z2] at this
            omega
          · intro hin
            have := hin i
            rw [hs0, z0, z2] at this
            omega
        · cases hc
      · cases ha

/-- C217: different times are refused. -/
theorem C217_times (g0 g : Grid V) (rest : List (Grid V)) (node : Bool) (hg : g ∈ rest) (ht : g.time ≠ g0.time) : join node (g0 :: rest) = .error .value := by
  unfold join
  have : rest.any (fun g => g.time ≠ g0.time) = true := by
    rw [List.any_eq_true]; exact ⟨g, hg, by simpa using ht⟩
  dsimp only
  rw [this]; rfl

/-- C217: an array that begins where another one does and has another number of nodes is refused. -/
theorem C217_lengths (xs ys : List ℚ) (h0 : xs.head? = ys.head?) (hl : ys.length ≠ xs.length) : uniques [xs, ys] = .error .value := by
  have e : first ys = first xs := by unfold first; rw [List.headD_eq_head?_getD, List.headD_eq_head?_getD, h0]
  show (add [] xs >>= fun a => (add a ys >>= fun b => pure b)) = _
  have h1 : add [] xs = .ok [xs] := rfl
  rw [h1]
  show (add [xs] ys >>= fun b => pure b) = _
  have h2 : add [xs] ys = .error .value := by
    unfold add
    simp [e, AX.close_refl, hl]
  rw [h2]; rfl

example : uniques [[0, 1, 2], [0, 1, 2, 3]] = .error .value := C217_lengths _ _ rfl (by decide)

/-- C217 is false: an array that begins where another one does, and has as many nodes, is taken for the same, whatever its nodes are. -/
theorem C217_ends_violated (xs ys : List ℚ) (h0 : xs.head? = ys.head?) (hl : ys.length = xs.length) : uniques [xs, ys] = .ok [xs] := by
  have e : first ys = first xs := by unfold first; rw [List.headD_eq_head?_getD, List.headD_eq_head?_getD, h0]
  show (add [] xs >>= fun a => (add a ys >>= fun b => pure b)) = _
  have h1 : add [] xs = .ok [xs] := rfl
  rw [h1]
  show (add [xs] ys >>= fun b => pure b) = _
  have h2 : add [xs] ys = .ok [xs] := by
    unfold add
    simp [e, AX.close_refl, hl]
  rw [h2]; rfl

/-- C217 is false: whether overlapping grids are refused depends on the order of the files. -/
theorem C217_overlap_violated (xs ys : List ℚ) (h1 : first xs < first ys) (h2 : first ys < last xs) (hc : 1 / 10 ^ 14 * |first xs| < |first ys - first xs|)
    (hc' : 1 / 10 ^ 14 * |first ys| < |first xs - first ys|) : uniques [xs, ys] = .ok [xs, ys] ∧ uniques [ys, xs] = .error .value := by
  have c1 : close (first ys) (first xs) = false := by simp only [close, decide_eq_false_iff_not]; linarith
  have c2 : close (first xs) (first ys) = false := by simp only [close, decide_eq_false_iff_not]; linarith
  constructor
  · show (add [] xs >>= fun a => (add a ys >>= fun b => pure b)) = _
    have e1 : add [] xs = .ok [xs] := rfl
    have e2 : add [xs] ys = .ok [xs, ys] := by
      unfold add
      simp only [List.find?_cons, c1, List.find?_nil]
      simp only [place]
      rw [if_neg (by linarith)]; rfl
    rw [e1]; show (add [xs] ys >>= fun b => pure b) = _; rw [e2]; rfl
  · show (add [] ys >>= fun a => (add a xs >>= fun b => pure b)) = _
    have e1 : add [] ys = .ok [ys] := rfl
    have e2 : add [ys] xs = .error .value := by
      unfold add
      simp only [List.find?_cons, c2, List.find?_nil]
      simp only [place]
      rw [if_pos h1, if_pos h2]
    rw [e1]; show (add [ys] xs >>= fun b => pure b) = _; rw [e2]; rfl

/-- two grids one above the other: cells 0–1, 1–2 in z, and the same in y and x -/
def twoGrids : List (Grid Nat) := [⟨0, fun i => if i = 0 then [1, 2] else [5, 6, 8], fun _ => 7⟩, ⟨0, fun i => if i = 0 then [0, 1] else [5, 6, 8], fun _ => 3⟩]

example : Tiling twoGrids (fun i => if i = 0 then [[0, 1], [1, 2]] else [[5, 6, 8]]) (fun k i => if i = 0 then 1 - k else 0) := by
  refine ⟨?_, ?_, ?_, ?_, by simp [twoGrids], by simp [twoGrids]⟩
  · intro i
    by_cases hi : i = 0
    · simp only [hi, if_true]
      refine ⟨by simp, by simp, ?_⟩
      intro b hb c hc x y hx hy hne
      simp only [List.mem_cons, List.not_mem_nil, or_false] at hb hc
      rcases hb with rfl | rfl <;> rcases hc with rfl | rfl <;> simp at hx hy <;> subst hx hy <;> first | exact absurd rfl hne | norm_num
    · simp only [hi, if_false]
      refine ⟨by simp, by simp; norm_num, ?_⟩
      intro b hb c hc x y hx hy hne
      simp only [List.mem_cons, List.not_mem_nil, or_false] at hb hc
      subst hb hc
      rw [hx] at hy; exact absurd (Option.some.inj hy) hne
  · intro k g hg i
    match k with
    | 0 => simp [twoGrids] at hg; subst hg; by_cases hi : i = 0 <;> simp [hi]
    | 1 => simp [twoGrids] at hg; subst hg; by_cases hi : i = 0 <;> simp [hi]
    | k + 2 => simp [twoGrids] at hg
  · intro k l hk hl he
    have := congrFun he 0
    simp [twoGrids] at hk hl this
    omega
  · intro q hq
    have h0 := hq 0
    have h1 := hq 1
    have h2 := hq 2
    simp at h0 h1 h2
    refine ⟨1 - q 0, by simp [twoGrids]; omega, ?_⟩
    funext i
    match i with
    | 0 => simp; omega
    | 1 => simp [h1]
    | 2 => simp [h2]

end Viscid.Props
