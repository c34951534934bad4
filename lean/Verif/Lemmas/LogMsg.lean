import Verif.Model.LogMsg
import Verif.Spec.LogMsg

/-! Lemmas about the wrapping of messages. -/

namespace Viscid.LogMsg.Lem
open Viscid.LogMsg Viscid.Spec.LogMsg

theorem isWs_iff (c : Char) : isWs c = true ↔ Space c := by
  simp only [isWs, Space, Bool.or_eq_true, decide_eq_true_eq, List.mem_cons, List.not_mem_nil, or_false, or_assoc]

theorem isWs_false (c : Char) : isWs c = false ↔ ¬ Space c := by
  rw [← isWs_iff]; simp

theorem letters_append (a b : Str) : letters (a ++ b) = letters a ++ letters b := by simp [letters]

theorem letters_nil : letters [] = [] := rfl

theorem letters_blank (w : Str) (h : blank w = true) : letters w = [] := by
  simp only [blank, List.all_eq_true] at h
  simp only [letters, List.filter_eq_nil_iff, decide_eq_true_eq, Classical.not_not]
  intro c hc
  exact (isWs_iff c).1 (h c hc)

theorem letters_ws (c : Char) (s : Str) (h : Space c) : letters (c :: s) = letters s := by simp [letters, h]

theorem letters_no (c : Char) (s : Str) (h : ¬ Space c) : letters (c :: s) = c :: letters s := by simp [letters, h]

theorem letters_rep (n : Nat) : letters (List.replicate n ' ') = [] := by
  apply letters_blank; simp [blank, List.all_replicate, isWs]

theorem space_blank : Space ' ' := by decide

theorem munge_letters : ∀ (s : Str) (col : Nat), letters (munge col s) = letters s
  | [], _ => rfl
  | c :: s, col => by
    unfold munge
    split
    · next h => rw [letters_append, letters_rep, munge_letters, h, letters_ws _ _ (by decide)]; rfl
    · split
      · next h => rw [letters_ws _ _ space_blank, munge_letters, h, letters_ws _ _ (by decide)]
      · by_cases hw : isWs c = true
        · rw [if_pos hw, letters_ws _ _ space_blank, munge_letters, letters_ws _ _ ((isWs_iff c).1 hw)]
        · rw [if_neg hw]
          have : ¬ Space c := fun h => hw ((isWs_iff c).2 h)
          rw [letters_no _ _ this, letters_no _ _ this, munge_letters]

theorem munge_chars : ∀ (s : Str) (col : Nat) (c : Char), c ∈ munge col s → c = ' ' ∨ isWs c = false
  | [], _, c, h => by simp [munge] at h
  | d :: s, col, c, h => by
    unfold munge at h
    split at h
    · rcases List.mem_append.1 h with h | h
      · exact Or.inl (List.eq_of_mem_replicate h)
      · exact munge_chars s _ c h
    · split at h
      · rcases List.mem_cons.1 h with h | h
        · exact Or.inl h
        · exact munge_chars s _ c h
      · rcases List.mem_cons.1 h with h | h
        · by_cases hw : isWs d = true
          · rw [if_pos hw] at h; exact Or.inl h
          · rw [if_neg hw] at h; subst h; exact Or.inr (by simpa using hw)
        · exact munge_chars s _ c h

theorem munge_append : ∀ (s t : Str) (col : Nat), ∃ m, munge col (s ++ t) = munge col s ++ munge m t
  | [], t, col => ⟨col, rfl⟩
  | c :: s, t, col => by
    simp only [List.cons_append, munge]
    split
    · obtain ⟨m, hm⟩ := munge_append s t 0
      exact ⟨m, by rw [hm, List.append_assoc]⟩
    · split
      · obtain ⟨m, hm⟩ := munge_append s t 0
        exact ⟨m, by rw [hm]; rfl⟩
      · obtain ⟨m, hm⟩ := munge_append s t (col + 1)
        exact ⟨m, by rw [hm]; rfl⟩

theorem munge_word : ∀ (w : Str) (col : Nat), (∀ c ∈ w, ¬ Space c) → munge col w = w
  | [], _, _ => rfl
  | c :: w, col, h => by
    have hc := (isWs_false c).2 (h c (by simp))
    have h1 : c ≠ '\t' := fun e => by subst e; exact absurd hc (by decide)
    have h2 : c ≠ '\r' := fun e => by subst e; exact absurd hc (by decide)
    rw [munge, if_neg h1, if_neg h2, hc, munge_word w _ fun d hd => h d (by simp [hd])]
    rfl

theorem munge_single (c : Char) (h : Space c) (col : Nat) : ∃ k, munge col [c] = List.replicate (k + 1) ' ' := by
  have hw := (isWs_iff c).2 h
  unfold munge
  split
  · refine ⟨8 - col % 8 - 1, ?_⟩
    have : 8 - col % 8 - 1 + 1 = 8 - col % 8 := by omega
    rw [this]; simp [munge]
  · split
    · exact ⟨0, rfl⟩
    · exact ⟨0, rfl⟩

theorem munge_last (s : Str) (col : Nat) (h : ∀ c, s.getLast? = some c → Space c) : ∀ c, (munge col s).getLast? = some c → isWs c = true := by
  intro c hc
  rcases List.eq_nil_or_concat s with rfl | ⟨t, d, rfl⟩
  · simp [munge] at hc
  · rw [List.concat_eq_append] at hc h
    obtain ⟨m, hm⟩ := munge_append t [d] col
    obtain ⟨k, hk⟩ := munge_single d (h d (by simp)) m
    rw [hm, hk, List.replicate_succ', ← List.append_assoc] at hc
    simp at hc
    subst hc; rfl

theorem munge_head (s : Str) (col : Nat) (h : ∀ c, s.head? = some c → Space c) : ∀ c, (munge col s).head? = some c → isWs c = true := by
  intro c hc
  cases s with
  | nil => simp [munge] at hc
  | cons d t =>
    obtain ⟨m, hm⟩ := munge_append [d] t col
    obtain ⟨k, hk⟩ := munge_single d (h d rfl) col
    have hm' : munge col (d :: t) = munge col [d] ++ munge m t := hm
    rw [hm', hk, List.replicate_succ] at hc
    simp at hc
    subst hc; rfl

/-! ## Chunks -/

theorem chunks_head : ∀ (d : Char) (s : Str), ∃ w rest, chunks (d :: s) = (d :: w) :: rest
  | d, s => by
    unfold chunks
    split
    · split
      · exact ⟨_, _, rfl⟩
      · exact ⟨_, _, rfl⟩
    · exact ⟨_, _, rfl⟩

theorem chunks_flatten : ∀ s : Str, (chunks s).flatten = s
  | [] => rfl
  | [c] => rfl
  | c :: d :: s => by
    have ih := chunks_flatten (d :: s)
    obtain ⟨w, rest, h⟩ := chunks_head d s
    rw [h] at ih
    rw [chunks, h]
    simp only
    split
    · simp only [List.flatten_cons, List.cons_append] at ih ⊢
      rw [ih]
    · simp only [List.flatten_cons, List.cons_append, List.nil_append] at ih ⊢
      rw [ih]

theorem chunks_append : ∀ (s t : Str), (∀ c d, s.getLast? = some c → t.head? = some d → isWs c ≠ isWs d) → chunks (s ++ t) = chunks s ++ chunks t
  | [], t, _ => rfl
  | [c], [], _ => rfl
  | [c], d :: t, h => by
    obtain ⟨w, rest, hw⟩ := chunks_head d t
    have hne := h c d rfl rfl
    simp only [List.cons_append, List.nil_append]
    rw [chunks, hw]
    simp only [if_neg hne]
    rfl
  | c :: e :: s, t, h => by
    have ih := chunks_append (e :: s) t (by intro a b ha hb; exact h a b (by simpa using ha) hb)
    obtain ⟨w, rest, hw⟩ := chunks_head e s
    rw [List.cons_append, chunks, ih, hw]
    rw [chunks, hw]
    simp only [List.cons_append]
    split <;> rfl

theorem chunks_word : ∀ w : Str, w ≠ [] → (∀ c ∈ w, isWs c = false) → chunks w = [w]
  | [], h, _ => absurd rfl h
  | [c], _, _ => rfl
  | c :: d :: w, _, h => by
    have ih := chunks_word (d :: w) (by simp) fun x hx => h x (by simp [hx])
    rw [chunks, ih]
    simp only [h c (by simp), h d (by simp), if_true]

theorem chunks_kind : ∀ (s : Str), ∀ w ∈ chunks s, w ≠ [] ∧ (blank w = true ∨ ∀ c ∈ w, isWs c = false)
  | [], w, h => by simp [chunks] at h
  | [c], w, h => by
    simp [chunks] at h
    subst h
    refine ⟨by simp, ?_⟩
    cases hc : isWs c
    · right; simpa using hc
    · left; simp [blank, hc]
  | c :: d :: s, w, h => by
    have ih := chunks_kind (d :: s)
    obtain ⟨v, rest, hv⟩ := chunks_head d s
    rw [hv] at ih
    rw [chunks, hv] at h
    simp only at h
    split at h
    · next he =>
      rcases List.mem_cons.1 h with rfl | h
      · refine ⟨by simp, ?_⟩
        rcases (ih (d :: v) (by simp)).2 with hb | hb
        · left
          simp only [blank, List.all_cons, Bool.and_eq_true] at hb ⊢
          exact ⟨he.trans hb.1, hb⟩
        · right
          intro x hx
          rcases List.mem_cons.1 hx with rfl | hx
          · rw [he]; exact hb d (by simp)
          · exact hb x hx
      · exact ih w (by simp [h])
    · rcases List.mem_cons.1 h with rfl | h
      · refine ⟨by simp, ?_⟩
        cases hc : isWs c
        · right; simpa using hc
        · left; simp [blank, hc]
      · exact ih w h

theorem split_flatten (cut : Str → List Str) (hc : Cuts cut) (s : Str) : (split cut s).flatten = s := by
  conv => rhs; rw [← chunks_flatten s]
  unfold split
  generalize chunks s = l
  induction l with
  | nil => rfl
  | cons w l ih =>
    rw [List.flatMap_cons, List.flatten_append, ih, List.flatten_cons]
    congr 1
    split
    · simp
    · exact hc.whole w

theorem split_ne (cut : Str → List Str) (hc : Cuts cut) (s : Str) : ∀ w ∈ split cut s, w ≠ [] := by
  intro w hw
  simp only [split, List.mem_flatMap] at hw
  obtain ⟨v, hv, hw⟩ := hw
  split at hw
  · simp at hw; subst hw; exact (chunks_kind s _ hv).1
  · exact hc.parts v w hw

theorem not_blank (w : Str) (hne : w ≠ []) (h : ∀ c ∈ w, isWs c = false) : blank w = false := by
  cases w with
  | nil => exact absurd rfl hne
  | cons c w => simp [blank, h c (by simp)]

theorem split_word (cut : Str → List Str) (hc : Cuts cut) (w s : Str) (h : Word w s) (hy : '-' ∉ w) (col : Nat) : w ∈ split cut (munge col s) := by
  obtain ⟨pre, post, rfl, hne, hw, hpre, hpost⟩ := h
  obtain ⟨m1, h1⟩ := munge_append pre (w ++ post) col
  obtain ⟨m2, h2⟩ := munge_append w post m1
  have hw' : ∀ c ∈ w, isWs c = false := fun c hx => (isWs_false c).2 (hw c hx)
  rw [h1, h2, munge_word w m1 hw]
  have hA : chunks (munge col pre ++ (w ++ munge m2 post)) = chunks (munge col pre) ++ chunks (w ++ munge m2 post) := by
    apply chunks_append
    intro a b ha hb
    have := munge_last pre col hpre a ha
    rw [this]
    cases w with
    | nil => exact absurd rfl hne
    | cons x w => simp at hb; subst hb; rw [hw' x (by simp)]; simp
  have hB : chunks (w ++ munge m2 post) = chunks w ++ chunks (munge m2 post) := by
    apply chunks_append
    intro a b ha hb
    have := munge_head post m2 hpost b hb
    rw [this, hw' a (List.mem_of_getLast? ha)]
    simp
  simp only [split, hA, hB, chunks_word w hne hw', List.flatMap_append, List.mem_append]
  right; left
  simp [not_blank w hne hw', hc.plain w hne hy]

/-! ## Lines -/

theorem fill_append : ∀ (ws : List Str) (n : Nat), (fill n ws).1 ++ (fill n ws).2 = ws
  | [], _ => rfl
  | w :: ws, n => by
    unfold fill
    split
    · simp only [List.cons_append, fill_append ws]
    · rfl

theorem fill_len : ∀ (ws : List Str) (n : Nat), n ≤ width → n + (fill n ws).1.flatten.length ≤ width
  | [], n, h => by simpa [fill] using h
  | w :: ws, n, h => by
    unfold fill
    split
    · next hf =>
      have := fill_len ws _ hf
      simp only [List.flatten_cons, List.length_append] at this ⊢
      omega
    · simpa using h

theorem rfind_lt (s : Str) (h : Nat) (he : rfind s = some h) : h + 1 ≤ s.length := by
  simp only [rfind, Option.map_eq_some_iff] at he
  obtain ⟨k, hk, rfl⟩ := he
  have := (List.findIdx?_eq_some_iff_getElem.1 hk).1
  simp at this
  omega

theorem endOf_le (space : Nat) (w : Str) : endOf space w ≤ space := by
  unfold endOf
  split
  · split
    · next h he =>
      split
      · have := rfind_lt _ _ he
        simp at this
        omega
      · exact Nat.le_refl _
    · exact Nat.le_refl _
  · exact Nat.le_refl _

theorem endOf_pos (space : Nat) (w : Str) (h : 0 < space) : 0 < endOf space w := by
  unfold endOf
  split
  · split
    · split <;> omega
    · exact h
  · exact h

theorem endOf_plain (space : Nat) (w : Str) (h : '-' ∉ w) : endOf space w = space := by
  unfold endOf
  split
  · have : rfind (w.take space) = none := by
      simp only [rfind, Option.map_eq_none_iff, List.findIdx?_eq_none_iff]
      intro x hx
      have hx' : x ∈ w := List.mem_of_mem_take (List.mem_reverse.1 hx)
      simp only [decide_eq_false_iff_not]
      intro e; subst e; exact h hx'
    rw [this]
  · rfl

theorem long_flatten (line rest : List Str) : (long line rest).1.flatten ++ (long line rest).2.flatten = line.flatten ++ rest.flatten := by
  unfold long
  split
  · rfl
  · split
    · simp only [List.flatten_append, List.flatten_cons, List.flatten_nil, List.append_nil, List.append_assoc]
      rw [← List.append_assoc (List.take _ _), List.take_append_drop]
    · rfl

theorem long_len (line rest : List Str) (h : line.flatten.length ≤ width) : (long line rest).1.flatten.length ≤ width := by
  unfold long
  split
  · exact h
  · next w ws =>
    split
    · have := endOf_le (width - line.flatten.length) w
      simp only [List.flatten_append, List.flatten_cons, List.flatten_nil, List.append_nil, List.length_append, List.length_take]
      omega
    · exact h

theorem trail_letters (line : List Str) : letters (trail line).flatten = letters line.flatten := by
  rcases List.eq_nil_or_concat line with rfl | ⟨l, w, rfl⟩
  · rfl
  · rw [List.concat_eq_append]
    simp only [trail, List.getLast?_concat]
    split
    · next hb => simp [letters_append, letters_blank w hb]
    · rfl

theorem trail_len (line : List Str) : (trail line).flatten.length ≤ line.flatten.length := by
  rcases List.eq_nil_or_concat line with rfl | ⟨l, w, rfl⟩
  · exact Nat.le_refl _
  · rw [List.concat_eq_append]
    simp only [trail, List.getLast?_concat]
    split
    · simp
    · exact Nat.le_refl _

theorem trail_mem (line : List Str) (w : Str) (h : w ∈ line) (hb : blank w = false) : w ∈ trail line := by
  rcases List.eq_nil_or_concat line with rfl | ⟨l, v, rfl⟩
  · exact absurd h (by simp)
  · rw [List.concat_eq_append] at h ⊢
    simp only [trail, List.getLast?_concat]
    split
    · next hv =>
      simp only [List.dropLast_concat]
      rcases List.mem_append.1 h with h | h
      · exact h
      · simp at h; subst h; rw [hv] at hb; cases hb
    · exact h

theorem trail_sub (line : List Str) : ∀ w ∈ trail line, w ∈ line := by
  intro w hw
  unfold trail at hw
  split at hw
  · split at hw
    · exact List.dropLast_subset _ hw
    · exact hw
  · exact hw

theorem lead_letters (b : Bool) (ws : List Str) : letters (lead b ws).flatten = letters ws.flatten := by
  unfold lead
  split
  · rfl
  · next w r =>
    split
    · next h =>
      simp only [Bool.and_eq_true] at h
      rw [List.flatten_cons, letters_append, letters_blank w h.2]; rfl
    · rfl

theorem lead_mem (b : Bool) (ws : List Str) (w : Str) (h : w ∈ ws) (hb : blank w = false) : w ∈ lead b ws := by
  unfold lead
  split
  · exact h
  · next v r =>
    split
    · next hv =>
      simp only [Bool.and_eq_true] at hv
      rcases List.mem_cons.1 h with rfl | h
      · rw [hv.2] at hb; cases hb
      · exact h
    · exact h

theorem lead_sub (b : Bool) (ws : List Str) : ∀ w ∈ lead b ws, w ∈ ws := by
  intro w hw
  unfold lead at hw
  split at hw
  · exact hw
  · split at hw
    · exact List.mem_cons_of_mem _ hw
    · exact hw

theorem oneLine_letters (b : Bool) (ws : List Str) : letters (oneLine b ws).1.flatten ++ letters (oneLine b ws).2.flatten = letters ws.flatten := by
  simp only [oneLine]
  rw [trail_letters, ← letters_append, long_flatten, ← List.flatten_append, fill_append, lead_letters]

theorem oneLine_len (b : Bool) (ws : List Str) : (oneLine b ws).1.flatten.length ≤ width := by
  simp only [oneLine]
  refine Nat.le_trans (trail_len _) (long_len _ _ ?_)
  have := fill_len (lead b ws) 0 (by simp [width])
  omega

theorem oneLine_word (b : Bool) (ws : List Str) (w : Str) (h : w ∈ ws) (hb : blank w = false) (hl : w.length ≤ width) :
    w ∈ (oneLine b ws).1 ∨ w ∈ (oneLine b ws).2 := by
  simp only [oneLine]
  have h1 := lead_mem b ws w h hb
  rw [← fill_append (lead b ws) 0] at h1
  generalize fill 0 (lead b ws) = a at h1
  have h2 : w ∈ (long a.1 a.2).1 ∨ w ∈ (long a.1 a.2).2 := by
    rcases List.mem_append.1 h1 with h1 | h1
    · left
      unfold long
      split
      · exact h1
      · split
        · simp [h1]
        · exact h1
    · right
      unfold long
      split
      · next he => rw [he] at h1; exact absurd h1 (by simp)
      · next v vs he =>
        rw [he] at h1
        split
        · next hlt =>
          rcases List.mem_cons.1 h1 with rfl | h1
          · omega
          · simp [h1]
        · exact h1
  rcases h2 with h2 | h2
  · exact Or.inl (trail_mem _ _ h2 hb)
  · exact Or.inr h2

theorem oneLine_chars (b : Bool) (ws : List Str) (c : Char) (h : c ∈ (oneLine b ws).1.flatten ∨ c ∈ (oneLine b ws).2.flatten) : c ∈ ws.flatten := by
  simp only [oneLine] at h
  have key : c ∈ (long (fill 0 (lead b ws)).1 (fill 0 (lead b ws)).2).1.flatten ++ (long (fill 0 (lead b ws)).1 (fill 0 (lead b ws)).2).2.flatten := by
    rcases h with h | h
    · obtain ⟨v, hv, hc⟩ := List.mem_flatten.1 h
      exact List.mem_append_left _ (List.mem_flatten.2 ⟨v, trail_sub _ v hv, hc⟩)
    · exact List.mem_append_right _ h
  rw [long_flatten, ← List.flatten_append, fill_append] at key
  obtain ⟨v, hv, hc⟩ := List.mem_flatten.1 key
  exact List.mem_flatten.2 ⟨v, lead_sub b ws v hv, hc⟩

/-- Every turn takes characters from the chunks, and leaves no empty chunk -/
theorem oneLine_less (b : Bool) (ws : List Str) (hne : ws ≠ []) (hw : ∀ w ∈ ws, w ≠ []) :
    (oneLine b ws).2.flatten.length < ws.flatten.length ∧ ∀ w ∈ (oneLine b ws).2, w ≠ [] := by
  have hlead : ∀ w ∈ lead b ws, w ≠ [] := fun w h => hw w (lead_sub b ws w h)
  have hlen : (lead b ws).flatten.length ≤ ws.flatten.length := by
    unfold lead
    split
    · exact Nat.le_refl _
    · split
      · simp
      · exact Nat.le_refl _
  have hpos : 0 < ws.flatten.length := by
    cases ws with
    | nil => exact absurd rfl hne
    | cons w ws =>
      have := List.length_pos_iff.2 (hw w (by simp))
      simp; omega
  simp only [oneLine]
  cases hl : lead b ws with
  | nil => exact ⟨by simpa [fill, long] using hpos, by simp [fill, long]⟩
  | cons v vs =>
    have hv : v ≠ [] := hlead v (by simp [hl])
    have hvp := List.length_pos_iff.2 hv
    rw [hl] at hlen hlead
    by_cases hs : v.length ≤ width
    · have e1 : fill 0 (v :: vs) = (v :: (fill (0 + v.length) vs).1, (fill (0 + v.length) vs).2) := by
        rw [fill, if_pos (by omega)]
      rw [e1]
      have hf := fill_append vs (0 + v.length)
      generalize fill (0 + v.length) vs = a at hf
      have hrest : ∀ w ∈ a.2, w ≠ [] := fun w h => hlead w (by
        refine List.mem_cons_of_mem _ ?_
        rw [← hf]; exact List.mem_append_right _ h)
      have htot : a.2.flatten.length + v.length ≤ (v :: vs).flatten.length := by
        rw [← hf]; simp; omega
      unfold long
      split
      · next he => exact ⟨by simpa using hpos, by simp⟩
      · next u us he =>
        have heq : a.2 = u :: us := he
        rw [heq] at hrest htot
        split
        · next hlt =>
          simp only
          refine ⟨?_, ?_⟩
          · simp only [List.flatten_cons, List.length_append, List.length_drop] at htot ⊢
            simp only [List.flatten_cons, List.length_append] at hlen
            omega
          · intro w hmem
            rcases List.mem_cons.1 hmem with rfl | hmem
            · have := endOf_le (width - (v :: a.1).flatten.length) u
              intro hnil
              have h0 := congrArg List.length hnil
              rw [List.length_drop] at h0
              simp only [List.length_nil] at h0
              omega
            · exact hrest w (by simp [hmem])
        · refine ⟨?_, hrest⟩
          simp only
          omega
    · have e1 : fill 0 (v :: vs) = ([], v :: vs) := by
        rw [fill, if_neg (by omega)]
      rw [e1]
      have hlt : width < v.length := by omega
      simp only [long, if_pos hlt, List.flatten_nil, List.length_nil, Nat.sub_zero]
      have h1 := endOf_pos width v (by simp [width])
      have h2 := endOf_le width v
      refine ⟨?_, ?_⟩
      · simp only [List.flatten_cons, List.length_append, List.length_drop] at hlen ⊢
        omega
      · intro w hmem
        rcases List.mem_cons.1 hmem with rfl | hmem
        · intro hnil
          have h0 := congrArg List.length hnil
          rw [List.length_drop] at h0
          simp only [List.length_nil] at h0
          omega
        · exact hlead w (by simp [hmem])

theorem loop_spec : ∀ (n : Nat) (b : Bool) (ws : List Str), (∀ w ∈ ws, w ≠ []) → ws.flatten.length < n →
    letters (wrapLoop n b ws).flatten = letters ws.flatten ∧ (∀ l ∈ wrapLoop n b ws, l.length ≤ width) ∧
    (∀ l ∈ wrapLoop n b ws, ∀ c ∈ l, c ∈ ws.flatten) ∧
    (∀ w ∈ ws, blank w = false → w.length ≤ width → ∃ l ∈ wrapLoop n b ws, w <:+: l)
  | 0, _, _, _, h => absurd h (by omega)
  | n + 1, b, [], _, _ => by simp [wrapLoop]
  | n + 1, b, w :: ws, hne, h => by
    obtain ⟨hlt, hne'⟩ := oneLine_less b (w :: ws) (by simp) hne
    have hlet := oneLine_letters b (w :: ws)
    have hlen := oneLine_len b (w :: ws)
    have hwd := oneLine_word b (w :: ws)
    have hch := oneLine_chars b (w :: ws)
    simp only [wrapLoop]
    generalize oneLine b (w :: ws) = r at hlt hne' hlet hlen hwd hch
    split
    · next he =>
      obtain ⟨i1, i2, i3, i4⟩ := loop_spec n b r.2 hne' (by omega)
      rw [he] at hlet hwd
      refine ⟨?_, i2, ?_, ?_⟩
      · rw [i1, ← hlet]; rfl
      · intro l hl c hc; exact hch c (Or.inr (i3 l hl c hc))
      · intro v hv hb hl
        rcases hwd v hv hb hl with h | h
        · exact absurd h (by simp)
        · exact i4 v h hb hl
    · obtain ⟨i1, i2, i3, i4⟩ := loop_spec n true r.2 hne' (by omega)
      refine ⟨?_, ?_, ?_, ?_⟩
      · rw [List.flatten_cons, letters_append, i1, hlet]
      · intro l hl
        rcases List.mem_cons.1 hl with rfl | hl
        · exact hlen
        · exact i2 l hl
      · intro l hl c hc
        rcases List.mem_cons.1 hl with rfl | hl
        · exact hch c (Or.inl hc)
        · exact hch c (Or.inr (i3 l hl c hc))
      · intro v hv hb hl
        rcases hwd v hv hb hl with h | h
        · exact ⟨_, List.mem_cons_self, List.infix_of_mem_flatten h⟩
        · obtain ⟨l, hl', hi⟩ := i4 v h hb hl
          exact ⟨l, List.mem_cons_of_mem _ hl', hi⟩

/-! ## Lines of the text that is shown -/

theorem lines_ne (s : Str) : lines s ≠ [] := by
  cases s with
  | nil => simp [lines]
  | cons c s =>
    unfold lines
    split
    · simp
    · split <;> simp

theorem lines_plain : ∀ (l : Str), '\n' ∉ l → lines l = [l]
  | [], _ => rfl
  | c :: l, h => by
    have hc : c ≠ '\n' := fun e => h (by simp [e])
    rw [lines, if_neg hc, lines_plain l fun e => h (by simp [e])]

theorem lines_nl : ∀ (l s : Str), '\n' ∉ l → lines (l ++ '\n' :: s) = l :: lines s
  | [], s, _ => by simp [lines]
  | c :: l, s, h => by
    have hc : c ≠ '\n' := fun e => h (by simp [e])
    rw [List.cons_append, lines, if_neg hc, lines_nl l s fun e => h (by simp [e])]

theorem lines_join : ∀ (ls : List Str), ls ≠ [] → (∀ l ∈ ls, '\n' ∉ l) → lines (joinNl ls) = ls
  | [], h, _ => absurd rfl h
  | [l], _, h => lines_plain l (h l (by simp))
  | l :: m :: ls, _, h => by
    rw [joinNl, lines_nl _ _ (h l (by simp)), lines_join (m :: ls) (by simp) fun x hx => h x (by simp [hx])]

theorem lines_pre : ∀ (p s : Str), '\n' ∉ p → ∀ l ls, lines s = l :: ls → lines (p ++ s) = (p ++ l) :: ls
  | [], s, _, l, ls, h => h
  | c :: p, s, hp, l, ls, h => by
    have hc : c ≠ '\n' := fun e => hp (by simp [e])
    rw [List.cons_append, lines, if_neg hc, lines_pre p s (fun e => hp (by simp [e])) l ls h]
    rfl

theorem lines_indent (n : Nat) : ∀ (s : Str) (l : Str) (ls : List Str), lines s = l :: ls → lines (indent n s) = l :: ls.map fun m => List.replicate n ' ' ++ m
  | [], l, ls, h => by
    simp only [lines, List.cons.injEq] at h
    obtain ⟨rfl, rfl⟩ := h
    rfl
  | c :: s, l, ls, h => by
    obtain ⟨m, ms, hm⟩ : ∃ m ms, lines s = m :: ms := by
      cases hs : lines s with
      | nil => exact absurd hs (lines_ne s)
      | cons m ms => exact ⟨m, ms, rfl⟩
    have ih := lines_indent n s m ms hm
    unfold lines at h
    unfold indent
    split at h
    · next hc =>
      rw [if_pos hc]
      simp only [List.cons.injEq] at h
      obtain ⟨rfl, rfl⟩ := h
      rw [hm]
      have := lines_pre (List.replicate n ' ') (indent n s) (by simp [List.mem_replicate]) m _ ih
      rw [lines, if_pos rfl, this]
      rfl
    · next hc =>
      rw [if_neg hc]
      rw [hm] at h
      simp only [List.cons.injEq] at h
      obtain ⟨rfl, rfl⟩ := h
      rw [lines, if_neg hc, ih]

end Viscid.LogMsg.Lem
