import Verif.Spec.LogValue
import Verif.Props.AsCotr
/-! # C213: values in log files -/
namespace Viscid.Props
open Viscid.LogValue Viscid.Spec.LogValue Viscid.Spec.AsCotr

namespace LV

theorem ascii (p q : Char → Bool) (h : ∀ n < 128, p (Char.ofNat n) = q (Char.ofNat n)) (hp : ∀ c, p c = true → c.toNat < 128)
    (hq : ∀ c, q c = true → c.toNat < 128) (c : Char) : p c = true ↔ q c = true := by
  by_cases hc : c.toNat < 128
  · have := h _ hc
    rw [Char.ofNat_toNat] at this
    rw [this]
  · exact ⟨fun h => absurd (hp c h) hc, fun h => absurd (hq c h) hc⟩

theorem digit_iff (c : Char) : isDigit c = true ↔ Digit c := by
  have := ascii isDigit (fun c => "0123456789".toList.contains c) (by decide +kernel) ?_ ?_ c
  · rw [this, List.contains_iff_mem]; rfl
  · intro c h
    simp only [isDigit, Bool.and_eq_true, decide_eq_true_eq] at h
    have : c.toNat ≤ 57 := h.2
    omega
  · intro c h
    rw [List.contains_iff_mem] at h
    have : ∀ c ∈ "0123456789".toList, c.toNat < 128 := by decide +kernel
    exact this c h

theorem letter_iff (c : Char) : isLetter c = true ↔ Letter c := by
  have := ascii isLetter (fun c => "abcdefghijklmnopqrstuvwxyzABCDEFGHIJKLMNOPQRSTUVWXYZ".toList.contains c) (by decide +kernel) ?_ ?_ c
  · rw [this, List.contains_iff_mem]; rfl
  · intro c h
    simp only [isLetter, Bool.or_eq_true, Bool.and_eq_true, decide_eq_true_eq] at h
    rcases h with h | h
    · have : c.toNat ≤ 122 := h.2
      omega
    · have : c.toNat ≤ 90 := h.2
      omega
  · intro c h
    rw [List.contains_iff_mem] at h
    have : ∀ c ∈ "abcdefghijklmnopqrstuvwxyzABCDEFGHIJKLMNOPQRSTUVWXYZ".toList, c.toNat < 128 := by decide +kernel
    exact this c h

theorem blank_iff (c : Char) : isSpace c = true ↔ Blank c := AC.blank_iff c
theorem strip_eq (s : Text) : LogValue.strip s = A2b.strip s := rfl
theorem trimmed_iff (s t : Text) : Trimmed s t ↔ LogValue.strip s = t :=
  ⟨fun h => AC.trimmed_strip s t h, fun h => h ▸ AC.strip_trimmed s⟩
theorem num_iff (c : Char) : numChar c = true ↔ NumChar c := by simp [numChar, NumChar, digit_iff]
theorem word_iff (c : Char) : wordChar c = true ↔ WordChar c := by simp [wordChar, WordChar, digit_iff, letter_iff, or_assoc]

theorem split_ne (sep : Char) (s : Text) : LogValue.split sep s ≠ [] := by
  cases s with
  | nil => simp [LogValue.split]
  | cons c s =>
    unfold LogValue.split
    split
    · simp
    · split <;> simp

theorem split_none (sep : Char) (p : Text) (h : sep ∉ p) : LogValue.split sep p = [p] := by
  induction p with
  | nil => rfl
  | cons c p ih =>
    simp only [List.mem_cons, not_or] at h
    simp [LogValue.split, ih h.2, Ne.symm h.1]

theorem split_append (sep : Char) (p s : Text) (h : sep ∉ p) : LogValue.split sep (p ++ sep :: s) = p :: LogValue.split sep s := by
  induction p with
  | nil => simp [LogValue.split]
  | cons c p ih =>
    simp only [List.mem_cons, not_or] at h
    simp [LogValue.split, ih h.2, Ne.symm h.1]

theorem split_joined (sep : Char) (s : Text) : Joined sep s (LogValue.split sep s) := by
  induction s with
  | nil => exact .one (by simp)
  | cons c s ih =>
    unfold LogValue.split
    split
    · rename_i h; subst h
      exact Joined.more (p := []) (by simp) ih
    · rename_i h
      split
      · rename_i e; exact absurd e (split_ne sep s)
      · rename_i p ps e
        rw [e] at ih
        cases ih with
        | one hp => exact .one (by simp [Ne.symm h, hp])
        | more hp hs => exact Joined.more (p := c :: p) (by simp [Ne.symm h, hp]) hs

theorem joined_iff (sep : Char) (s : Text) (l : List Text) : Joined sep s l ↔ LogValue.split sep s = l := by
  constructor
  · intro h
    induction h with
    | one hp => exact split_none _ _ hp
    | more hp _ ih => rw [split_append _ _ _ hp, ih]
  · rintro rfl; exact split_joined sep s

theorem natOf_eq (s : Text) : natOf s = Nat.ofDigitChars 10 s 0 := by
  rw [Nat.ofDigitChars_eq_foldl]; rfl

theorem joined_filter {sep s l} (h : Joined sep s l) : s.filter (· ≠ sep) = l.flatten := by
  have e : ∀ p : Text, sep ∉ p → p.filter (fun x => decide (x ≠ sep)) = p := by
    intro p hp
    rw [List.filter_eq_self]
    intro c hc
    simp; rintro rfl; exact hp hc
  induction h with
  | one hp => simp only [List.flatten_cons, List.flatten_nil, List.append_nil]; exact e _ hp
  | more hp _ ih =>
    rw [List.filter_append, e _ hp, List.filter_cons_of_neg (by simp), ih]; rfl

theorem unsigned_iff (s : Text) (n : Nat) : unsigned s = some n ↔ NatText s n := by
  have hall : (LogValue.split '_' s).all (fun p => !p.isEmpty && p.all isDigit) = true ↔
      ∀ p ∈ LogValue.split '_' s, p ≠ [] ∧ ∀ c ∈ p, Digit c := by
    simp [List.all_eq_true, digit_iff]
  unfold unsigned NatText
  rw [natOf_eq, joined_filter (split_joined '_' s)]
  constructor
  · intro h
    split at h
    · rename_i hc
      exact ⟨_, split_joined '_' s, hall.1 hc, (Option.some.inj h).symm⟩
    · cases h
  · rintro ⟨l, h1, h2, rfl⟩
    rw [joined_iff] at h1
    subst h1
    rw [if_pos (hall.2 h2)]

theorem natText_head {c : Char} {s : Text} {n : Nat} (h : NatText (c :: s) n) : Digit c := by
  obtain ⟨l, h1, h2, _⟩ := h
  generalize e : c :: s = u at h1
  cases h1 with
  | one hp => subst e; exact (h2 (c :: s) (by simp)).2 c (by simp)
  | @more p _ _ hp hs =>
    cases p with
    | nil => exact absurd rfl (h2 [] (by simp)).1
    | cons d p =>
      simp at e
      obtain ⟨rfl, _⟩ := e
      exact (h2 (c :: p) (by simp)).2 c (by simp)

theorem intOf_iff (s : Text) (n : Int) : intOf s = some n ↔ IntText s n := by
  have hm : ∀ (t : Text) (g : Nat → Int), (unsigned t).map g = some n ↔ ∃ k, NatText t k ∧ n = g k := by
    intro t g
    simp only [Option.map_eq_some_iff, unsigned_iff]
    exact ⟨fun ⟨k, h1, h2⟩ => ⟨k, h1, h2.symm⟩, fun ⟨k, h1, h2⟩ => ⟨k, h1, h2.symm⟩⟩
  have hd : ¬ Digit '-' ∧ ¬ Digit '+' := by unfold Digit; decide
  unfold intOf IntText
  constructor
  · intro h
    split at h
    · rename_i t e
      exact ⟨_, t, (trimmed_iff _ _).2 rfl, .inl ⟨e, (hm _ _).1 h⟩⟩
    · rename_i t e
      exact ⟨_, t, (trimmed_iff _ _).2 rfl, .inr ⟨.inl e, (hm _ _).1 h⟩⟩
    · exact ⟨_, _, (trimmed_iff _ _).2 rfl, .inr ⟨.inr rfl, (hm _ _).1 h⟩⟩
  · rintro ⟨t, m, h1, h2⟩
    rw [trimmed_iff] at h1
    rw [h1]
    rcases h2 with ⟨rfl, h2⟩ | ⟨rfl | rfl, h2⟩
    · exact (hm _ _).2 h2
    · exact (hm _ _).2 h2
    · split
      · obtain ⟨k, hk, _⟩ := h2; exact absurd (natText_head hk) hd.1
      · obtain ⟨k, hk, _⟩ := h2; exact absurd (natText_head hk) hd.2
      · exact (hm _ _).2 h2

theorem intOf_none (s : Text) : intOf s = none ↔ ∀ n, ¬ IntText s n := by
  rw [Option.eq_none_iff_forall_ne_some]
  exact ⟨fun h n hn => h n ((intOf_iff s n).2 hn), fun h n hn => h n ((intOf_iff s n).1 hn)⟩

theorem isDigit_digit (c : Char) (h : c.isDigit = true) : Digit c := by
  rw [← digit_iff]
  simp only [Char.isDigit, Bool.and_eq_true, decide_eq_true_eq] at h
  simp only [isDigit, Bool.and_eq_true, decide_eq_true_eq]
  exact h

theorem natText_dec (n : Nat) : NatText n.repr.toList n := by
  rw [Nat.toList_repr]
  refine ⟨[Nat.toDigits 10 n], .one Nat.underscore_not_in_toDigits, ?_, ?_⟩
  · intro p hp
    simp only [List.mem_singleton] at hp
    subst hp
    exact ⟨Nat.toDigits_ne_nil, fun c hc => isDigit_digit c (Nat.isDigit_of_mem_toDigits (by decide) (by decide) hc)⟩
  · simp [Nat.ofDigitChars_ten_toDigits]

theorem dec_cases (n : Int) : (∃ m : Nat, dec n = m.repr.toList ∧ n = m) ∨ ∃ m : Nat, dec n = '-' :: m.repr.toList ∧ n = -(m : Int) := by
  cases n with
  | ofNat m => exact .inl ⟨m, rfl, rfl⟩
  | negSucc m =>
    refine .inr ⟨m + 1, ?_, rfl⟩
    show ("-" ++ Nat.repr (m + 1)).toList = _
    rw [String.toList_append]; rfl

theorem dec_numeral (n : Int) : Numeral (dec n) := by
  have h : ∀ m : Nat, m.repr.toList ≠ [] ∧ ∀ c ∈ m.repr.toList, NumChar c := by
    intro m
    rw [Nat.toList_repr]
    exact ⟨Nat.toDigits_ne_nil, fun c hc => .inl (isDigit_digit c (Nat.isDigit_of_mem_toDigits (by decide) (by decide) hc))⟩
  rcases dec_cases n with ⟨m, e, _⟩ | ⟨m, e, _⟩
  · exact ⟨_, (h m).1, (h m).2, .inl e⟩
  · exact ⟨_, (h m).1, (h m).2, .inr e⟩

theorem numChar_not_blank {c : Char} (h : NumChar c) : ¬ Blank c := by
  have : ∀ c ∈ '.' :: "0123456789".toList, ¬ Blank c := by unfold Blank; decide
  exact this c (by rcases h with h | rfl <;> [exact List.mem_cons_of_mem _ h; simp])

theorem numeral_chars {s : Text} (h : Numeral s) : s ≠ [] ∧ ∀ c ∈ s, NumChar c ∨ c = '-' := by
  obtain ⟨d, h1, h2, rfl | rfl⟩ := h
  · exact ⟨h1, fun c hc => .inl (h2 c hc)⟩
  · refine ⟨by simp, fun c hc => ?_⟩
    rcases List.mem_cons.1 hc with rfl | hc
    · exact .inr rfl
    · exact .inl (h2 c hc)

/-- blanks around a text without blanks at its ends -/
theorem trimmed_pad (a t b : Text) (ha : ∀ c ∈ a, Blank c) (hb : ∀ c ∈ b, Blank c) (ht : ∀ c ∈ t, ¬ Blank c) : Trimmed (a ++ t ++ b) t :=
  ⟨a, b, rfl, ha, hb, fun c hc => ht c (List.mem_of_head? hc), fun c hc => ht c (List.mem_of_getLast? hc)⟩

theorem numeral_not_blank {s : Text} (h : Numeral s) : ∀ c ∈ s, ¬ Blank c := by
  intro c hc
  rcases (numeral_chars h).2 c hc with h | rfl
  · exact numChar_not_blank h
  · unfold Blank; decide

theorem dec_text (n : Int) (a b : Text) (ha : ∀ c ∈ a, Blank c) (hb : ∀ c ∈ b, Blank c) : IntText (a ++ dec n ++ b) n := by
  have ht := trimmed_pad a (dec n) b ha hb (numeral_not_blank (dec_numeral n))
  rcases dec_cases n with ⟨m, e, h⟩ | ⟨m, e, h⟩
  · exact ⟨_, m.repr.toList, ht, .inr ⟨.inr e, m, natText_dec m, h⟩⟩
  · exact ⟨_, m.repr.toList, ht, .inl ⟨e, m, natText_dec m, h⟩⟩

/-- the characters of the texts of integers -/
theorem intText_chars {s : Text} {n : Int} (h : IntText s n) : ∀ c ∈ s, Blank c ∨ c = '-' ∨ c = '+' ∨ c = '_' ∨ Digit c := by
  obtain ⟨t, m, ⟨a, b, rfl, ha, hb, _⟩, h⟩ := h
  have nat : ∀ m k, NatText m k → ∀ c ∈ m, c = '_' ∨ Digit c := by
    rintro m k ⟨l, h1, h2, e⟩
    clear e h
    induction h1 with
    | one hp => exact fun c hc => .inr ((h2 _ (by simp)).2 c hc)
    | more hp _ ih =>
      intro c hc
      rcases List.mem_append.1 hc with hc | hc
      · exact .inr ((h2 _ (by simp)).2 c hc)
      · rcases List.mem_cons.1 hc with rfl | hc
        · exact .inl rfl
        · exact ih (fun p hp => h2 p (by simp [hp])) c hc
  have ht : ∀ c ∈ t, c = '-' ∨ c = '+' ∨ c = '_' ∨ Digit c := by
    intro c hc
    rcases h with ⟨rfl, k, hk, _⟩ | ⟨rfl | rfl, k, hk, _⟩
    · rcases List.mem_cons.1 hc with rfl | hc
      · exact .inl rfl
      · exact .inr (.inr (nat _ _ hk c hc))
    · rcases List.mem_cons.1 hc with rfl | hc
      · exact .inr (.inl rfl)
      · exact .inr (.inr (nat _ _ hk c hc))
    · exact .inr (.inr (nat _ _ hk c hc))
  intro c hc
  rcases List.mem_append.1 hc with hc | hc
  · rcases List.mem_append.1 hc with hc | hc
    · exact .inl (ha c hc)
    · exact .inr (ht c hc)
  · exact .inl (hb c hc)

theorem takeWhile_sep (p : Char → Bool) (d r : Text) (h : ∀ c ∈ d, p c = true) (hr : ∀ c, r.head? = some c → p c = false) :
    (d ++ r).takeWhile p = d ∧ (d ++ r).dropWhile p = r := by
  induction d with
  | nil =>
    cases r with
    | nil => simp
    | cons c r => simp [hr c rfl]
  | cons c d ih =>
    have := ih fun x hx => h x (by simp [hx])
    simp [h c (by simp), this.1, this.2]

theorem takeWhile_mem (p : Char → Bool) (l : Text) : ∀ x ∈ l.takeWhile p, p x = true := by
  induction l with
  | nil => simp
  | cons y l ih =>
    intro x hx
    by_cases hy : p y = true
    · rw [List.takeWhile_cons_of_pos hy] at hx
      rcases List.mem_cons.1 hx with rfl | hx
      · exact hy
      · exact ih x hx
    · rw [List.takeWhile_cons_of_neg hy] at hx; cases hx

theorem optMinus_cases (s : Text) : (s = '-' :: optMinus s) ∨ (s = optMinus s ∧ s.head? ≠ some '-') := by
  unfold optMinus
  split
  · exact .inl rfl
  · rename_i h
    refine .inr ⟨rfl, ?_⟩
    cases s with
    | nil => simp
    | cons c s => simp; rintro rfl; exact h s rfl

theorem optMinus_of_ne (s : Text) (h : s.head? ≠ some '-') : optMinus s = s := by
  unfold optMinus
  split
  · simp at h
  · rfl

theorem not_num_minus : ¬ NumChar '-' := by rintro (h | h) <;> [exact absurd h (by unfold Digit; decide); simp at h]
theorem num_false (c : Char) (h : ¬ NumChar c) : numChar c = false := by
  rw [← num_iff] at h; simpa using h
theorem blank_false (c : Char) (h : ¬ Blank c) : isSpace c = false := by
  rw [← blank_iff] at h; simpa using h
theorem word_false (c : Char) (h : ¬ WordChar c) : wordChar c = false := by
  rw [← word_iff] at h; simpa using h

/-- a numeral and what comes after it -/
theorem optMinus_numeral (d r : Text) (h1 : d ≠ []) (h2 : ∀ c ∈ d, NumChar c) {s : Text} (h : s = d ++ r ∨ s = '-' :: (d ++ r)) : optMinus s = d ++ r := by
  rcases h with rfl | rfl
  · refine optMinus_of_ne _ ?_
    cases d with
    | nil => exact absurd rfl h1
    | cons c d =>
      simp
      rintro rfl
      exact not_num_minus (h2 '-' (by simp))
  · rfl

theorem blank_word_num {c : Char} (h : Blank c ∨ c = ',' ∨ c = ':') : ¬ WordChar c ∧ ¬ NumChar c := by
  have : ∀ c ∈ [',', ':', ' ', '\t', '\n', '\r', '\x0b', '\x0c'], wordChar c = false ∧ numChar c = false := by decide
  have h' := this c (by unfold Blank at h; simp only [List.mem_cons] at h ⊢; tauto)
  rw [← num_iff, ← word_iff, h'.1, h'.2]
  simp

theorem word_not_blank {c : Char} (h : WordChar c) : ¬ Blank c := fun hb => (blank_word_num (.inl hb)).1 h
theorem num_word {c : Char} (h : NumChar c) : WordChar c := by rcases h with h | h <;> [exact .inr (.inl h); exact .inr (.inr (.inl h))]

theorem head_app_blank (a : Text) (ha : ∀ c ∈ a, Blank c) (d : Char) (r : Text) (c : Char) (h : (a ++ d :: r).head? = some c) : Blank c ∨ c = d := by
  cases a with
  | nil => simp at h; exact .inr h.symm
  | cons x a => simp at h; subst h; exact .inl (ha x (by simp))

theorem looksList_iff (s : Text) : looksList s = true ↔ ListLike s := by
  unfold looksList
  constructor
  · intro h
    simp only [Bool.and_eq_true] at h
    obtain ⟨h1, h2⟩ := h
    have hd : (optMinus s).takeWhile numChar ≠ [] := by simpa using h1
    split at h2
    · rename_i t e
      split at h2
      · rename_i c r e2
        have n1 : ∀ c ∈ (optMinus s).takeWhile numChar, NumChar c := fun c hc => (num_iff c).1 (takeWhile_mem _ _ c hc)
        have n2 : ∀ c' ∈ [c], NumChar c' := by
          intro c' hc'; rw [List.mem_singleton] at hc'; subst hc'; exact (num_iff _).1 h2
        have e3 : optMinus s = (optMinus s).takeWhile numChar ++ (((optMinus s).dropWhile numChar).takeWhile isSpace ++ ',' :: t) := by
          rw [← e, List.takeWhile_append_dropWhile, List.takeWhile_append_dropWhile]
        have b1 : ∀ c ∈ ((optMinus s).dropWhile numChar).takeWhile isSpace, Blank c := fun c hc => (blank_iff c).1 (takeWhile_mem _ _ c hc)
        have b2 : ∀ c ∈ t.takeWhile isSpace, Blank c := fun c hc => (blank_iff c).1 (takeWhile_mem _ _ c hc)
        have e4 : ∃ y, Numeral y ∧ t = t.takeWhile isSpace ++ (y ++ r) := by
          rcases optMinus_cases (t.dropWhile isSpace) with h | ⟨h, _⟩
          · refine ⟨'-' :: [c], ⟨[c], by simp, n2, .inr rfl⟩, ?_⟩
            have : t.dropWhile isSpace = ['-', c] ++ r := by rw [h, e2]; rfl
            rw [← this, List.takeWhile_append_dropWhile]
          · refine ⟨[c], ⟨[c], by simp, n2, .inl rfl⟩, ?_⟩
            have : t.dropWhile isSpace = [c] ++ r := by rw [h, e2]; rfl
            rw [← this, List.takeWhile_append_dropWhile]
        obtain ⟨y, hy, ey⟩ := e4
        rcases optMinus_cases s with h | ⟨h, _⟩
        · refine ⟨_, _, '-' :: (optMinus s).takeWhile numChar, y, r, ⟨_, hd, n1, .inr rfl⟩, hy, b1, b2, ?_⟩
          rw [← ey]
          exact h.trans (congrArg ('-' :: ·) e3)
        · refine ⟨_, _, (optMinus s).takeWhile numChar, y, r, ⟨_, hd, n1, .inl rfl⟩, hy, b1, b2, ?_⟩
          rw [← ey]
          exact h.trans e3
      · cases h2
    · cases h2
  · rintro ⟨a, b, x, y, rest, ⟨d, h1, h2, hx⟩, ⟨e, h3, h4, hy⟩, ha, hb, rfl⟩
    have e1 : optMinus (x ++ (a ++ ',' :: (b ++ (y ++ rest)))) = d ++ (a ++ ',' :: (b ++ (y ++ rest))) :=
      optMinus_numeral d _ h1 h2 (by rcases hx with rfl | rfl <;> simp)
    rw [e1]
    obtain ⟨t1, t2⟩ := takeWhile_sep numChar d (a ++ ',' :: (b ++ (y ++ rest))) (fun c hc => (num_iff c).2 (h2 c hc)) fun c hc =>
      num_false c (by
        rcases head_app_blank a ha _ _ c hc with h | rfl
        · exact (blank_word_num (.inl h)).2
        · exact (blank_word_num (.inr (.inl rfl))).2)
    obtain ⟨_, t3⟩ := takeWhile_sep isSpace a (',' :: (b ++ (y ++ rest))) (fun c hc => (blank_iff c).2 (ha c hc)) (by
      intro c hc; simp at hc; subst hc; rfl)
    obtain ⟨_, t4⟩ := takeWhile_sep isSpace b (y ++ rest) (fun c hc => (blank_iff c).2 (hb c hc)) (by
      intro c hc
      refine blank_false c ?_
      have hY : Numeral y := ⟨e, h3, h4, hy⟩
      obtain ⟨c', y', rfl⟩ := List.exists_cons_of_ne_nil (numeral_chars hY).1
      simp at hc; subst hc
      exact numeral_not_blank hY _ (by simp))
    have e2 : optMinus (y ++ rest) = e ++ rest := optMinus_numeral e _ h3 h4 (by rcases hy with rfl | rfl <;> simp)
    simp only [t1, t2, t3, t4, e2, Bool.and_eq_true]
    refine ⟨by simpa using h1, ?_⟩
    obtain ⟨c', y', rfl⟩ := List.exists_cons_of_ne_nil h3
    exact (num_iff _).2 (h4 c' (by simp))

theorem looksWords_iff (s : Text) : looksWords s = true ↔ WordsLike s := by
  unfold looksWords
  constructor
  · intro h
    simp only [Bool.and_eq_true] at h
    obtain ⟨h1, h2⟩ := h
    have hd : s.takeWhile wordChar ≠ [] := by simpa using h1
    split at h2
    · rename_i t e
      split at h2
      · rename_i c r e2
        refine ⟨(s.dropWhile wordChar).takeWhile isSpace, t.takeWhile isSpace, s.takeWhile wordChar, [c], r, hd, by simp,
          fun c hc => (word_iff c).1 (takeWhile_mem _ _ c hc), ?_, fun c hc => (blank_iff c).1 (takeWhile_mem _ _ c hc),
          fun c hc => (blank_iff c).1 (takeWhile_mem _ _ c hc), ?_⟩
        · intro c' hc'; rw [List.mem_singleton] at hc'; subst hc'; exact (word_iff _).1 h2
        · rw [List.singleton_append, ← e2, List.takeWhile_append_dropWhile, ← e, List.takeWhile_append_dropWhile, List.takeWhile_append_dropWhile]
      · cases h2
    · cases h2
  · rintro ⟨a, b, x, y, rest, h1, h3, h2, h4, ha, hb, rfl⟩
    obtain ⟨t1, t2⟩ := takeWhile_sep wordChar x (a ++ ':' :: (b ++ (y ++ rest))) (fun c hc => (word_iff c).2 (h2 c hc)) fun c hc =>
      word_false c (by
        rcases head_app_blank a ha _ _ c hc with h | rfl
        · exact (blank_word_num (.inl h)).1
        · exact (blank_word_num (.inr (.inr rfl))).1)
    obtain ⟨_, t3⟩ := takeWhile_sep isSpace a (':' :: (b ++ (y ++ rest))) (fun c hc => (blank_iff c).2 (ha c hc)) (by
      intro c hc; simp at hc; subst hc; rfl)
    obtain ⟨c', y', rfl⟩ := List.exists_cons_of_ne_nil h3
    obtain ⟨_, t4⟩ := takeWhile_sep isSpace b (c' :: y' ++ rest) (fun c hc => (blank_iff c).2 (hb c hc)) (by
      intro c hc
      simp at hc; subst hc
      exact blank_false _ (word_not_blank (h4 _ (by simp))))
    simp only [t1, t2, t3, t4, Bool.and_eq_true]
    refine ⟨by simpa using h1, ?_⟩
    exact (word_iff _).2 (h4 c' (by simp))

variable {F : Type} (f : Floats F)

theorem item_entry (p : Text) : Entry f p (item f p) := by
  unfold item
  split
  · rename_i n h; exact .int ((intOf_iff _ _).1 h)
  · rename_i h
    have h := (intOf_none _).1 h
    split
    · rename_i x e; exact .float h e
    · rename_i e; exact .text h e ((trimmed_iff _ _).2 rfl)

theorem entry_iff (p : Text) (i : Item F) : Entry f p i ↔ item f p = i := by
  constructor
  · intro h
    unfold item
    cases h with
    | int h => rw [(intOf_iff _ _).2 h]
    | float h e => rw [(intOf_none _).2 h, e]
    | text h e t => rw [(intOf_none _).2 h, e, (trimmed_iff _ _).1 t]
  · rintro rfl; exact item_entry f p

theorem entries (l : List Text) (is : List (Item F)) : List.Forall₂ (Entry f) l is ↔ l.map (item f) = is := by
  rw [show List.Forall₂ (Entry f) l is ↔ List.Forall₂ (fun p i => item f p = i) l is from by rw [show Entry f = fun p i => item f p = i from funext fun p => funext fun i => propext (entry_iff f p i)]]
  constructor
  · intro h
    induction h with
    | nil => rfl
    | cons h _ ih => rw [List.map_cons, h, ih]
  · rintro rfl
    induction l with
    | nil => exact .nil
    | cons x l ih => exact .cons rfl ih

theorem array_is (l : List (Item F)) : IsArray f l (array f l) := by
  unfold array
  split
  · rename_i h
    refine .texts ?_ ?_
    · clear h
      induction l with
      | nil => exact .nil
      | cons i l ih => exact .cons (by cases i <;> constructor) ih
    · rw [List.any_eq_true] at h
      obtain ⟨i, hi, h⟩ := h
      cases i with
      | text s => exact ⟨s, hi⟩
      | int n => cases h
      | float n => cases h
  · rename_i h1
    rw [List.any_eq_true] at h1
    split
    · rename_i h
      refine .floats ?_ ?_
      · clear h
        induction l with
        | nil => exact .nil
        | cons i l ih =>
          have ih := ih fun ⟨x, hx, h⟩ => h1 ⟨x, by simp [hx], h⟩
          cases i with
          | int n => exact .cons (.int n) ih
          | float x => exact .cons (.float x) ih
          | text s => exact absurd ⟨.text s, by simp, rfl⟩ h1
      · rw [List.any_eq_true] at h
        obtain ⟨i, hi, h⟩ := h
        cases i with
        | text s => cases h
        | int n => cases h
        | float x => exact ⟨x, hi⟩
    · rename_i h2
      rw [List.any_eq_true] at h2
      have : ∃ ns : List Int, l = ns.map .int := by
        induction l with
        | nil => exact ⟨[], rfl⟩
        | cons i l ih =>
          obtain ⟨ns, e⟩ := ih (fun ⟨x, hx, h⟩ => h1 ⟨x, by simp [hx], h⟩) (fun ⟨x, hx, h⟩ => h2 ⟨x, by simp [hx], h⟩)
          cases i with
          | int n => exact ⟨n :: ns, by rw [e]; rfl⟩
          | float x => exact absurd ⟨.float x, by simp, rfl⟩ h2
          | text s => exact absurd ⟨.text s, by simp, rfl⟩ h1
      obtain ⟨ns, rfl⟩ := this
      rw [List.filterMap_map]
      have e : ∀ g : Int → Option Int, (∀ n, g n = some n) → ns.filterMap g = ns := by
        intro g hg
        rw [show g = some from funext hg]
        exact List.filterMap_some
      exact (e _ fun n => rfl).symm ▸ (IsArray.ints ns : IsArray f _ _)

theorem isArray_unique {l : List (Item F)} {v w : Value F} (hv : IsArray f l v) (hw : IsArray f l w) : v = w := by
  have tn : ∀ {is : List (Item F)} {l}, List.Forall₂ (AsFloat f) is l → ∀ x, Item.text x ∉ is := by
    intro is l h
    induction h with
    | nil => simp
    | cons h _ ih =>
      intro x hx
      rcases List.mem_cons.1 hx with rfl | hx
      · cases h
      · exact ih x hx
  have u1 : ∀ {is : List (Item F)} {l m}, List.Forall₂ (AsFloat f) is l → List.Forall₂ (AsFloat f) is m → l = m := by
    intro is l m h
    induction h generalizing m with
    | nil => intro h; cases h; rfl
    | cons h _ ih =>
      intro h'; cases h' with
      | cons h1 h2 => rw [ih h2]; cases h <;> cases h1 <;> rfl
  have u2 : ∀ {is : List (Item F)} {l m}, List.Forall₂ (AsText f) is l → List.Forall₂ (AsText f) is m → l = m := by
    intro is l m h
    induction h generalizing m with
    | nil => intro h; cases h; rfl
    | cons h _ ih =>
      intro h'; cases h' with
      | cons h1 h2 => rw [ih h2]; cases h <;> cases h1 <;> rfl
  generalize e : l = l' at hw
  cases hv with
  | ints ns =>
    cases hw with
    | ints ms => rw [List.map_injective_iff.2 (fun a b h => by cases h; rfl) e]
    | floats h h2 => subst e; obtain ⟨x, hx⟩ := h2; simp at hx
    | texts h h2 => subst e; obtain ⟨x, hx⟩ := h2; simp at hx
  | floats h h2 =>
    cases hw with
    | ints ms => subst e; obtain ⟨x, hx⟩ := h2; simp at hx
    | floats h' h2' => subst e; rw [u1 h h']
    | texts h' h2' => subst e; obtain ⟨x, hx⟩ := h2'; exact absurd hx (tn h x)
  | texts h h2 =>
    cases hw with
    | ints ms => subst e; obtain ⟨x, hx⟩ := h2; simp at hx
    | floats h' h2' => subst e; obtain ⟨x, hx⟩ := h2; exact absurd hx (tn h' x)
    | texts h' h2' => subst e; rw [u2 h h']

theorem array_not_int {l : List (Item F)} {n : Int} (h : IsArray f l (.int n)) : False := by
  generalize e : Value.int n = v at h
  cases h <;> cases e

theorem isArray_iff (l : List (Item F)) (v : Value F) : IsArray f l v ↔ array f l = v :=
  ⟨fun h => isArray_unique f (array_is f l) h, fun h => h ▸ array_is f l⟩

theorem joined_mem {sep : Char} {s : Text} {l : List Text} (h : Joined sep s l) (h2 : 2 ≤ l.length) : sep ∈ s := by
  cases h with
  | one => simp at h2
  | more => simp

theorem not_int_of_mem {s : Text} {c : Char} (hc : c ∈ s) (h : ¬ Blank c ∧ c ≠ '-' ∧ c ≠ '+' ∧ c ≠ '_' ∧ ¬ Digit c) : ∀ n, ¬ IntText s n := by
  intro n hn
  have := intText_chars hn c hc
  tauto

end LV

variable {F : Type} (f : Floats F)

/-- C213: a value is read as an integer just when its text is one, and as that integer. -/
theorem C213_integer (s : Text) (n : Int) : parseValue f s = .int n ↔ IntText s n := by
  rw [← LV.intOf_iff]
  unfold parseValue
  constructor
  · intro h
    split at h
    · rename_i m e; cases h; exact e
    · split at h
      · cases h
      · dsimp only at h
        split at h
        · have := LV.array_is f ((LogValue.split ',' (LogValue.strip s)).map (item f))
          rw [h] at this
          exact (LV.array_not_int f this).elim
        · split at h <;> cases h
  · intro h; rw [h]

/-- C213: every integer, written in decimal and with any blanks around it, is read as it is. -/
theorem C213_decimal (n : Int) (a b : Text) (ha : ∀ c ∈ a, Blank c) (hb : ∀ c ∈ b, Blank c) : parseValue f (a ++ dec n ++ b) = .int n := by
  exact (C213_integer f _ n).2 (LV.dec_text n a b ha hb)

/-- C213: otherwise as a float, if Python reads one. -/
theorem C213_float (s : Text) (x : F) (h : ∀ n, ¬ IntText s n) (hx : f.float s = some x) : parseValue f s = .float x := by
  unfold parseValue
  rw [(LV.intOf_none s).2 h, hx]

/-- C213: otherwise by its first characters: the array of what is between commas, the texts between colons, or the text itself. -/
theorem C213_kinds (s t : Text) (h : ∀ n, ¬ IntText s n) (hx : f.float s = none) (ht : Trimmed s t) :
    (ListLike t → ∃ l is, Joined ',' t l ∧ List.Forall₂ (Entry f) l is ∧ IsArray f is (parseValue f s)) ∧
    (¬ ListLike t → WordsLike t → ∃ l, Joined ':' t l ∧ parseValue f s = .words l) ∧
    (¬ ListLike t → ¬ WordsLike t → parseValue f s = .text t) := by
  rw [LV.trimmed_iff] at ht
  subst ht
  rw [← LV.looksList_iff, ← LV.looksWords_iff]
  unfold parseValue
  rw [(LV.intOf_none s).2 h, hx]
  refine ⟨fun h1 => ?_, fun h1 h2 => ?_, fun h1 h2 => ?_⟩
  · exact ⟨_, _, LV.split_joined _ _, (LV.entries f _ _).2 rfl, by dsimp only; rw [if_pos h1]; exact LV.array_is f _⟩
  · exact ⟨_, LV.split_joined _ _, by dsimp only; rw [if_neg h1, if_pos h2]⟩
  · dsimp only; rw [if_neg h1, if_neg h2]

namespace LV
/-- what `C213_kinds` says of a list -/
theorem list_value (s t : Text) (l : List Text) (is : List (Item F)) (v : Value F) (h : ∀ n, ¬ IntText s n) (hx : f.float s = none) (ht : Trimmed s t)
    (hl : ListLike t) (hj : Joined ',' t l) (he : List.Forall₂ (Entry f) l is) (hv : IsArray f is v) : parseValue f s = v := by
  obtain ⟨l', is', h1, h2, h3⟩ := (C213_kinds f s t h hx ht).1 hl
  rw [joined_iff] at hj h1
  subst hj; subst h1
  rw [entries] at he h2
  subst he; subst h2
  exact isArray_unique f h3 hv

theorem numeral_comma {t : Text} (h : Numeral t) : ',' ∉ t := by
  intro hc
  rcases (numeral_chars h).2 _ hc with h | h
  · exact (blank_word_num (.inr (.inl rfl))).2 h
  · simp at h

theorem listLike {s t : Text} {l : List Text} (ht : Trimmed s t) (hj : Joined ',' t l) (h2 : 2 ≤ l.length)
    (hp : ∀ p ∈ l, ∃ u, Numeral u ∧ Trimmed p u) : ListLike t := by
  obtain ⟨_, _, _, _, _, hh, _⟩ := ht
  cases hj with
  | one => simp at h2
  | @more p r l hp1 hs =>
    obtain ⟨x, hx, a, b, rfl, ha, hb, _⟩ := hp _ (List.mem_cons_self ..)
    have ha0 : a = [] := by
      cases a with
      | nil => rfl
      | cons c a => exact absurd (ha c (by simp)) (hh c rfl)
    subst ha0
    have : ∃ b' y rest, (∀ c ∈ b', Blank c) ∧ Numeral y ∧ r = b' ++ (y ++ rest) := by
      cases hs with
      | @one q hq =>
        obtain ⟨y, hy, b', c', rfl, h1, h2, _⟩ := hp r (by simp)
        exact ⟨b', y, c', h1, hy, by simp⟩
      | @more q r' l' hq hs =>
        obtain ⟨y, hy, b', c', rfl, h1, h2, _⟩ := hp q (by simp)
        exact ⟨b', y, c' ++ ',' :: r', h1, hy, by simp⟩
    obtain ⟨b', y, rest, h1, h3, rfl⟩ := this
    exact ⟨b, b', x, y, rest, hx, h3, hb, h1, by simp⟩
end LV

/-- C213: two or more numbers without exponents, with commas and any blanks between them, are read as an array, in order: of
integers if all are integers, and of floats otherwise. -/
theorem C213_list (hf : Sane f) (s t : Text) (l : List Text) (is : List (Item F)) (v : Value F) (ht : Trimmed s t) (hj : Joined ',' t l) (h2 : 2 ≤ l.length)
    (hp : ∀ p ∈ l, ∃ u, Numeral u ∧ Trimmed p u) (he : List.Forall₂ (Entry f) l is) (hv : IsArray f is v) : parseValue f s = v := by
  have hc : ',' ∈ s := by
    obtain ⟨a, b, rfl, _⟩ := ht
    simp [LV.joined_mem hj h2]
  refine LV.list_value f s t l is v (LV.not_int_of_mem hc ?_) ?_ ht (LV.listLike ht hj h2 hp) hj he hv
  · unfold Digit Blank; decide
  · cases e : f.float s with
    | none => rfl
    | some x => exact absurd hc (hf s x e).1

/-- C213: any two or more integers, in decimal -/
theorem C213_integers (hf : Sane f) (s t : Text) (l : List Text) (ns : List Int) (ht : Trimmed s t) (hj : Joined ',' t l) (h2 : 2 ≤ l.length)
    (hp : List.Forall₂ (fun p n => Trimmed p (dec n)) l ns) : parseValue f s = .ints ns := by
  refine C213_list f hf s t l (ns.map .int) _ ht hj h2 ?_ ?_ (.ints ns)
  · intro p hp'
    clear h2 hj
    induction hp with
    | nil => cases hp'
    | cons h _ ih =>
      rcases List.mem_cons.1 hp' with rfl | hp'
      · exact ⟨_, LV.dec_numeral _, h⟩
      · exact ih hp'
  · clear h2 hj
    induction hp with
    | nil => exact .nil
    | cons h _ ih =>
      obtain ⟨a, b, rfl, ha, hb, _⟩ := h
      exact .cons (.int (LV.dec_text _ a b ha hb)) ih

namespace LV
theorem not_listLike {t : Text} (h : ',' ∉ t) : ¬ ListLike t := by
  rintro ⟨a, b, x, y, rest, _, _, _, _, rfl⟩
  simp at h

theorem not_wordsLike {t : Text} (h : ':' ∉ t) : ¬ WordsLike t := by
  rintro ⟨a, b, x, y, rest, _, _, _, _, _, _, rfl⟩
  simp at h
end LV

/-- C213: a text that is no number and has no comma and no colon is kept, without the blanks around it. -/
theorem C213_text (s t : Text) (h : ∀ n, ¬ IntText s n) (hx : f.float s = none) (ht : Trimmed s t) (h1 : ',' ∉ t) (h2 : ':' ∉ t) :
    parseValue f s = .text t :=
  (C213_kinds f s t h hx ht).2.2 (LV.not_listLike h1) (LV.not_wordsLike h2)

/-- C213: two or more words with colons between them are read as the list of the words. -/
theorem C213_words_partial (hf : Sane f) (t : Text) (l : List Text) (hj : Joined ':' t l) (h2 : 2 ≤ l.length)
    (hw : ∀ p ∈ l, p ≠ [] ∧ ∀ c ∈ p, WordChar c) : parseValue f t = .words l := by
  have hm : ':' ∈ t := LV.joined_mem hj h2
  have chars : ∀ {t : Text} {l : List Text}, Joined ':' t l → (∀ p ∈ l, p ≠ [] ∧ ∀ c ∈ p, WordChar c) → ∀ c ∈ t, c = ':' ∨ WordChar c := by
    intro t l hj
    induction hj with
    | one _ => exact fun hw c hc => .inr ((hw _ (by simp)).2 c hc)
    | more _ _ ih =>
      intro hw c hc
      rcases List.mem_append.1 hc with hc | hc
      · exact .inr ((hw _ (by simp)).2 c hc)
      · rcases List.mem_cons.1 hc with rfl | hc
        · exact .inl rfl
        · exact ih (fun p hp => hw p (by simp [hp])) c hc
  have hnb : ∀ c ∈ t, ¬ Blank c := by
    intro c hc
    rcases chars hj hw c hc with rfl | h
    · unfold Blank; decide
    · exact LV.word_not_blank h
  have ht : Trimmed t t := by simpa using LV.trimmed_pad [] t [] (by simp) (by simp) hnb
  have hcomma : ',' ∉ t := by
    intro hc
    rcases chars hj hw _ hc with h | h
    · simp at h
    · exact (LV.blank_word_num (.inr (.inl rfl))).1 h
  have hwl : WordsLike t := by
    cases hj with
    | one => simp at h2
    | @more p r l hp1 hs =>
      have hx := hw p (by simp)
      have : ∃ y rest, y ≠ [] ∧ (∀ c ∈ y, WordChar c) ∧ r = y ++ rest := by
        cases hs with
        | @one q hq => exact ⟨r, [], (hw r (by simp)).1, (hw r (by simp)).2, by simp⟩
        | @more q r' l' hq hs => exact ⟨q, ':' :: r', (hw q (by simp)).1, (hw q (by simp)).2, rfl⟩
      obtain ⟨y, rest, h1, h3, rfl⟩ := this
      exact ⟨[], [], p, y, rest, hx.1, h1, hx.2, h3, by simp, by simp, by simp⟩
  obtain ⟨l', h1, h3⟩ := (C213_kinds f t t (LV.not_int_of_mem hm (by unfold Digit Blank; decide)) (by
    cases e : f.float t with
    | none => rfl
    | some x => exact absurd hm (hf t x e).2) ht).2.1 (LV.not_listLike hcomma) hwl
  rw [LV.joined_iff] at h1 hj
  rw [h3, ← h1, hj]

/-- C213 is false: blanks beside a colon stay in the words, whichever they are (those beside a comma do not). -/
theorem C213_blanks_violated (hf : Sane f) (x y : Text) (hx : x ≠ [] ∧ ∀ c ∈ x, WordChar c) (hy : y ≠ [] ∧ ∀ c ∈ y, WordChar c) :
    parseValue f (x ++ " : ".toList ++ y) = .words [x ++ [' '], ' ' :: y] := by
  have nc : ∀ z : Text, (∀ c ∈ z, WordChar c) → ',' ∉ z ∧ ':' ∉ z := fun z hz =>
    ⟨fun h => (LV.blank_word_num (.inr (.inl rfl))).1 (hz _ h), fun h => (LV.blank_word_num (.inr (.inr rfl))).1 (hz _ h)⟩
  have e : x ++ " : ".toList ++ y = (x ++ [' ']) ++ ':' :: (' ' :: y) := by simp
  rw [e]
  have hm : ':' ∈ (x ++ [' ']) ++ ':' :: (' ' :: y) := by simp
  have hj : Joined ':' ((x ++ [' ']) ++ ':' :: (' ' :: y)) [x ++ [' '], ' ' :: y] :=
    .more (by simp [(nc x hx.2).2]) (.one (by simp [(nc y hy.2).2]))
  have ht : Trimmed ((x ++ [' ']) ++ ':' :: (' ' :: y)) ((x ++ [' ']) ++ ':' :: (' ' :: y)) := by
    refine ⟨[], [], by simp, by simp, by simp, ?_, ?_⟩
    · intro c hc
      obtain ⟨d, x', rfl⟩ := List.exists_cons_of_ne_nil hx.1
      simp at hc; subst hc
      exact LV.word_not_blank (hx.2 _ (by simp))
    · intro c hc
      rw [show (x ++ [' ']) ++ ':' :: (' ' :: y) = (x ++ " : ".toList) ++ y by simp, List.getLast?_append_of_ne_nil _ hy.1] at hc
      exact LV.word_not_blank (hy.2 _ (List.mem_of_getLast? hc))
  obtain ⟨l', h1, h3⟩ := (C213_kinds f _ _ (LV.not_int_of_mem hm (by unfold Digit Blank; decide)) (by
    cases e : f.float _ with
    | none => rfl
    | some x => exact absurd hm (hf _ x e).2) ht).2.1 (LV.not_listLike (by simp [(nc x hx.2).1, (nc y hy.2).1]))
      ⟨[' '], [' '], x, y, [], hx.1, hy.1, hx.2, hy.2, by simp [Blank], by simp [Blank], by simp⟩
  rw [LV.joined_iff] at h1 hj
  rw [h3, ← h1, hj]

/-- C213 is false: numbers with commas between them of which the first has an exponent (or anything else after its first digits) are kept as text. -/
theorem C213_exponent_violated (hf : Sane f) (d rest : Text) (hd : ∀ c ∈ d, Digit c) (hne : d ≠ []) (hc : ',' ∈ rest) (h2 : ':' ∉ rest)
    (ht : ∀ c, rest.getLast? = some c → ¬ Blank c) : parseValue f (d ++ 'e' :: rest) = .text (d ++ 'e' :: rest) := by
  have hm : ',' ∈ d ++ 'e' :: rest := by simp [hc]
  have hdn : ∀ c ∈ d, ¬ Blank c := fun c h => LV.numChar_not_blank (.inl (hd c h))
  refine (C213_kinds f _ _ (LV.not_int_of_mem hm (by unfold Digit Blank; decide)) (by
    cases e : f.float _ with
    | none => rfl
    | some x => exact absurd hm (hf _ x e).1) ⟨[], [], by simp, by simp, by simp, ?_, ?_⟩).2.2 ?_ (LV.not_wordsLike ?_)
  · intro c h
    obtain ⟨x, d', rfl⟩ := List.exists_cons_of_ne_nil hne
    simp at h; subst h
    exact hdn _ (by simp)
  · intro c h
    have hr : rest ≠ [] := by rintro rfl; simp at hc
    rw [List.getLast?_append_of_ne_nil _ (by simp), List.getLast?_cons_of_ne_nil hr] at h
    exact ht c h
  · rw [← LV.looksList_iff]
    unfold looksList
    have e1 : optMinus (d ++ 'e' :: rest) = d ++ 'e' :: rest := LV.optMinus_numeral d _ hne (fun c h => .inl (hd c h)) (.inl rfl)
    have hn : numChar 'e' = false := by decide
    obtain ⟨t1, t2⟩ := LV.takeWhile_sep numChar d ('e' :: rest) (fun c h => (LV.num_iff c).2 (.inl (hd c h))) (by
      intro c h; simp at h; subst h; exact hn)
    simp only [e1, t1, t2]
    have hs : isSpace 'e' = false := by decide
    rw [List.dropWhile_cons_of_neg (by simp [hs])]
    simp
  · simp only [List.mem_append, List.mem_cons, not_or]
    refine ⟨fun h => ?_, by decide, h2⟩
    exact absurd (hd _ h) (by unfold Digit; decide)

/-- C213 is false: a text that merely begins with two numbers with a comma between them is torn at its commas. -/
theorem C213_torn_violated (hf : Sane f) (n m : Int) (rest : Text) (h1 : ',' ∉ rest) (h2 : ∃ c ∈ rest, Letter c) (hl : ∀ c, rest.getLast? = some c → ¬ Blank c)
    (hx : f.float (dec m ++ ' ' :: rest) = none) :
    parseValue f (dec n ++ ',' :: (dec m ++ ' ' :: rest)) = .texts [dec n, dec m ++ ' ' :: rest] := by
  have hrne : rest ≠ [] := by rintro rfl; obtain ⟨c, h, _⟩ := h2; cases h
  have hm : ',' ∈ dec n ++ ',' :: (dec m ++ ' ' :: rest) := by simp
  have lt : ∀ c, Letter c → ¬ Blank c ∧ c ≠ '-' ∧ c ≠ '+' ∧ c ≠ '_' ∧ ¬ Digit c := by
    unfold Letter Blank Digit; decide +kernel
  have hj : Joined ',' (dec n ++ ',' :: (dec m ++ ' ' :: rest)) [dec n, dec m ++ ' ' :: rest] :=
    .more (LV.numeral_comma (LV.dec_numeral n)) (.one (by simp [LV.numeral_comma (LV.dec_numeral m), h1]))
  have hg : ∀ c, (dec m ++ ' ' :: rest).getLast? = some c → ¬ Blank c := by
    intro c h
    rw [List.getLast?_append_of_ne_nil _ (by simp), List.getLast?_cons_of_ne_nil hrne] at h
    exact hl c h
  have hh : ∀ (k : Int) (r : Text) c, (dec k ++ r).head? = some c → ¬ Blank c := by
    intro k r c h
    have hnb := LV.numeral_not_blank (LV.dec_numeral k)
    obtain ⟨x, d', e⟩ := List.exists_cons_of_ne_nil (LV.numeral_chars (LV.dec_numeral k)).1
    rw [e] at h hnb
    simp at h; subst h
    exact hnb _ (by simp)
  have ht : Trimmed (dec n ++ ',' :: (dec m ++ ' ' :: rest)) (dec n ++ ',' :: (dec m ++ ' ' :: rest)) := by
    refine ⟨[], [], by simp, by simp, by simp, hh n _, ?_⟩
    intro c h
    rw [List.getLast?_append_of_ne_nil _ (by simp), List.getLast?_cons_of_ne_nil (by simp)] at h
    exact hg c h
  have ht2 : Trimmed (dec m ++ ' ' :: rest) (dec m ++ ' ' :: rest) := ⟨[], [], by simp, by simp, by simp, hh m _, hg⟩
  refine LV.list_value f _ _ _ [.int n, .text (dec m ++ ' ' :: rest)] _ (LV.not_int_of_mem hm (by unfold Digit Blank; decide)) (by
    cases e : f.float _ with
    | none => rfl
    | some x => exact absurd hm (hf _ x e).1) ht ⟨[], [], dec n, dec m, ' ' :: rest, LV.dec_numeral n, LV.dec_numeral m, by simp, by simp, by simp⟩ hj ?_ ?_
  · refine .cons (.int (by simpa using LV.dec_text n [] [] (by simp) (by simp))) (.cons (.text ?_ hx ht2) .nil)
    obtain ⟨c, hc, hc'⟩ := h2
    exact LV.not_int_of_mem (c := c) (by simp [hc]) (lt c hc')
  · exact .texts (.cons (.int n) (.cons (.text _) .nil)) ⟨_, List.mem_cons_of_mem _ (List.mem_singleton.2 rfl)⟩

/-- C213: a line is a parameter just when it has exactly one bar in it: its name is what is before the bar, its value is read from what is after it. -/
theorem C213_param (s k : Text) (v : Value F) : parseParam f s = some (k, v) ↔
    ∃ a b w, s = a ++ '|' :: b ∧ '|' ∉ a ∧ '|' ∉ b ∧ Trimmed a k ∧ Trimmed b w ∧ v = parseValue f w := by
  constructor
  · intro h
    unfold parseParam at h
    split at h
    · rename_i k' w e
      cases h
      have hj := LV.split_joined '|' s
      cases hj' : LogValue.split '|' s with
      | nil => exact absurd hj' (LV.split_ne _ _)
      | cons a l =>
        rw [hj'] at e hj
        cases l with
        | nil => simp at e
        | cons b l =>
          simp only [List.map_cons, List.cons.injEq, List.map_eq_nil_iff] at e
          obtain ⟨rfl, rfl, rfl⟩ := e
          cases hj with
          | more h1 h2 => cases h2 with
            | one h2 => exact ⟨a, b, _, rfl, h1, h2, (LV.trimmed_iff _ _).2 rfl, (LV.trimmed_iff _ _).2 rfl, rfl⟩
            | more _ h3 => cases h3
    · cases h
  · rintro ⟨a, b, w, rfl, ha, hb, h1, h2, rfl⟩
    rw [LV.trimmed_iff] at h1 h2
    unfold parseParam
    rw [LV.split_append _ _ _ ha, LV.split_none _ _ hb]
    simp [h1, h2]

/-- C213: the other lines are not parameters. -/
theorem C213_no_param (s : Text) : parseParam f s = none ↔ s.count '|' ≠ 1 := by
  rw [Option.eq_none_iff_forall_ne_some]
  constructor
  · intro h hc
    have hm : '|' ∈ s := List.count_pos_iff.1 (by omega)
    obtain ⟨a, b, rfl⟩ := List.append_of_mem hm
    rw [List.count_append, List.count_cons_self] at hc
    have ha : '|' ∉ a := List.count_eq_zero.1 (by omega)
    have hb : '|' ∉ b := List.count_eq_zero.1 (by omega)
    exact h (_, _) ((C213_param f _ _ _).2 ⟨a, b, _, rfl, ha, hb, (LV.trimmed_iff _ _).2 rfl, (LV.trimmed_iff _ _).2 rfl, rfl⟩)
  · rintro hc ⟨k, v⟩ h
    obtain ⟨a, b, w, rfl, ha, hb, _⟩ := (C213_param f _ _ _).1 h
    apply hc
    rw [List.count_append, List.count_cons_self, List.count_eq_zero.2 ha, List.count_eq_zero.2 hb]

/-! the hypotheses are met -/

/-- floats of which there is none but "1.5" -/
def LV.exF : Floats Unit := ⟨fun s => if s = "1.5".toList then some () else none, fun _ => (), fun _ => "1.5".toList⟩

theorem LV.exF_sane : Sane LV.exF := by
  intro s x h
  unfold LV.exF at h
  dsimp only at h
  split at h
  · rename_i e; subst e; decide
  · cases h

example : parseValue LV.exF " 4, -12 ,7".toList = .ints [4, -12, 7] :=
  C213_integers LV.exF LV.exF_sane _ "4, -12 ,7".toList ["4".toList, " -12 ".toList, "7".toList] _
    ((LV.trimmed_iff _ _).2 (by decide +kernel)) ((LV.joined_iff _ _ _).2 (by decide +kernel)) (by decide)
    (.cons ((LV.trimmed_iff _ _).2 (by decide +kernel)) (.cons ((LV.trimmed_iff _ _).2 (by decide +kernel)) (.cons ((LV.trimmed_iff _ _).2 (by decide +kernel)) .nil)))

example : parseValue LV.exF "1.5,2".toList = .floats [(), ()] :=
  C213_list LV.exF LV.exF_sane _ "1.5,2".toList ["1.5".toList, "2".toList] [.float (), .int 2] _
    ((LV.trimmed_iff _ _).2 (by decide +kernel)) ((LV.joined_iff _ _ _).2 (by decide +kernel)) (by decide)
    (by
      intro p hp
      refine ⟨p, ⟨p, ?_, ?_, .inl rfl⟩, (LV.trimmed_iff _ _).2 ?_⟩ <;> revert p <;> (try unfold NumChar Digit) <;> decide +kernel)
    (.cons (.float ((LV.intOf_none _).1 (by decide +kernel)) rfl) (.cons (.int ((LV.intOf_iff _ _).1 (by decide +kernel))) .nil))
    (.floats (.cons (.float ()) (.cons (.int 2) .nil)) ⟨(), by simp⟩)

example : parseValue LV.exF "2012:jan:10".toList = .words ["2012".toList, "jan".toList, "10".toList] :=
  C213_words_partial LV.exF LV.exF_sane _ _ ((LV.joined_iff _ _ _).2 (by decide +kernel)) (by decide)
    (by unfold WordChar Digit Letter; decide +kernel)

example : parseValue LV.exF "1e3,2e3".toList = .text "1e3,2e3".toList :=
  C213_exponent_violated LV.exF LV.exF_sane ['1'] "3,2e3".toList (by unfold Digit; decide) (by decide) (by decide) (by decide)
    (by unfold Blank; decide)

example : parseValue LV.exF "1,2 and more".toList = .texts ["1".toList, "2 and more".toList] :=
  C213_torn_violated LV.exF LV.exF_sane 1 2 "and more".toList (by decide) ⟨'a', by decide, by unfold Letter; decide⟩ (by unfold Blank; decide) (by decide +kernel)

example : parseParam LV.exF "n | 12".toList = some ("n".toList, .int 12) :=
  (C213_param LV.exF _ _ _).2 ⟨"n ".toList, " 12".toList, "12".toList, rfl, by decide, by decide, (LV.trimmed_iff _ _).2 (by decide +kernel),
    (LV.trimmed_iff _ _).2 (by decide +kernel), (C213_decimal LV.exF 12 [] [] (by simp) (by simp)).symm⟩

end Viscid.Props
