import Verif.Model.Evaluator
import Verif.Spec.Evaluator
namespace Viscid.Evaluator
open Viscid.Spec.Evaluator

/-! ### underscores -/

theorem dunder_cons (c : Char) (s : List Char) : Dunder (c :: s) ↔ (c = '_' ∧ s.head? = some '_') ∨ Dunder s := by
  unfold Dunder
  rw [List.infix_cons_iff]
  constructor
  · rintro (h | h)
    · left
      obtain ⟨r, hr⟩ := h
      cases s with
      | nil => simp at hr
      | cons d s =>
        simp only [List.cons_append, List.nil_append, List.cons.injEq] at hr
        exact ⟨hr.1.symm, by simp [← hr.2.1]⟩
    · exact .inr h
  · rintro (⟨rfl, h⟩ | h)
    · left
      cases s with
      | nil => simp at h
      | cons d s =>
        simp only [List.head?_cons, Option.some.injEq] at h
        subst h
        exact ⟨s, rfl⟩
    · exact .inr h

theorem not_dunder_nil : ¬ Dunder [] := by
  unfold Dunder
  rw [List.infix_nil]
  decide

/-- nothing new can start with an underscore, unless the text did -/
theorem removeDunder_spec (s : List Char) :
    ¬ Dunder (removeDunder s) ∧ ((removeDunder s).head? = some '_' → s.head? = some '_') := by
  fun_induction removeDunder s with
  | case1 => exact ⟨not_dunder_nil, by simp⟩
  | case2 c => exact ⟨by rw [dunder_cons]; simp [not_dunder_nil], by simp⟩
  | case3 c d cs h ih => exact ⟨ih.1, fun _ => by simp [h.1]⟩
  | case4 c d cs h ih =>
    refine ⟨?_, by simp⟩
    rw [dunder_cons]
    rintro (⟨rfl, h2⟩ | h2)
    · have := ih.2 h2
      simp only [List.head?_cons, Option.some.injEq] at this
      exact h ⟨rfl, this⟩
    · exact ih.1 h2

theorem removeDunder_none (s : List Char) (h : ¬ Dunder s) : removeDunder s = s := by
  fun_induction removeDunder s with
  | case1 => rfl
  | case2 c => rfl
  | case3 c d cs h2 ih =>
    exfalso
    apply h
    rw [dunder_cons]
    left
    exact ⟨h2.1, by simp [h2.2]⟩
  | case4 c d cs h2 ih =>
    rw [ih]
    intro h3
    exact h (by rw [dunder_cons]; exact .inr h3)

/-! ### words -/

theorem isWord_iff (c : Char) : isWord c = true ↔ Wordy c := by
  unfold isWord Wordy Letter
  simp only [Char.isAlphanum, Bool.or_eq_true, beq_iff_eq]
  constructor
  · rintro ((h | h) | h)
    · exact .inl (.inl h)
    · exact .inr h
    · exact .inl (.inr h)
  · rintro ((h | h) | h)
    · exact .inl (.inl h)
    · exact .inr h
    · exact .inl (.inr h)

theorem isStart_iff (c : Char) : isStart c = true ↔ Letter c := by
  unfold isStart Letter
  simp

theorem tokens_word (w s : List Char) (hw : w ≠ []) (h : ∀ c ∈ w, isWord c = true)
    (hs : ∀ c, s.head? = some c → isWord c = false) : tokens (w ++ s) = .word w :: tokens s := by
  have hts : ∀ v ts, tokens s ≠ .word v :: ts := by
    intro v ts
    cases s with
    | nil => simp [tokens]
    | cons c s =>
      rw [tokens, if_neg (by simp [hs c rfl])]
      simp
  induction w with
  | nil => exact absurd rfl hw
  | cons c w ih =>
    rw [List.cons_append, tokens, if_pos (h c (by simp))]
    cases w with
    | nil =>
      rw [List.nil_append]
      split
      · rename_i v ts heq
        exact absurd heq (hts v ts)
      · rfl
    | cons d w => rw [ih (by simp) fun x hx => h x (by simp [hx])]

/-! ### items as tokens -/

def toks : Item → List Tok
  | .field n => [.word n]
  | .func n b => .word n :: b.map Tok.chr ++ [.chr '(']
  | .num n => [.word n]
  | .op c => [.chr c]

theorem Name.word {n : List Char} (h : Name n) : n ≠ [] ∧ (∀ c ∈ n, isWord c = true) ∧ symbol n = true := by
  cases n with
  | nil => exact h.elim
  | cons c w =>
    refine ⟨by simp, ?_, ?_⟩
    · intro x hx
      rw [isWord_iff]
      rcases List.mem_cons.mp hx with rfl | hx
      · exact .inl h.1
      · exact h.2 x hx
    · unfold symbol
      simp only [List.head?_cons, Option.map_some, Option.getD_some]
      rw [isStart_iff]
      exact h.1

theorem digit_not_letter {c : Char} (h : c.isDigit = true) : ¬ Letter c := by
  rintro (h2 | rfl)
  · simp only [Char.isDigit, Char.isAlpha, Char.isUpper, Char.isLower, ge_iff_le, Bool.and_eq_true,
      decide_eq_true_eq, Bool.or_eq_true] at h h2
    obtain ⟨h3, h4⟩ := h
    rw [UInt32.le_iff_toNat_le] at h3 h4
    rcases h2 with ⟨h5, h6⟩ | ⟨h5, h6⟩
    · rw [UInt32.le_iff_toNat_le] at h5 h6
      simp at h3 h4 h5 h6
      omega
    · rw [UInt32.le_iff_toNat_le] at h5 h6
      simp at h3 h4 h5 h6
      omega
  · exact absurd h (by decide)

theorem Number.word {n : List Char} (h : Number n) : n ≠ [] ∧ (∀ c ∈ n, isWord c = true) ∧ symbol n = false := by
  cases n with
  | nil => exact h.elim
  | cons c w =>
    refine ⟨by simp, ?_, ?_⟩
    · intro x hx
      rw [isWord_iff]
      rcases List.mem_cons.mp hx with rfl | hx
      · exact .inr h.1
      · exact h.2 x hx
    · unfold symbol
      simp only [List.head?_cons, Option.map_some, Option.getD_some]
      have := digit_not_letter h.1
      rw [← isStart_iff] at this
      simpa using this

theorem blank_not_word {c : Char} (h : c.isWhitespace = true) : isWord c = false ∧ isQuote c = false := by
  simp only [Char.isWhitespace, Bool.or_eq_true, decide_eq_true_eq] at h
  rcases h with ((rfl | rfl) | rfl) | rfl <;> decide

theorem ends_head {e : List Item} (h : Ends e) (hp : Parsed e) : ∀ c, (text e).head? = some c → isWord c = false := by
  intro c hc
  cases e with
  | nil => simp [text] at hc
  | cons i e =>
    cases i with
    | op d =>
      simp only [text, List.flatMap_cons, Item.text, List.cons_append, List.head?_cons, Option.some.injEq] at hc
      subst hc
      have := hp.1
      rw [← isWord_iff] at this
      simpa using this
    | field n => exact h.elim
    | func n b => exact h.elim
    | num n => exact h.elim

theorem tokens_blanks (b s : List Char) (h : ∀ c ∈ b, c.isWhitespace = true) :
    tokens (b ++ s) = b.map Tok.chr ++ tokens s := by
  induction b with
  | nil => rfl
  | cons c b ih =>
    rw [List.cons_append, tokens, if_neg (by simp [(blank_not_word (h c (by simp))).1]), ih fun d hd => h d (by simp [hd])]
    rfl

theorem tokens_text (e : List Item) (h : Parsed e) : tokens (text e) = e.flatMap toks := by
  induction e with
  | nil => rfl
  | cons i e ih =>
    cases i with
    | field n =>
      obtain ⟨h1, h2, h3⟩ := Name.word h.1
      show tokens (n ++ text e) = .word n :: e.flatMap toks
      rw [tokens_word n _ h1 h2 (ends_head h.2.1 h.2.2.2), ih h.2.2.2]
    | func n b =>
      obtain ⟨h1, h2, h3⟩ := Name.word h.1
      show tokens (n ++ b ++ ['('] ++ text e) = _
      rw [List.append_assoc, List.append_assoc, tokens_word n _ h1 h2 ?_, tokens_blanks b _ h.2.1]
      · show .word n :: (b.map Tok.chr ++ tokens ('(' :: text e)) = _
        rw [tokens, if_neg (by decide), ih h.2.2]
        simp [toks]
      · intro c hc
        cases b with
        | nil =>
          simp only [List.nil_append, List.cons_append, List.head?_cons, Option.some.injEq] at hc
          subst hc
          decide
        | cons d b =>
          simp only [List.cons_append, List.head?_cons, Option.some.injEq] at hc
          subst hc
          exact (blank_not_word (h.2.1 d (by simp))).1
    | num n =>
      obtain ⟨h1, h2, h3⟩ := Number.word h.1
      show tokens (n ++ text e) = .word n :: e.flatMap toks
      rw [tokens_word n _ h1 h2 (ends_head h.2.1 h.2.2), ih h.2.2]
    | op c =>
      show tokens (c :: text e) = .chr c :: e.flatMap toks
      have := h.1
      rw [← isWord_iff] at this
      rw [tokens, if_neg this, ih h.2.2.2]

theorem paren_called (e : List Item) (h : Parsed e) (hc : ¬ Called e) : paren (e.flatMap toks) = none := by
  induction e with
  | nil => rfl
  | cons i e ih =>
    cases i with
    | field n => rfl
    | func n b => rfl
    | num n => rfl
    | op c =>
      show paren (.chr c :: e.flatMap toks) = none
      rw [paren]
      have h1 : c ≠ '(' := fun h1 => hc (.inl h1)
      rw [if_neg h1]
      split
      · rename_i hw
        exact ih h.2.2.2 fun h2 => hc (.inr ⟨hw, h2⟩)
      · rfl

theorem paren_func (b : List Char) (h : ∀ c ∈ b, c.isWhitespace = true) (ts : List Tok) :
    paren (b.map Tok.chr ++ .chr '(' :: ts) = some ts := by
  induction b with
  | nil => rfl
  | cons c b ih =>
    show paren (.chr c :: (b.map Tok.chr ++ .chr '(' :: ts)) = _
    have hc := h c (by simp)
    rw [paren, if_neg (by rintro rfl; exact absurd hc (by decide)), if_pos hc]
    exact ih fun d hd => h d (by simp [hd])

/-! ### the dictionary -/

theorem get_append (d : Dict F G) (k k' : List Char) (v : Val F G) :
    Dict.get (d ++ [(k, v)]) k' = (d.get k').or (if k = k' then some v else none) := by
  unfold Dict.get
  rw [List.find?_append]
  cases hf : List.find? (fun x => decide (x.1 = k')) d with
  | some x => simp
  | none =>
    by_cases h : k = k'
    · simp [h]
    · simp [h]

theorem name_not_quote {n : List Char} (h : Name n) : n.head? ≠ some '\'' := by
  cases n with
  | nil => simp
  | cons c w =>
    intro h2
    simp only [List.head?_cons, Option.some.injEq] at h2
    subst h2
    rcases h.1 with h3 | h3
    · exact absurd h3 (by decide)
    · exact absurd h3 (by decide)

/-! ### fields -/

/-- fields have got their prefix, functions have not -/
def half : Item → Item
  | .field n => .field (salt ++ n)
  | i => i

theorem varPass_blanks (getField : List Char → Option F) (b : List Char) (h : ∀ c ∈ b, c.isWhitespace = true) (ts : List Tok)
    (d d' : Dict F G) (out : List Char) (hr : varPass getField none ts d = .ok (out, d')) :
    varPass getField none (b.map Tok.chr ++ ts) d = .ok (b ++ out, d') := by
  induction b with
  | nil => exact hr
  | cons c b ih =>
    show varPass getField none (.chr c :: (b.map Tok.chr ++ ts)) d = _
    rw [varPass, (blank_not_word (h c (by simp))).2]
    simp only [Bool.false_eq_true, if_false]
    rw [ih fun x hx => h x (by simp [hx])]
    rfl

theorem varPass_blanks_err (getField : List Char → Option F) (b : List Char) (h : ∀ c ∈ b, c.isWhitespace = true) (ts : List Tok)
    (d : Dict F G) (er : Err) (hr : varPass getField none ts d = .error er) :
    varPass getField none (b.map Tok.chr ++ ts) d = .error er := by
  induction b with
  | nil => exact hr
  | cons c b ih =>
    show varPass getField none (.chr c :: (b.map Tok.chr ++ ts)) d = _
    rw [varPass, (blank_not_word (h c (by simp))).2]
    simp only [Bool.false_eq_true, if_false]
    rw [ih fun x hx => h x (by simp [hx])]

/-- what the dictionary holds after the fields of `e` were looked up -/
def VarInv (getField : List Char → Option F) (e : List Item) (d d' : Dict F G) : Prop :=
  (∀ n, d'.get (salt ++ n) = (d.get (salt ++ n)).or (if .field n ∈ e then (getField n).map Val.fld else none)) ∧
  ∀ k, (∀ n, k ≠ salt ++ n) → d'.get k = d.get k

theorem varSalter_ok (getField : List Char → Option F) (n : List Char) (hn : Name n) (d : Dict F G) (f : F)
    (hf : getField n = some f) :
    ∃ d', varSalter getField n d = .ok (salt ++ n, d') ∧ VarInv getField [.field n] d d' := by
  unfold varSalter
  rw [if_neg (name_not_quote hn)]
  by_cases hd : (d.get (salt ++ n)).isSome = true
  · rw [if_pos hd]
    refine ⟨d, rfl, fun m => ?_, fun _ _ => rfl⟩
    by_cases hm : m = n
    · subst hm
      obtain ⟨v, hv⟩ := Option.isSome_iff_exists.mp hd
      rw [hv]
      rfl
    · rw [if_neg (by simpa using hm)]
      simp
  · rw [if_neg hd, hf]
    refine ⟨_, rfl, fun m => ?_, fun k hk => ?_⟩
    · rw [get_append]
      by_cases hm : m = n
      · subst hm
        simp [hf]
      · rw [if_neg (by simpa using fun h : n = m => hm h.symm), if_neg (by simpa using hm)]
    · rw [get_append, if_neg fun h => hk n h.symm]
      simp

theorem VarInv.trans {getField : List Char → Option F} {e e' : List Item} {d d' d'' : Dict F G}
    (h : VarInv getField e d d') (h' : VarInv getField e' d' d'') : VarInv getField (e ++ e') d d'' := by
  refine ⟨fun n => ?_, fun k hk => (h'.2 k hk).trans (h.2 k hk)⟩
  rw [h'.1 n, h.1 n]
  cases d.get (salt ++ n) with
  | some v => rfl
  | none =>
    by_cases h1 : Item.field n ∈ e <;> by_cases h2 : Item.field n ∈ e' <;> simp [h1, h2]
    

theorem varPass_items (getField : List Char → Option F) (e : List Item) (h : Parsed e) (d : Dict F G)
    (hf : ∀ n, Item.field n ∈ e → (getField n).isSome = true) :
    ∃ d', varPass getField none (e.flatMap toks) d = .ok (text (e.map half), d') ∧ VarInv getField e d d' := by
  induction e generalizing d with
  | nil => exact ⟨d, rfl, by simp [VarInv]⟩
  | cons i e ih =>
    cases i with
    | field n =>
      obtain ⟨h1, h2, h3⟩ := Name.word h.1
      obtain ⟨f, hfn⟩ := Option.isSome_iff_exists.mp (hf n (by simp))
      obtain ⟨d1, e1, i1⟩ := varSalter_ok getField n h.1 d f hfn
      obtain ⟨d2, e2, i2⟩ := ih h.2.2.2 d1 fun m hm => hf m (by simp [hm])
      refine ⟨d2, ?_, i1.trans i2⟩
      show varPass getField none (.word n :: e.flatMap toks) d = _
      rw [varPass, if_pos ⟨h3, paren_called e h.2.2.2 h.2.2.1⟩]
      simp only [Option.toList_none, List.nil_append, e1, e2]
      rfl
    | func n b =>
      obtain ⟨h1, h2, h3⟩ := Name.word h.1
      obtain ⟨d2, e2, i2⟩ := ih h.2.2 d fun m hm => hf m (by simp [hm])
      refine ⟨d2, ?_, ⟨fun m => by rw [i2.1 m]; simp, i2.2⟩⟩
      have hcons : (Item.func n b :: e).flatMap toks = .word n :: (b.map Tok.chr ++ .chr '(' :: e.flatMap toks) := by
        simp [toks]
      rw [hcons, varPass, if_neg (by rw [paren_func b h.2.1]; simp)]
      have hp : varPass getField none (.chr '(' :: e.flatMap toks) d = .ok ('(' :: text (e.map half), d2) := by
        rw [varPass]
        have : isQuote '(' = false := by decide
        rw [this]
        simp only [Bool.false_eq_true, if_false]
        rw [e2]
        rfl
      rw [varPass_blanks getField b h.2.1 _ d d2 _ hp]
      simp [text, half, Item.text]
    | num n =>
      obtain ⟨h1, h2, h3⟩ := Number.word h.1
      obtain ⟨d2, e2, i2⟩ := ih h.2.2 d fun m hm => hf m (by simp [hm])
      refine ⟨d2, ?_, ⟨fun m => by rw [i2.1 m]; simp, i2.2⟩⟩
      show varPass getField none (.word n :: e.flatMap toks) d = _
      rw [varPass, if_neg (by simp [h3]), e2]
      rfl
    | op c =>
      obtain ⟨d2, e2, i2⟩ := ih h.2.2.2 d fun m hm => hf m (by simp [hm])
      refine ⟨d2, ?_, ⟨fun m => by rw [i2.1 m]; simp, i2.2⟩⟩
      show varPass getField none (.chr c :: e.flatMap toks) d = _
      have hq : isQuote c = false := by
        unfold isQuote
        simp [h.2.1, h.2.2.1]
      rw [varPass, hq]
      simp only [Bool.false_eq_true, if_false]
      rw [e2]
      rfl

theorem varPass_err (getField : List Char → Option F) (e1 e2 : List Item) (n : List Char) (h : Parsed (e1 ++ .field n :: e2))
    (d : Dict F G) (hd : d.get (salt ++ n) = none) (hn : getField n = none)
    (hf : ∀ m, Item.field m ∈ e1 → (getField m).isSome = true) :
    varPass getField none ((e1 ++ .field n :: e2).flatMap toks) d = .error (.noField n) := by
  induction e1 generalizing d with
  | nil =>
    obtain ⟨h1, h2, h3⟩ := Name.word h.1
    show varPass getField none (.word n :: e2.flatMap toks) d = _
    rw [varPass, if_pos ⟨h3, paren_called e2 h.2.2.2 h.2.2.1⟩]
    simp only [Option.toList_none, List.nil_append]
    unfold varSalter
    rw [if_neg (name_not_quote h.1), hd, hn]
    rfl
  | cons i e ih =>
    cases i with
    | field m =>
      obtain ⟨h1, h2, h3⟩ := Name.word h.1
      obtain ⟨f, hfm⟩ := Option.isSome_iff_exists.mp (hf m (by simp))
      obtain ⟨d1, q1, i1⟩ := varSalter_ok getField m h.1 d f hfm
      show varPass getField none (.word m :: (e ++ .field n :: e2).flatMap toks) d = _
      rw [varPass, if_pos ⟨h3, paren_called _ h.2.2.2 h.2.2.1⟩]
      simp only [Option.toList_none, List.nil_append, q1]
      rw [ih h.2.2.2 d1 ?_ fun k hk => hf k (by simp [hk])]
      rw [i1.1 n, hd, hn]
      simp
    | func m b =>
      have hcons : ((Item.func m b :: e) ++ .field n :: e2).flatMap toks =
          .word m :: (b.map Tok.chr ++ .chr '(' :: (e ++ .field n :: e2).flatMap toks) := by
        simp [toks]
      have hih := ih h.2.2 d hd fun k hk => hf k (by simp [hk])
      rw [hcons, varPass, if_neg (by rw [paren_func b h.2.1]; simp)]
      rw [varPass_blanks_err getField b h.2.1 _ d (.noField n)]
      rw [varPass]
      have : isQuote '(' = false := by decide
      rw [this]
      simp only [Bool.false_eq_true, if_false]
      rw [hih]
    | num m =>
      obtain ⟨h1, h2, h3⟩ := Number.word h.1
      have hih := ih h.2.2 d hd fun k hk => hf k (by simp [hk])
      show varPass getField none (.word m :: (e ++ .field n :: e2).flatMap toks) d = _
      rw [varPass, if_neg (by simp [h3]), hih]
    | op c =>
      have hih := ih h.2.2.2 d hd fun k hk => hf k (by simp [hk])
      show varPass getField none (.chr c :: (e ++ .field n :: e2).flatMap toks) d = _
      have hq : isQuote c = false := by
        unfold isQuote
        simp [h.2.1, h.2.2.1]
      rw [varPass, hq]
      simp only [Bool.false_eq_true, if_false]
      rw [hih]

/-! ### functions -/

theorem salt_name {n : List Char} (h : Name n) : Name (salt ++ n) := by
  have hw : ∀ x ∈ n, Wordy x := by
    intro x hx
    exact (isWord_iff x).mp ((Name.word h).2.1 x hx)
  show Letter 'S' ∧ ∀ x ∈ ['A', 'L', 'T'] ++ n, Wordy x
  refine ⟨.inl (by decide), fun x hx => ?_⟩
  rcases List.mem_append.mp hx with hx | hx
  · simp only [List.mem_cons, List.not_mem_nil, or_false] at hx
    rcases hx with rfl | rfl | rfl <;> exact .inl (.inl (by decide))
  · exact hw x hx

theorem half_ends {e : List Item} : Ends (e.map half) ↔ Ends e := by
  cases e with
  | nil => rfl
  | cons i e => cases i <;> rfl

theorem half_called {e : List Item} : Called (e.map half) ↔ Called e := by
  induction e with
  | nil => rfl
  | cons i e ih =>
    cases i with
    | op c => simp only [List.map_cons, half, Called, ih]
    | field n => rfl
    | func n b => rfl
    | num n => rfl

theorem half_parsed {e : List Item} (h : Parsed e) : Parsed (e.map half) := by
  induction e with
  | nil => trivial
  | cons i e ih =>
    cases i with
    | field n => exact ⟨salt_name h.1, half_ends.mpr h.2.1, fun h2 => h.2.2.1 (half_called.mp h2), ih h.2.2.2⟩
    | func n b => exact ⟨h.1, h.2.1, ih h.2.2⟩
    | num n => exact ⟨h.1, half_ends.mpr h.2.1, ih h.2.2⟩
    | op c => exact ⟨h.1, h.2.1, h.2.2.1, ih h.2.2.2⟩

/-- functions have got their prefix as well -/
def rest : Item → List Char
  | .func n _ => salt ++ n ++ ['(']
  | i => i.text

/-- whether `e` calls the function `n` -/
def calls (n : List Char) : List Item → Bool
  | [] => false
  | .func m _ :: e => decide (m = n) || calls n e
  | _ :: e => calls n e

theorem calls_iff (n : List Char) (e : List Item) : calls n e = true ↔ ∃ b, .func n b ∈ e := by
  induction e with
  | nil => simp [calls]
  | cons i e ih =>
    cases i with
    | func m b =>
      rw [calls, Bool.or_eq_true, ih, decide_eq_true_eq]
      constructor
      · rintro (rfl | ⟨c, hc⟩)
        · exact ⟨b, by simp⟩
        · exact ⟨c, by simp [hc]⟩
      · rintro ⟨c, hc⟩
        rcases List.mem_cons.mp hc with h | h
        · injection h with h1 h2
          exact .inl h1.symm
        · exact .inr ⟨c, h⟩
    | field m => simp [calls, ih]
    | num m => simp [calls, ih]
    | op c => simp [calls, ih]

/-- what the dictionary holds after the functions of `e` were looked up -/
def FuncInv (calcF np : List Char → Option G) (e : List Item) (d d' : Dict F G) : Prop :=
  (∀ n, d'.get (salt ++ n) =
    (d.get (salt ++ n)).or (if calls n e then ((calcF n).or (np n)).map Val.fn else none)) ∧
  ∀ k, (∀ n, k ≠ salt ++ n) → d'.get k = d.get k

theorem funcSalter_spec (calcF np : List Char → Option G) (n : List Char) (d : Dict F G) :
    (funcSalter calcF np n d).1 = salt ++ n ++ ['('] ∧
    (∀ m, (funcSalter calcF np n d).2.get (salt ++ m) =
      (d.get (salt ++ m)).or (if n = m then ((calcF m).or (np m)).map Val.fn else none)) ∧
    ∀ k, (∀ m, k ≠ salt ++ m) → (funcSalter calcF np n d).2.get k = d.get k := by
  refine ⟨rfl, fun m => ?_, fun k hk => ?_⟩
  · unfold funcSalter
    simp only
    by_cases hd : (d.get (salt ++ n)).isSome = true
    · rw [if_pos hd]
      by_cases hm : n = m
      · subst hm
        obtain ⟨v, hv⟩ := Option.isSome_iff_exists.mp hd
        rw [hv]
        rfl
      · rw [if_neg hm]
        simp
    · rw [if_neg hd]
      have hkey : (salt ++ n = salt ++ m) ↔ n = m := by simp
      cases hc : calcF n with
      | some g =>
        simp only
        rw [get_append]
        by_cases hm : n = m
        · subst hm
          simp [hc]
        · rw [if_neg hm, if_neg (by simpa using hm)]
      | none =>
        cases hn : np n with
        | some g =>
          simp only
          rw [get_append]
          by_cases hm : n = m
          · subst hm
            simp [hc, hn]
          · rw [if_neg hm, if_neg (by simpa using hm)]
        | none =>
          simp only
          by_cases hm : n = m
          · subst hm
            simp [hc, hn]
          · rw [if_neg hm]
            simp
  · unfold funcSalter
    simp only
    split
    · rfl
    · cases calcF n with
      | some g =>
        simp only
        rw [get_append, if_neg fun h => hk n h.symm]
        simp
      | none =>
        cases np n with
        | some g =>
          simp only
          rw [get_append, if_neg fun h => hk n h.symm]
          simp
        | none => rfl

theorem funcPass_items (calcF np : List Char → Option G) (e : List Item) (h : Parsed e) (d : Dict F G) (fuel : Nat)
    (hfuel : (e.flatMap toks).length < fuel) :
    (funcPass calcF np fuel none (e.flatMap toks) d).1 = e.flatMap rest ∧
    FuncInv calcF np e d (funcPass calcF np fuel none (e.flatMap toks) d).2 := by
  induction e generalizing d fuel with
  | nil =>
    cases fuel with
    | zero => simp at hfuel
    | succ fuel => exact ⟨rfl, by simp [FuncInv, calls, funcPass]⟩
  | cons i e ih =>
    cases fuel with
    | zero => simp at hfuel
    | succ fuel =>
      cases i with
      | field n =>
        have hcons : (Item.field n :: e).flatMap toks = .word n :: e.flatMap toks := rfl
        rw [hcons] at hfuel ⊢
        rw [List.length_cons] at hfuel
        obtain ⟨i1, i2⟩ := ih h.2.2.2 d fuel (by omega)
        rw [funcPass, paren_called e h.2.2.2 h.2.2.1]
        simp only
        refine ⟨?_, i2⟩
        rw [i1]
        rfl
      | func n b =>
        obtain ⟨h1, h2, h3⟩ := Name.word h.1
        have hcons : (Item.func n b :: e).flatMap toks = .word n :: (b.map Tok.chr ++ .chr '(' :: e.flatMap toks) := by
          simp [toks]
        rw [hcons] at hfuel ⊢
        simp only [List.length_cons, List.length_append, List.length_map] at hfuel
        obtain ⟨s1, s2, s3⟩ := funcSalter_spec calcF np n d
        obtain ⟨i1, i2, i3⟩ := ih h.2.2 (funcSalter calcF np n d).2 fuel (by omega)
        rw [funcPass, paren_func b h.2.1]
        simp only [h3, if_true, Option.toList_none, List.nil_append]
        refine ⟨?_, fun m => ?_, fun k hk => (i3 k hk).trans (s3 k hk)⟩
        · rw [i1, s1]
          rfl
        · rw [i2 m, s2 m, calls]
          cases d.get (salt ++ m) with
          | some v => rfl
          | none =>
            by_cases hm : n = m
            · subst hm
              simp only [if_true, Option.none_or, decide_true, Bool.true_or]
              cases ((calcF n).or (np n)).map (Val.fn (F := F)) with
              | some v => rfl
              | none => simp
            · simp [hm]
      | num n =>
        obtain ⟨h1, h2, h3⟩ := Number.word h.1
        have hcons : (Item.num n :: e).flatMap toks = .word n :: e.flatMap toks := rfl
        rw [hcons] at hfuel ⊢
        rw [List.length_cons] at hfuel
        obtain ⟨i1, i2⟩ := ih h.2.2 d fuel (by omega)
        rw [funcPass]
        cases paren (e.flatMap toks) with
        | none =>
          simp only
          refine ⟨?_, i2⟩
          rw [i1]
          rfl
        | some r =>
          simp only [h3, Bool.false_eq_true, if_false]
          refine ⟨?_, i2⟩
          rw [i1]
          rfl
      | op c =>
        have hcons : (Item.op c :: e).flatMap toks = .chr c :: e.flatMap toks := rfl
        rw [hcons] at hfuel ⊢
        rw [List.length_cons] at hfuel
        obtain ⟨i1, i2⟩ := ih h.2.2.2 d fuel (by omega)
        have hq : isQuote c = false := by
          unfold isQuote
          simp [h.2.1, h.2.2.1]
        rw [funcPass, hq]
        simp only [Bool.false_eq_true, if_false]
        refine ⟨?_, i2⟩
        rw [i1]
        rfl

theorem rest_half (e : List Item) : (e.map half).flatMap rest = prefixed salt e := by
  induction e with
  | nil => rfl
  | cons i e ih =>
    rw [List.map_cons, List.flatMap_cons, ih]
    cases i <;> rfl

theorem calls_half (n : List Char) (e : List Item) : calls n (e.map half) = calls n e := by
  induction e with
  | nil => rfl
  | cons i e ih =>
    cases i <;> simp [half, calls, ih]

/-! ### no two underscores -/

theorem dunder_append (a b : List Char) :
    Dunder (a ++ b) ↔ Dunder a ∨ Dunder b ∨ (a.getLast? = some '_' ∧ b.head? = some '_') := by
  induction a with
  | nil => simp [not_dunder_nil]
  | cons c a ih =>
    rw [List.cons_append, dunder_cons, dunder_cons, ih]
    cases a with
    | nil => simp only [List.nil_append, List.head?_nil, List.getLast?_singleton, List.getLast?_nil, not_dunder_nil, reduceCtorEq,
        and_false, false_and, or_false, false_or, Option.some.injEq]
             constructor
             · rintro (h | h)
               · exact .inr h
               · exact .inl h
             · rintro (h | h)
               · exact .inr h
               · exact .inl h
    | cons d a =>
      simp only [List.cons_append, List.head?_cons, List.getLast?_cons_cons]
      constructor
      · rintro (h | h | h | h)
        · exact .inl (.inl h)
        · exact .inl (.inr h)
        · exact .inr (.inl h)
        · exact .inr (.inr h)
      · rintro ((h | h) | h | h)
        · exact .inl h
        · exact .inr (.inl h)
        · exact .inr (.inr (.inl h))
        · exact .inr (.inr (.inr h))

theorem tokens_flat (s : List Char) : flat (tokens s) = s := by
  induction s with
  | nil => rfl
  | cons c s ih =>
    rw [tokens]
    split
    · split
      · rename_i w ts h
        rw [h] at ih
        simp only [flat, List.flatMap_cons, Tok.text] at ih ⊢
        rw [List.cons_append, ih]
      · simp only [flat, List.flatMap_cons, Tok.text] at ih ⊢
        rw [ih]
        rfl
    · simp only [flat, List.flatMap_cons, Tok.text] at ih ⊢
      rw [ih]
      rfl

/-- `b` may stand for `a` in a text -/
def Safe (a b : List Char) : Prop := ¬ Dunder a → ¬ Dunder b ∧ (b.head? = some '_' → a.head? = some '_')

theorem Safe.append {a a' b b' : List Char} (h : ¬ Dunder a → ¬ Dunder b ∧ (b.head? = some '_' → a.head? = some '_') ∧
      (b.getLast? = some '_' → a.getLast? = some '_') ∧ (b = [] → a = [])) (h' : Safe a' b') : Safe (a ++ a') (b ++ b') := by
  intro hd
  rw [dunder_append] at hd
  obtain ⟨h1, h2, h3, h4⟩ := h fun x => hd (.inl x)
  obtain ⟨h5, h6⟩ := h' fun x => hd (.inr (.inl x))
  constructor
  · rw [dunder_append]
    rintro (x | x | ⟨x, y⟩)
    · exact h1 x
    · exact h5 x
    · exact hd (.inr (.inr ⟨h3 x, h6 y⟩))
  · intro hh
    cases b with
    | nil =>
      rw [h4 rfl]
      exact h6 hh
    | cons c b =>
      have := h2 (by simpa using hh)
      cases a with
      | nil => simp at this
      | cons d a => simpa using this

/-- a symbol may be prefixed, if it is not empty -/
theorem salt_safe (w : List Char) (hw : w ≠ []) : ¬ Dunder w → ¬ Dunder (salt ++ w) ∧
    ((salt ++ w).head? = some '_' → w.head? = some '_') ∧ ((salt ++ w).getLast? = some '_' → w.getLast? = some '_') ∧
    (salt ++ w = [] → w = []) := by
  intro h
  refine ⟨?_, ?_, ?_, ?_⟩
  · rw [dunder_append]
    rintro (x | x | ⟨x, y⟩)
    · revert x
      unfold Dunder
      decide
    · exact h x
    · exact absurd x (by decide)
  · intro h
    have : some 'S' = some '_' := h
    exact absurd this (by decide)
  · intro h2
    rw [List.getLast?_append] at h2
    cases hl : w.getLast? with
    | none => exact absurd (List.getLast?_eq_none_iff.mp hl) hw
    | some c => rw [hl] at h2; exact h2
  · simp

theorem same_safe (w : List Char) : ¬ Dunder w → ¬ Dunder w ∧
    (w.head? = some '_' → w.head? = some '_') ∧ (w.getLast? = some '_' → w.getLast? = some '_') ∧ (w = [] → w = []) :=
  fun h => ⟨h, id, id, id⟩

theorem varSalter_text (getField : List Char → Option F) (w out : List Char) (d d' : Dict F G)
    (h : varSalter getField w d = .ok (out, d')) : out = w ∨ out = salt ++ w := by
  unfold varSalter at h
  split at h
  · simp only [Except.ok.injEq, Prod.mk.injEq] at h
    exact .inl h.1.symm
  · split at h
    · simp only [Except.ok.injEq, Prod.mk.injEq] at h
      exact .inr h.1.symm
    · split at h
      · simp at h
      · simp only [Except.ok.injEq, Prod.mk.injEq] at h
        exact .inr h.1.symm

theorem varPass_safe (getField : List Char → Option F) (ts : List Tok) (q : Option Char) (d d' : Dict F G) (out : List Char)
    (h : varPass getField q ts d = .ok (out, d')) : Safe (q.toList ++ flat ts) out := by
  induction ts generalizing q d d' out with
  | nil =>
    rw [varPass] at h
    simp only [Except.ok.injEq, Prod.mk.injEq] at h
    rw [← h.1]
    have : q.toList ++ flat [] = q.toList := by simp [flat]
    rw [this]
    exact fun h => ⟨h, id⟩
  | cons t ts ih =>
    cases t with
    | chr c =>
      rw [varPass] at h
      split at h
      · simp at h
      · rename_i out1 d1 h1
        simp only [Except.ok.injEq, Prod.mk.injEq] at h
        rw [← h.1, List.append_assoc]
        have hfl : flat (.chr c :: ts) = c :: flat ts := rfl
        rw [hfl]
        refine Safe.append (same_safe _) ?_
        have hi := ih _ d d1 out1 h1
        by_cases hq : isQuote c = true
        · simp only [hq, if_true, Option.toList_some, List.nil_append, List.cons_append] at hi ⊢
          exact hi
        · simp only [hq] at hi ⊢
          exact Safe.append (a := [c]) (b := [c]) (same_safe _) hi
    | word w =>
      have hfl : q.toList ++ flat (.word w :: ts) = (q.toList ++ w) ++ flat ts := by simp [flat, Tok.text]
      rw [hfl]
      rw [varPass] at h
      split at h
      · rename_i hsym
        have hne : q.toList ++ w ≠ [] := by
          intro h2
          have : w = [] := (List.append_eq_nil_iff.mp h2).2
          subst this
          exact absurd hsym.1 (by decide)
        split at h
        · simp at h
        · rename_i txt d1 h1
          split at h
          · simp at h
          · rename_i out2 d2 h2
            simp only [Except.ok.injEq, Prod.mk.injEq] at h
            rw [← h.1]
            have hi := ih none d1 d2 out2 h2
            rcases varSalter_text getField _ _ _ _ h1 with rfl | rfl
            · exact Safe.append (same_safe _) hi
            · exact Safe.append (salt_safe _ hne) hi
      · split at h
        · simp at h
        · rename_i out1 d1 h1
          simp only [Except.ok.injEq, Prod.mk.injEq] at h
          rw [← h.1]
          exact Safe.append (same_safe _) (ih none d d1 out1 h1)

theorem paren_suffix (ts r : List Tok) (h : paren ts = some r) : ∃ a, flat ts = a ++ '(' :: flat r := by
  induction ts with
  | nil => simp [paren] at h
  | cons t ts ih =>
    cases t with
    | word w => simp [paren] at h
    | chr c =>
      rw [paren] at h
      split at h
      · rename_i hc
        injection h with h
        subst h hc
        exact ⟨[], rfl⟩
      · split at h
        · obtain ⟨a, ha⟩ := ih h
          exact ⟨c :: a, by show c :: flat ts = _; rw [ha]; rfl⟩
        · simp at h

theorem funcPass_safe (calcF np : List Char → Option G) (fuel : Nat) (ts : List Tok) (q : Option Char) (d : Dict F G) :
    Safe (q.toList ++ flat ts) (funcPass calcF np fuel q ts d).1 := by
  induction fuel generalizing ts q d with
  | zero =>
    rw [funcPass]
    intro h
    rw [dunder_append] at h
    refine ⟨fun x => h (.inl x), fun x => ?_⟩
    cases q with
    | none => simp at x
    | some c => simpa using x
  | succ n ih =>
    cases ts with
    | nil =>
      rw [funcPass]
      have : q.toList ++ flat [] = q.toList := by simp [flat]
      rw [this]
      exact fun h => ⟨h, id⟩
    | cons t ts =>
      cases t with
      | chr c =>
        rw [funcPass]
        simp only
        rw [List.append_assoc]
        have hfl : flat (.chr c :: ts) = c :: flat ts := rfl
        rw [hfl]
        refine Safe.append (same_safe _) ?_
        have hi := ih ts (if isQuote c then some c else none) d
        by_cases hq : isQuote c = true
        · simp only [hq, if_true, Option.toList_some, List.nil_append, List.cons_append] at hi ⊢
          exact hi
        · simp only [hq] at hi ⊢
          exact Safe.append (a := [c]) (b := [c]) (same_safe _) hi
      | word w =>
        have hfl : q.toList ++ flat (.word w :: ts) = (q.toList ++ w) ++ flat ts := by simp [flat, Tok.text]
        rw [hfl, funcPass]
        cases hp : paren ts with
        | none =>
          simp only
          exact Safe.append (same_safe _) (ih ts none d)
        | some r =>
          simp only
          split
          · rename_i hsym
            have hne : q.toList ++ w ≠ [] := by
              intro h2
              have : w = [] := (List.append_eq_nil_iff.mp h2).2
              subst this
              exact absurd hsym (by decide)
            obtain ⟨a, ha⟩ := paren_suffix ts r hp
            rw [ha]
            have e : (funcSalter calcF np (q.toList ++ w) d).1 = (salt ++ (q.toList ++ w)) ++ ['('] := rfl
            rw [e, List.append_assoc (salt ++ (q.toList ++ w))]
            refine Safe.append (salt_safe _ hne) ?_
            intro hd
            rw [dunder_append] at hd
            have hr : ¬ Dunder (flat r) := by
              intro x
              apply hd
              right
              left
              rw [dunder_cons]
              exact .inr x
            have hi := (ih r none (funcSalter calcF np (q.toList ++ w) d).2) (by simpa using hr)
            constructor
            · show ¬ Dunder ('(' :: _)
              rw [dunder_cons]
              rintro (⟨x, -⟩ | x)
              · exact absurd x (by decide)
              · exact hi.1 x
            · intro x
              have : some '(' = some '_' := x
              exact absurd this (by decide)
          · exact Safe.append (same_safe _) (ih ts none d)

end Viscid.Evaluator
