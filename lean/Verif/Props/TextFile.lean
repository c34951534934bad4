import Verif.Model.TextFile
import Verif.Spec.TextFile
import Verif.Props.Fortbin
import Verif.Props.Hdf5
import Verif.Props.GgcmFile
import Mathlib.Tactic.Linarith
import Mathlib.Tactic.Ring
import Mathlib.Tactic.NormNum
/-!
# C198, C199: text files
-/
namespace Viscid.Props
open Viscid.TextFile
open Viscid.Spec.TextFile
open Viscid.Spec.Fortbin (cells)
open Viscid.Layout (Arr prod reshape)

namespace Txt

/-! ### characters -/

theorem digit_char (d : Fin 10) : isDigit (Char.ofNat (48 + d.val)) = true ∧ (Char.ofNat (48 + d.val)).toNat - '0'.toNat = d.val ∧
    Char.ofNat (48 + d.val) ≠ '.' ∧ Char.ofNat (48 + d.val) ≠ ']' ∧ isBlank (Char.ofNat (48 + d.val)) = false ∧
    Char.ofNat (48 + d.val) ≠ '[' := by
  revert d; decide

theorem digit_conv (c : Char) (h : isDigit c = true) : ∃ d : Fin 10, c = Char.ofNat (48 + d.val) := by
  unfold isDigit at h
  simp only [Bool.and_eq_true, decide_eq_true_eq] at h
  have h1 : 48 ≤ c.toNat := by have := h.1; exact this
  have h2 : c.toNat ≤ 57 := by have := h.2; exact this
  refine ⟨⟨c.toNat - 48, by omega⟩, ?_⟩
  simp only
  rw [show 48 + (c.toNat - 48) = c.toNat by omega, Char.ofNat_toNat]

theorem chars_digit (a : List (Fin 10)) : ∀ c ∈ digitChars a, isDigit c = true := by
  intro c hc
  simp only [digitChars, List.mem_map] at hc
  obtain ⟨d, _, rfl⟩ := hc
  exact (digit_char d).1

theorem blank_iff (c : Char) : isBlank c = true ↔ White c := by
  unfold isBlank White
  simp only [Bool.or_eq_true, decide_eq_true_eq, List.mem_cons, List.not_mem_nil, or_false]
  tauto

theorem blanks_blank {s : List Char} (h : Blanks s) : ∀ c ∈ s, isBlank c = true := by
  intro c hc
  rcases h c hc with rfl | rfl <;> rfl

theorem takeWhile_append_all {p : Char → Bool} {s r : List Char} (h : ∀ c ∈ s, p c = true) (hr : ∀ c, r.head? = some c → p c = false) :
    (s ++ r).takeWhile p = s ∧ (s ++ r).dropWhile p = r := by
  induction s with
  | nil =>
    cases r with
    | nil => exact ⟨rfl, rfl⟩
    | cons c r => simp [hr c rfl]
  | cons c s ih =>
    have := ih fun x hx => h x (by simp [hx])
    simp [h c (by simp), this]

theorem natOf_snoc (a : List (Fin 10)) (n : Nat) :
    (((digitChars a).foldl (fun n c => 10 * n + (c.toNat - '0'.toNat)) n : Nat) : ℚ) = n * 10 ^ a.length + value a := by
  induction a generalizing n with
  | nil => simp [digitChars, value]
  | cons d a ih =>
    have e : digitChars (d :: a) = Char.ofNat (48 + d.val) :: digitChars a := rfl
    rw [e, List.foldl_cons, (digit_char d).2.1]
    rw [ih, value, List.length_cons]
    push_cast
    ring

theorem natOf_value (a : List (Fin 10)) : (natOf (digitChars a) : ℚ) = value a := by
  have := natOf_snoc a 0
  unfold natOf
  rw [this]; simp

theorem value_append (a b : List (Fin 10)) : value (a ++ b) = value a * 10 ^ b.length + value b := by
  induction a with
  | nil => simp [value]
  | cons d a ih =>
    rw [List.cons_append, value, ih, value, List.length_append]
    ring

theorem floatOf_decimal {t : List Char} {q : ℚ} (h : Decimal t q) : floatOf t = .ok q := by
  cases h with
  | int a ha =>
    have e := takeWhile_append_all (p := isDigit) (s := digitChars a) (r := []) (chars_digit a) (by simp)
    rw [List.append_nil] at e
    unfold floatOf
    simp only [e.1, e.2]
    rw [if_neg (by simpa [digitChars] using ha), natOf_value]
  | point a b hab =>
    have e := takeWhile_append_all (p := isDigit) (s := digitChars a) (r := '.' :: digitChars b) (chars_digit a)
      (by intro c hc; simp at hc; subst hc; rfl)
    unfold floatOf
    simp only [e.1, e.2]
    have h1 : (digitChars b).all isDigit = true := by rw [List.all_eq_true]; exact chars_digit b
    have h2 : (digitChars a ++ digitChars b != []) = true := by
      rw [bne_iff_ne]
      intro h
      apply hab
      simp only [digitChars, List.append_eq_nil_iff, List.map_eq_nil_iff] at h
      rw [h.1, h.2]; rfl
    rw [h1, h2]
    simp only [Bool.and_self, if_true]
    rw [natOf_value, natOf_value, value_append]
    congr 1
    have hl : (digitChars b).length = b.length := by simp [digitChars]
    rw [hl]
    have : (10 : ℚ) ^ b.length ≠ 0 := by positivity
    field_simp

theorem decimal_chars {t : List Char} {q : ℚ} (h : Decimal t q) : t ≠ [] ∧ (∀ c ∈ t, (isDigit c || c = '.') = true) ∧
    (∀ c, t.head? = some c → isBlank c = false) ∧ '[' ∉ t := by
  have hd : ∀ a : List (Fin 10), '[' ∉ digitChars a := by
    intro a h
    simp only [digitChars, List.mem_map] at h
    obtain ⟨d, _, h⟩ := h
    exact (digit_char d).2.2.2.2.2 h
  cases h with
  | int a ha =>
    refine ⟨by simpa [digitChars] using ha, fun c hc => by rw [chars_digit a c hc]; rfl, ?_, hd a⟩
    intro c hc
    cases a with
    | nil => exact absurd rfl ha
    | cons d a => simp only [digitChars, List.map_cons, List.head?_cons, Option.some.injEq] at hc; rw [← hc]; exact (digit_char d).2.2.2.2.1
  | point a b hab =>
    refine ⟨by simp, ?_, ?_, ?_⟩
    · intro c hc
      rw [List.mem_append, List.mem_cons] at hc
      rcases hc with hc | hc | hc
      · rw [chars_digit a c hc]; rfl
      · rw [hc]; rfl
      · rw [chars_digit b c hc]; rfl
    · intro c hc
      cases a with
      | nil => simp only [digitChars, List.map_nil, List.nil_append, List.head?_cons, Option.some.injEq] at hc; rw [← hc]; rfl
      | cons d a => simp only [digitChars, List.map_cons, List.cons_append, List.head?_cons, Option.some.injEq] at hc; rw [← hc]; exact (digit_char d).2.2.2.2.1
    · rw [List.mem_append, List.mem_cons]
      rintro (h | h | h)
      · exact hd a h
      · exact absurd h (by decide)
      · exact hd b h

theorem ends_false {s : List Char} (h : Ends s) : ∀ c, s.head? = some c → (isDigit c || decide (c = '.')) = false := by
  intro c hc
  obtain ⟨h1, h2⟩ := h c hc
  rw [Bool.or_eq_false_iff]
  refine ⟨?_, by simpa using h1⟩
  by_contra hx
  rw [Bool.not_eq_false] at hx
  obtain ⟨d, hd⟩ := digit_conv c hx
  exact h2 d hd

/-! ### time -/

theorem timeHere_ok {b b' t rest : List Char} {q : ℚ} (hb : Blanks b) (hb' : Blanks b') (ht : Decimal t q) (he : Ends rest) :
    timeHere ("Time".toList ++ (b ++ '=' :: (b' ++ (t ++ rest)))) = some t := by
  unfold timeHere
  rw [if_pos (by rw [List.isPrefixOf_iff_prefix]; exact List.prefix_append _ _)]
  have h4 : ("Time".toList ++ (b ++ '=' :: (b' ++ (t ++ rest)))).drop 4 = b ++ '=' :: (b' ++ (t ++ rest)) := rfl
  rw [h4, (takeWhile_append_all (blanks_blank hb) (by intro c hc; simp at hc; subst hc; rfl)).2]
  obtain ⟨h1, h2, h3, -⟩ := decimal_chars ht
  have hh : ∀ c, (t ++ rest).head? = some c → isBlank c = false := by
    intro c hc
    cases t with
    | nil => exact absurd rfl h1
    | cons x t => exact h3 c hc
  simp only
  rw [(takeWhile_append_all (blanks_blank hb') hh).2, (takeWhile_append_all h2 (ends_false he)).1, if_neg h1]

theorem prefix_T {s : List Char} (h : "Time".toList.isPrefixOf s = true) : s.head? = some 'T' := by
  rw [List.isPrefixOf_iff_prefix] at h
  obtain ⟨t, rfl⟩ := h
  rfl

theorem timeIn_skip (a s : List Char) (ha : 'T' ∉ a) : timeIn (a ++ s) = timeIn s ∧ hasTime (a ++ s) = hasTime s := by
  induction a with
  | nil => exact ⟨rfl, rfl⟩
  | cons c a ih =>
    have hc : c ≠ 'T' := fun h => ha (by simp [h])
    have h0 : "Time".toList.isPrefixOf (c :: (a ++ s)) = false := by
      rw [← Bool.not_eq_true]
      intro h
      have := prefix_T h
      simp only [List.head?_cons, Option.some.injEq] at this
      exact hc this
    have := ih fun h => ha (by simp [h])
    rw [List.cons_append, timeIn, hasTime, h0, this.2, ← this.1]
    refine ⟨?_, rfl⟩
    have : timeHere (c :: (a ++ s)) = none := by unfold timeHere; rw [h0]; rfl
    rw [this]

theorem hasTime_infix (s : List Char) : hasTime s = true ↔ "Time".toList <:+: s := by
  induction s with
  | nil =>
    refine ⟨fun h => by simp [hasTime] at h, fun h => ?_⟩
    have := h.length_le
    simp at this
  | cons c s ih =>
    rw [hasTime, Bool.or_eq_true, ih, List.isPrefixOf_iff_prefix, List.infix_cons_iff]

/-! ### names -/

theorem mark_ok {k : List (Fin 10)} (hk : k ≠ []) (r : List Char) : markRest (digitChars k ++ ']' :: '=' :: r) = some r := by
  have e := takeWhile_append_all (p := isDigit) (s := digitChars k) (r := ']' :: '=' :: r) (chars_digit k)
    (by intro c hc; simp at hc; subst hc; rfl)
  unfold markRest
  rw [e.1, e.2, if_neg (by simpa [digitChars] using hk)]
  rfl

theorem split_none (n : Nat) (s : List Char) (h : '[' ∉ s) : splitMarks n s = [s] := by
  induction n generalizing s with
  | zero => rfl
  | succ n ih =>
    cases s with
    | nil => rfl
    | cons c s =>
      have hc : c ≠ '[' := fun e => h (by simp [e])
      rw [splitMarks, if_neg hc, ih s fun e => h (by simp [e])]

theorem split_names (l : List (List (Fin 10) × List Char)) (hl : ∀ x ∈ l, x.1 ≠ [] ∧ '[' ∉ x.2) :
    ∀ (w : List Char) (n : Nat), '[' ∉ w → (w ++ columnsText l).length ≤ n → splitMarks n (w ++ columnsText l) = w :: l.map (·.2) := by
  induction l with
  | nil =>
    intro w n hw _
    rw [columnsText, List.append_nil, split_none n w hw]; rfl
  | cons x l ih =>
    obtain ⟨k, nm⟩ := x
    intro w
    induction w with
    | nil =>
      intro n _ hn
      have e : [] ++ columnsText ((k, nm) :: l) = '[' :: (digitChars k ++ ']' :: '=' :: (nm ++ columnsText l)) := by
        simp [columnsText]
      rw [e] at hn ⊢
      cases n with
      | zero => simp at hn
      | succ n =>
        rw [splitMarks, if_pos rfl, mark_ok (hl (k, nm) (by simp)).1]
        simp only
        rw [ih (fun y hy => hl y (by simp [hy])) nm n (hl (k, nm) (by simp)).2 (by simp at hn ⊢; omega)]
        rfl
    | cons c w ihw =>
      intro n hw hn
      have hc : c ≠ '[' := fun e => hw (by simp [e])
      cases n with
      | zero => simp at hn
      | succ n =>
        rw [List.cons_append, splitMarks, if_neg hc]
        rw [ihw n (fun e => hw (by simp [e])) (by simp at hn ⊢; omega)]

theorem mem_takeWhile {p : Char → Bool} {s : List Char} {c : Char} (h : c ∈ s.takeWhile p) : p c = true := by
  induction s with
  | nil => simp at h
  | cons x s ih =>
    rw [List.takeWhile_cons] at h
    split at h
    · rcases List.mem_cons.1 h with rfl | h
      · assumption
      · exact ih h
    · simp at h

theorem strip_trimmed (s : List Char) : Trimmed s (strip s) := by
  refine ⟨s.takeWhile isBlank, ((s.dropWhile isBlank).reverse.takeWhile isBlank).reverse, ?_, ?_, ?_, ?_, ?_⟩
  · unfold strip
    rw [List.append_assoc, ← List.reverse_append, List.takeWhile_append_dropWhile, List.reverse_reverse, List.takeWhile_append_dropWhile]
  · intro c hc
    exact (blank_iff c).1 (mem_takeWhile hc)
  · intro c hc
    rw [List.mem_reverse] at hc
    exact (blank_iff c).1 (mem_takeWhile hc)
  · intro c hc hw
    have hb := (blank_iff c).2 hw
    -- the first of what is left is the first that is not blank
    unfold strip at hc
    rw [List.head?_reverse] at hc
    have h2 : (s.dropWhile isBlank).head? = some c := by
      generalize hu : s.dropWhile isBlank = u at hc
      have hsuf := List.dropWhile_suffix (l := u.reverse) isBlank
      obtain ⟨p, hp⟩ := hsuf
      have : u = (u.reverse.dropWhile isBlank).reverse ++ p.reverse := by
        rw [← List.reverse_append, hp, List.reverse_reverse]
      rw [this, List.head?_append, List.head?_reverse, hc]; rfl
    have h3 := List.head?_dropWhile_not isBlank s
    rw [h2] at h3
    simp only at h3
    rw [hb] at h3; cases h3
  · intro c hc hw
    have hb := (blank_iff c).2 hw
    unfold strip at hc
    rw [List.getLast?_reverse] at hc
    have h3 := List.head?_dropWhile_not isBlank (s.dropWhile isBlank).reverse
    rw [hc] at h3
    simp only at h3
    rw [hb] at h3; cases h3

/-! ### headers -/

theorem nx_append {a r : List Char} (h : ¬ "Nx".toList <+: a) (hr : ∀ c, r.head? = some c → c ≠ 'N' ∧ c ≠ 'x') : ¬ "Nx".toList <+: a ++ r := by
  rintro ⟨t, ht⟩
  have ht : 'N' :: 'x' :: t = a ++ r := ht
  cases a with
  | nil =>
    rw [List.nil_append] at ht
    rw [← ht] at hr
    exact (hr 'N' rfl).1 rfl
  | cons c a =>
    cases a with
    | nil =>
      rw [List.singleton_append, List.cons.injEq] at ht
      rw [← ht.2] at hr
      exact (hr 'x' rfl).2 rfl
    | cons d a =>
      simp only [List.cons_append, List.cons.injEq] at ht
      exact h ⟨a, by rw [← ht.1, ← ht.2.1]; rfl⟩

def upd (m : Meta) (t : Option (List Char)) : Says → Meta
  | .nothing => m
  | .dim n => { m with dims := m.dims ++ [n] }
  | .time _ => { m with time := t }
  | .columns l => { m with names := l.map strip }

theorem nx_false {s : List Char} (h : ¬ "Nx".toList <+: s) : "Nx".toList.isPrefixOf s = false := by
  rw [← Bool.not_eq_true, List.isPrefixOf_iff_prefix]; exact h

theorem time_false {s : List Char} (h : ¬ "Time".toList <:+: s) : hasTime s = false := by
  rw [← Bool.not_eq_true, hasTime_infix]; exact h

theorem line_meaning (dim : Line → Except Exc Nat) {s : List Char} {w : Says} (h : Meaning (fun l n => dim l = .ok n) s w) (m : Meta) :
    ∃ t, headerLine dim m s = .ok (upd m t w) ∧ (∀ q, w = .time q → ∃ t', t = some t' ∧ floatOf t' = .ok q) := by
  cases h with
  | nothing _ h1 h2 h3 =>
    refine ⟨none, ?_, fun q h => by cases h⟩
    unfold headerLine
    rw [nx_false h1, time_false h2, split_none _ _ h3]
    rfl
  | dim _ n h1 h2 h3 h4 =>
    refine ⟨none, ?_, fun q h => by cases h⟩
    unfold headerLine
    rw [List.isPrefixOf_iff_prefix.2 h1, time_false h3, split_none _ _ h4, h2]
    rfl
  | time a b b' t rest q h1 h2 h3 h4 h5 h6 h7 h8 =>
    refine ⟨some t, ?_, ?_⟩
    · unfold headerLine
      have hT := timeIn_skip a ("Time".toList ++ (b ++ '=' :: (b' ++ (t ++ rest)))) h2
      have e1 : timeIn ("Time".toList ++ (b ++ '=' :: (b' ++ (t ++ rest)))) = some t := by
        have := timeHere_ok h3 h4 h5 h6
        show timeIn ('T' :: _) = _
        rw [timeIn]
        have e : 'T' :: ("ime".toList ++ (b ++ '=' :: (b' ++ (t ++ rest)))) = "Time".toList ++ (b ++ '=' :: (b' ++ (t ++ rest))) := rfl
        have this : timeHere ('T' :: ("ime".toList ++ (b ++ '=' :: (b' ++ (t ++ rest))))) = some t := by rw [e]; exact this
        show (match timeHere ('T' :: ("ime".toList ++ (b ++ '=' :: (b' ++ (t ++ rest))))) with | some t => some t | none => _) = _
        rw [this]
      have e2 : hasTime ("Time".toList ++ (b ++ '=' :: (b' ++ (t ++ rest)))) = true := by
        rw [hasTime_infix]; exact (List.prefix_append _ _).isInfix
      have hbr : '[' ∉ a ++ ("Time".toList ++ (b ++ '=' :: (b' ++ (t ++ rest)))) := by
        have hbl : ∀ {s : List Char}, Blanks s → '[' ∉ s := by
          intro s hs h
          rcases hs _ h with h | h <;> exact absurd h (by decide)
        simp only [List.mem_append, List.mem_cons, not_or]
        exact ⟨h7, by decide, hbl h3, by decide, hbl h4, (decimal_chars h5).2.2.2, h8⟩
      rw [nx_false (nx_append h1 (by intro c hc; have hc : some 'T' = some c := hc; injection hc with hc; subst hc; decide)), hT.2, hT.1, e1, e2, split_none _ _ hbr]
      rfl
    · intro q' hq
      injection hq with hq
      subst hq
      exact ⟨t, rfl, floatOf_decimal h5⟩
  | columns a l h1 h2 h3 h4 h5 =>
    refine ⟨none, ?_, fun q h => by cases h⟩
    unfold headerLine
    have hnx : ¬ "Nx".toList <+: a ++ columnsText l := by
      refine nx_append h1 ?_
      cases l with
      | nil => exact absurd rfl h4
      | cons x l =>
        intro c hc
        have hc : some '[' = some c := hc
        injection hc with hc; subst hc; decide
    rw [nx_false hnx, time_false h5, split_names l h3 a _ h2 (le_refl _)]
    cases l with
    | nil => exact absurd rfl h4
    | cons x l => rfl

theorem header_fold (dim : Line → Except Exc Nat) (lines : List Line) (said : List Says)
    (h : List.Forall₂ (Meaning fun l n => dim l = .ok n) lines said) (m : Meta) (t : ℚ)
    (ht : (match m.time with | none => Except.ok 0 | some t => floatOf t) = .ok t) :
    ∃ m', lines.foldlM (headerLine dim) m = .ok m' ∧ m'.dims = m.dims ++ sizes said ∧
      (∀ n, m.names = n.map strip → m'.names = (lastColumns said n).map strip) ∧
      (match m'.time with | none => Except.ok 0 | some t => floatOf t) = .ok (lastTime said t) := by
  induction h generalizing m t with
  | nil => exact ⟨m, rfl, by simp [sizes], fun n h => h, ht⟩
  | @cons s w lines said hm _ ih =>
    obtain ⟨t', h1, h2⟩ := line_meaning dim hm m
    rw [List.foldlM_cons, h1]
    cases w with
    | nothing => exact ih m t ht
    | dim n =>
      obtain ⟨m', e1, e2, e3, e4⟩ := ih (upd m t' (.dim n)) t ht
      exact ⟨m', e1, by rw [e2]; simp [upd, sizes], e3, e4⟩
    | time q =>
      obtain ⟨x, rfl, hx⟩ := h2 q rfl
      obtain ⟨m', e1, e2, e3, e4⟩ := ih (upd m (some x) (.time q)) q hx
      exact ⟨m', e1, e2, e3, e4⟩
    | columns l =>
      obtain ⟨m', e1, e2, e3, e4⟩ := ih (upd m t' (.columns l)) t ht
      exact ⟨m', e1, e2, fun n _ => e3 l rfl, e4⟩

end Txt
open Txt

/-- C198: the header of an Athena tab file: the time, the sizes in order, and the names of the columns after those of coordinates;
the times are numbers without exponent -/
theorem C198_header_partial (dim : Line → Except Exc Nat) (lines : List Line) (said : List Says)
    (h : List.Forall₂ (Meaning fun l n => dim l = .ok n) lines said) :
    ∃ names, parseHeader dim lines = .ok (lastTime said 0, sizes said, names) ∧
      List.Forall₂ Trimmed ((lastColumns said []).drop (2 * (sizes said).length)) names := by
  obtain ⟨m', h1, h2, h3, h4⟩ := header_fold dim lines said h ⟨none, [], []⟩ 0 rfl
  refine ⟨((lastColumns said []).map strip).drop (2 * (sizes said).length), ?_, ?_⟩
  · unfold parseHeader
    rw [h1]
    simp only [bind, Except.bind]
    rw [h3 [] rfl, h2]
    cases hm : m'.time with
    | none =>
      rw [hm] at h4
      injection h4 with h4
      simp only
      rw [← h4]; rfl
    | some t =>
      rw [hm] at h4
      simp only at h4 ⊢
      rw [h4]; rfl
  · rw [← List.map_drop]
    generalize List.drop _ _ = l
    induction l with
    | nil => exact .nil
    | cons x l ih => exact .cons (strip_trimmed x) ih

/-- C198 is violated: of a time with an exponent, as "1.5e-05", the exponent is lost -/
theorem C198_exponent_violated (dim : Line → Except Exc Nat) (a b b' t e : List Char) (q : ℚ) (h1 : ¬ "Nx".toList <+: a) (h2 : 'T' ∉ a)
    (h3 : Blanks b) (h4 : Blanks b') (h5 : Decimal t q) (h6 : '[' ∉ a) (h7 : '[' ∉ e) :
    parseHeader dim [a ++ ("Time".toList ++ (b ++ '=' :: (b' ++ (t ++ 'e' :: e))))] = .ok (q, [], []) := by
  have he : Ends ('e' :: e) := by
    intro c hc
    simp only [List.head?_cons, Option.some.injEq] at hc
    subst hc
    exact ⟨by decide, by decide⟩
  have := Meaning.time (size := fun l n => dim l = .ok n) a b b' t ('e' :: e) q h1 h2 h3 h4 h5 he h6 (by simpa using h7)
  obtain ⟨n, e1, e2⟩ := C198_header_partial dim _ [.time q] (.cons this .nil)
  have e2 : List.Forall₂ Trimmed [] n := e2
  cases e2
  exact e1

/-! ### tables -/

namespace Txt

theorem column_ok (rows : Table) (col : Nat) (h : ∀ r ∈ rows, col < r.length) : column rows col = .ok (rows.map fun r => r.getD col 0) := by
  unfold column
  induction rows with
  | nil => rfl
  | cons r rows ih =>
    rw [List.mapM_cons, ih fun x hx => h x (by simp [hx])]
    have := h r (by simp)
    simp only [List.getElem?_eq_getElem this, bind, Except.bind, pure, Except.pure, List.map_cons, List.getD_eq_getElem?_getD, Option.getD_some]

theorem cells_len (dims : List Nat) : ∀ idx ∈ cells dims, idx.length = dims.length := by
  induction dims with
  | nil => intro idx h; simp [cells] at h; subst h; rfl
  | cons n dims ih =>
    intro idx h
    simp only [cells, List.mem_flatMap, List.mem_map] at h
    obtain ⟨t, ht, i, _, rfl⟩ := h
    simp [ih t ht]

theorem prod_pos' (l : List Nat) (h : ∀ n ∈ l, 0 < n) : 0 < prod l := by
  induction l with
  | nil => exact Nat.one_pos
  | cons n l ih => exact Nat.mul_pos (h n (by simp)) (ih fun x hx => h x (by simp [hx]))

theorem prod_take (dims : List Nat) (d n : Nat) (h : dims[d]? = some n) :
    prod (dims.take (d + 1)) = prod (dims.take d) * n ∧ prod dims = prod (dims.take d) * n * prod (dims.drop (d + 1)) := by
  induction dims generalizing d with
  | nil => simp at h
  | cons m dims ih =>
    cases d with
    | zero =>
      simp only [List.getElem?_cons_zero, Option.some.injEq] at h
      subst h
      simp [prod]
    | succ d =>
      rw [List.getElem?_cons_succ] at h
      obtain ⟨h1, h2⟩ := ih d h
      have e : ∀ l, prod (m :: l) = m * prod l := fun _ => rfl
      rw [List.take_succ_cons, List.take_succ_cons, e, e, h1, e, h2, List.drop_succ_cons]
      constructor <;> ring

/-- the cell that is number `m` along axis `d`, and first along the others -/
def axisCell : List Nat → Nat → Nat → List Nat
  | [], _, _ => []
  | _ :: l, 0, m => m :: l.map fun _ => 0
  | _ :: l, d + 1, m => 0 :: axisCell l d m

theorem zeros_spec (l : List Nat) (h : ∀ n ∈ l, 0 < n) : Spec.Fortbin.Inside l (l.map fun _ => 0) ∧ ravelF l (l.map fun _ => 0) = 0 := by
  constructor
  · refine ⟨by simp, fun d i n h1 h2 => ?_⟩
    rw [List.getElem?_map, h2] at h1
    simp only [Option.map_some, Option.some.injEq] at h1
    rw [← h1]; exact h n (List.mem_of_getElem? h2)
  · induction l with
    | nil => rfl
    | cons n l ih =>
      rw [List.map_cons, ravelF, ih fun x hx => h x (by simp [hx])]; simp

theorem axisCell_spec (dims : List Nat) (hp : ∀ n ∈ dims, 0 < n) (d m n : Nat) (h : dims[d]? = some n) (hm : m < n) :
    Spec.Fortbin.Inside dims (axisCell dims d m) ∧ ravelF dims (axisCell dims d m) = m * prod (dims.take d) ∧ (axisCell dims d m)[d]? = some m := by
  induction dims generalizing d with
  | nil => simp at h
  | cons k dims ih =>
    have hp' : ∀ n ∈ dims, 0 < n := fun x hx => hp x (by simp [hx])
    cases d with
    | zero =>
      simp only [List.getElem?_cons_zero, Option.some.injEq] at h
      subst h
      obtain ⟨z1, z2⟩ := zeros_spec dims hp'
      refine ⟨⟨by simp [axisCell], ?_⟩, ?_, rfl⟩
      · intro d i n h1 h2
        cases d with
        | zero =>
          simp only [axisCell, List.getElem?_cons_zero, Option.some.injEq] at h1 h2
          omega
        | succ d => exact z1.2 d i n h1 h2
      · rw [axisCell, ravelF, z2]; simp [prod]
    | succ d =>
      rw [List.getElem?_cons_succ] at h
      obtain ⟨h1, h2, h3⟩ := ih hp' d h
      refine ⟨⟨by simp [axisCell, h1.1], ?_⟩, ?_, h3⟩
      · intro e i n h4 h5
        cases e with
        | zero =>
          simp only [axisCell, List.getElem?_cons_zero, Option.some.injEq] at h4 h5
          rw [← h4, ← h5]; exact hp k (by simp)
        | succ e => exact h1.2 e i n h4 h5
      · rw [axisCell, ravelF, h2, List.take_succ_cons]
        show _ = m * (k * prod _)
        ring

theorem tab_row_len (dims : List Nat) (number : List Nat → List ℚ) (crd : Nat → Nat → ℚ) (vals : List Nat → List ℚ) (nv : Nat)
    (hn : ∀ i, (number i).length = dims.length) (hv : ∀ i, (vals i).length = nv) (c : Nat) (hc : c < 2 * dims.length + nv) :
    ∀ r ∈ tabRows dims number crd vals, c < r.length := by
  intro r hr
  unfold tabRows at hr
  rw [List.mem_map] at hr
  obtain ⟨idx, h1, rfl⟩ := hr
  rw [List.length_append, List.length_append, hn, hv, List.length_map, List.length_zipIdx, cells_len dims idx h1]
  omega

theorem axis_ok (dims : List Nat) (number : List Nat → List ℚ) (crd : Nat → Nat → ℚ) (vals : List Nat → List ℚ) (nv : Nat)
    (hn : ∀ i, (number i).length = dims.length) (hv : ∀ i, (vals i).length = nv) (hp : ∀ n ∈ dims, 0 < n) (d n : Nat) (h : dims[d]? = some n) :
    axisCenters (tabRows dims number crd vals) dims d = if n < 2 then .error .value else .ok ((List.range n).map (crd d)) := by
  have hd : d < dims.length := (List.getElem?_eq_some_iff.1 h).1
  unfold axisCenters
  rw [column_ok _ _ (tab_row_len dims number crd vals nv hn hv _ (by omega))]
  simp only [bind, Except.bind]
  have h0 : prod (dims.take d) ≠ 0 := (prod_pos' _ fun x hx => hp x (List.mem_of_mem_take hx)).ne'
  obtain ⟨p1, p2⟩ := prod_take dims d n h
  have hs : strided ((tabRows dims number crd vals).map fun r => r.getD (dims.length + d) 0) (prod (dims.take (d + 1))) (prod (dims.take d)) =
      .ok ((List.range n).map (crd d)) := by
    unfold strided
    rw [if_neg h0]
    have hl : ((tabRows dims number crd vals).map fun r => r.getD (dims.length + d) 0).length = prod dims := by
      rw [List.length_map]; unfold tabRows; rw [List.length_map, cells_length]; rfl
    have hle : prod (dims.take (d + 1)) ≤ prod dims := by
      rw [p1, p2]
      exact Nat.le_mul_of_pos_right _ (prod_pos' _ fun x hx => hp x (List.mem_of_mem_drop hx))
    rw [hl, min_eq_left hle, p1]
    have hc : (prod (dims.take d) * n + prod (dims.take d) - 1) / prod (dims.take d) = n := by
      generalize prod (dims.take d) = s at h0
      apply Nat.div_eq_of_lt_le
      · rw [Nat.mul_comm]; omega
      · rw [Nat.succ_mul, Nat.mul_comm n s]; omega
    rw [hc]
    congr 1
    apply List.map_congr_left
    intro m hm
    rw [List.mem_range] at hm
    obtain ⟨i1, i2, i3⟩ := axisCell_spec dims hp d m n h hm
    have hg := cells_get dims _ i1
    rw [i2] at hg
    rw [List.getD_eq_getElem?_getD, List.getElem?_map]
    unfold tabRows
    rw [List.getElem?_map, hg]
    simp only [Option.map_some, Option.getD_some]
    rw [List.getD_eq_getElem?_getD, List.getElem?_append_right (by rw [hn]; omega), hn, Nat.add_sub_cancel_left,
      List.getElem?_append_left (by rw [List.length_map, List.length_zipIdx, i1.1]; exact hd), List.getElem?_map, List.getElem?_zipIdx, i3]
    simp
  rw [hs]
  simp only [List.length_map, List.length_range, h, if_true]

theorem mapM_ok {α β : Type} (f : α → Except Exc β) (g : α → β) (l : List α) (h : ∀ a ∈ l, f a = .ok (g a)) : l.mapM f = .ok (l.map g) := by
  induction l with
  | nil => rfl
  | cons a l ih =>
    rw [List.mapM_cons, h a (by simp), ih fun x hx => h x (by simp [hx])]
    rfl

theorem mapM_err {α β : Type} (f : α → Except Exc β) (x : Exc) (l : List α) (h : ∀ a ∈ l, f a = .error x ∨ ∃ b, f a = .ok b)
    (he : ∃ a ∈ l, f a = .error x) : l.mapM f = .error x := by
  induction l with
  | nil => obtain ⟨a, ha, _⟩ := he; simp at ha
  | cons a l ih =>
    rw [List.mapM_cons]
    rcases h a (by simp) with h1 | ⟨b, h1⟩
    · rw [h1]; rfl
    · rw [h1]
      obtain ⟨c, hc, h2⟩ := he
      have : l.mapM f = .error x := by
        refine ih (fun y hy => h y (by simp [hy])) ?_
        rcases List.mem_cons.1 hc with rfl | hc
        · rw [h1] at h2; cases h2
        · exact ⟨c, hc, h2⟩
      simp only [bind, Except.bind, this]

end Txt

/-- C198: the coordinates of a tab file of a grid with two or more cells in each direction: one node more than cells, each centre in
its cell if the centres increase; the middles of the first and last cell are the centres in the file, and those of other cells
exactly where the neighbours are equally far -/
theorem C198_crds_partial (dims : List Nat) (number : List Nat → List ℚ) (crd : Nat → Nat → ℚ) (vals : List Nat → List ℚ) (nv : Nat)
    (hn : ∀ i, (number i).length = dims.length) (hv : ∀ i, (vals i).length = nv) (hp : ∀ n ∈ dims, 2 ≤ n) (h3 : dims.length ≤ 3) :
    ∃ ncs, readCrds (tabRows dims number crd vals) dims = .ok ncs ∧ ncs.length = dims.length ∧
      ∀ (d n : Nat), dims[d]? = some n → ∃ nc, ncs[d]? = some nc ∧ nc.length = n + 1 ∧
        ((∀ i, i + 1 < n → crd d i < crd d (i + 1)) → ∀ i, i < n → nc.getD i 0 < crd d i ∧ crd d i < nc.getD (i + 1) 0) ∧
        (nc.getD 0 0 + nc.getD 1 0) / 2 = crd d 0 ∧ (nc.getD (n - 1) 0 + nc.getD n 0) / 2 = crd d (n - 1) ∧
        ∀ i, i + 2 < n → ((nc.getD (i + 1) 0 + nc.getD (i + 2) 0) / 2 = crd d (i + 1) ↔
          crd d (i + 1) - crd d i = crd d (i + 2) - crd d (i + 1)) := by
  have hax : ∀ d, d < dims.length → ∃ nc, axisCenters (tabRows dims number crd vals) dims d = .ok ((List.range (dims.getD d 0)).map (crd d)) ∧
      GgcmFile.nodes ((List.range (dims.getD d 0)).map (crd d)) = .ok nc := by
    intro d hd
    have h : dims[d]? = some (dims.getD d 0) := by rw [List.getElem?_eq_getElem hd, List.getD_eq_getElem _ _ hd]
    have h2 := hp _ (List.mem_of_getElem? h)
    obtain ⟨nc, h4, _⟩ := C116_nodes_partial ((List.range (dims.getD d 0)).map (crd d)) (by simpa using h2)
    refine ⟨nc, ?_, h4⟩
    rw [axis_ok dims number crd vals nv hn hv (fun n hn => by have := hp n hn; omega) d _ h, if_neg (by omega)]
  have hch : ∃ g : Nat → List ℚ, ∀ d, d < dims.length → GgcmFile.nodes ((List.range (dims.getD d 0)).map (crd d)) = .ok (g d) := by
    refine ⟨fun d => match GgcmFile.nodes ((List.range (dims.getD d 0)).map (crd d)) with | .ok l => l | .error _ => [], fun d hd => ?_⟩
    obtain ⟨nc, -, h⟩ := hax d hd
    simp only [h]
  obtain ⟨g, hg⟩ := hch
  refine ⟨(List.range dims.length).map g, ?_, by simp, ?_⟩
  · unfold readCrds
    rw [min_eq_left h3, Txt.mapM_ok _ (fun d => (List.range (dims.getD d 0)).map (crd d)) _ fun d hd => (hax d (List.mem_range.1 hd)).choose_spec.1]
    simp only [bind, Except.bind]
    have := Txt.mapM_ok (fun d => axisNodes ((List.range (dims.getD d 0)).map (crd d))) g (List.range dims.length) fun d hd => by
      unfold axisNodes; rw [hg d (List.mem_range.1 hd)]
    rw [← this, List.mapM_map]
    rfl
  · intro d n h
    have hd : d < dims.length := (List.getElem?_eq_some_iff.1 h).1
    have hn' : dims.getD d 0 = n := by rw [List.getD_eq_getElem?_getD, h]; rfl
    have h2 := hp _ (List.mem_of_getElem? h)
    have hgd := hg d hd
    rw [hn'] at hgd
    have hget : ∀ i, i < n → ((List.range n).map (crd d)).getD i 0 = crd d i := by
      intro i hi
      rw [List.getD_eq_getElem?_getD, List.getElem?_map, List.getElem?_range hi]; rfl
    obtain ⟨nc, e1, e2, e3, e4, e5, e6⟩ := C116_nodes_partial ((List.range n).map (crd d)) (by simpa using h2)
    rw [hgd] at e1
    injection e1 with e1
    subst e1
    simp only [List.length_map, List.length_range] at e2 e3 e5 e6
    refine ⟨g d, by rw [List.getElem?_map, List.getElem?_range hd]; rfl, e2, ?_, ?_, ?_, ?_⟩
    · intro hinc i hi
      have := e3 (fun j hj => by rw [hget j (by omega), hget (j + 1) hj]; exact hinc j hj) i hi
      rwa [hget i hi] at this
    · rw [hget 0 (by omega)] at e4; exact e4
    · rw [hget (n - 1) (by omega)] at e5
      unfold Spec.GgcmFile.mid at e5
      rwa [show n - 1 + 1 = n by omega] at e5
    · intro i hi
      have := e6 i hi
      rw [hget i (by omega), hget (i + 1) (by omega), hget (i + 2) hi] at this
      exact this

/-- C198 is violated: one cell in some direction is a ValueError, although the code has a branch for it -/
theorem C198_single_violated (dims : List Nat) (number : List Nat → List ℚ) (crd : Nat → Nat → ℚ) (vals : List Nat → List ℚ) (nv : Nat)
    (hn : ∀ i, (number i).length = dims.length) (hv : ∀ i, (vals i).length = nv) (hp : ∀ n ∈ dims, 0 < n) (h1 : 1 ∈ dims) (h3 : dims.length ≤ 3) :
    readCrds (tabRows dims number crd vals) dims = .error .value := by
  unfold readCrds
  rw [min_eq_left h3]
  have : (List.range dims.length).mapM (axisCenters (tabRows dims number crd vals) dims) = .error .value := by
    apply Txt.mapM_err
    · intro d hd
      rw [List.mem_range] at hd
      have h : dims[d]? = some dims[d] := List.getElem?_eq_getElem hd
      rw [axis_ok dims number crd vals nv hn hv hp d _ h]
      split
      · exact .inl rfl
      · exact .inr ⟨_, rfl⟩
    · obtain ⟨d, hd, h⟩ := List.mem_iff_getElem.1 h1
      refine ⟨d, List.mem_range.2 hd, ?_⟩
      rw [axis_ok dims number crd vals nv hn hv hp d 1 (by rw [List.getElem?_eq_getElem hd, h])]
      rfl
  rw [this]
  rfl

namespace Txt
open Viscid.Layout (ravel unravel)

theorem count_prod (s : List Nat) : count s = prod s := by
  induction s with
  | nil => rfl
  | cons n s ih => show n * count s = n * prod s; rw [ih]

theorem place_ravel (s idx : List Nat) : place s idx = ravel s idx := by
  induction s generalizing idx with
  | nil => rfl
  | cons n s ih =>
    cases idx with
    | nil => rfl
    | cons i idx => rw [place, ravel, ih, count_prod]

/-- numbers in C order, as an array -/
theorem reshape_flat (a : List ℚ) (shape : List Nat) (hl : a.length = prod shape) :
    ∃ r, reshape ⟨[a.length], fun i => a.getD (i.headD 0) 0⟩ shape = .ok r ∧ r.shape = shape ∧
      ∀ idx, List.Forall₂ (· < ·) idx shape → r.get idx = a.getD (ravel shape idx) 0 := by
  unfold reshape
  split
  · rename_i h
    simp only at h
    refine ⟨_, rfl, h, ?_⟩
    intro idx hi
    rw [← h] at hi ⊢
    cases hi with
    | cons h1 h2 =>
      cases h2
      simp [ravel, prod]
  · rw [if_pos (by simp only [prod, List.foldr_cons, List.foldr_nil]; rw [Nat.mul_one]; exact hl)]
    refine ⟨_, rfl, rfl, ?_⟩
    intro idx hi
    simp only [unravel, prod, List.foldr_nil, Nat.div_one, List.headD_cons]

theorem forall₂_reverse {l m : List Nat} (h : List.Forall₂ (· < ·) l m) : List.Forall₂ (· < ·) l.reverse m.reverse :=
  List.rel_reverse h

theorem inside_forall (dims idx : List Nat) (h : Spec.Fortbin.Inside dims idx) : List.Forall₂ (· < ·) idx dims := by
  rw [List.forall₂_iff_get]
  refine ⟨h.1, fun i h1 h2 => h.2 i _ _ (List.getElem?_eq_getElem h1) (List.getElem?_eq_getElem h2)⟩

theorem ravel_snoc' (s idx : List Nat) (n c : Nat) (h : idx.length = s.length) : ravel (s ++ [n]) (idx ++ [c]) = ravel s idx * n + c := by
  induction s generalizing idx with
  | nil =>
    cases idx with
    | nil => simp [ravel, prod]
    | cons i idx => simp at h
  | cons m s ih =>
    cases idx with
    | nil => simp at h
    | cons i idx =>
      have hp : prod (s ++ [n]) = prod s * n := by
        have : ∀ s : List Nat, prod (s ++ [n]) = prod s * n := by
          intro s
          induction s with
          | nil => simp [prod]
          | cons k s ih => show k * prod (s ++ [n]) = k * prod s * n; rw [ih]; ring
        exact this s
      rw [List.cons_append, List.cons_append, ravel, ih idx (by simpa using h), ravel, hp]
      ring

theorem ravel_reverse (dims idx : List Nat) (h : idx.length = dims.length) : ravel dims.reverse idx.reverse = ravelF dims idx := by
  induction dims generalizing idx with
  | nil => cases idx <;> simp [ravel, ravelF]
  | cons n dims ih =>
    cases idx with
    | nil => simp at h
    | cons i idx =>
      rw [List.reverse_cons, List.reverse_cons, ravel_snoc' _ _ _ _ (by simpa using h), ih idx (by simpa using h), ravelF]
      ring

theorem prod_reverse (l : List Nat) : prod l.reverse = prod l := by
  unfold prod
  exact (List.reverse_perm l).foldr_eq 1

end Txt

/-- C198: the data of a field of a tab file: at each cell its value in the file, for the columns after those of coordinates -/
theorem C198_data (dims : List Nat) (number : List Nat → List ℚ) (crd : Nat → Nat → ℚ) (vals : List Nat → List ℚ) (nv : Nat)
    (hn : ∀ i, (number i).length = dims.length) (hv : ∀ i, (vals i).length = nv) (f : Nat) (hf : f < nv) :
    ∃ a, tabField (tabRows dims number crd vals) dims f = .ok a ∧ a.shape = dims ∧
      ∀ idx, Spec.Fortbin.Inside dims idx → (vals idx)[f]? = some (a.get idx) := by
  unfold tabField tabArray
  rw [List.length_reverse, column_ok _ _ (tab_row_len dims number crd vals nv hn hv _ (by omega))]
  simp only [bind, Except.bind]
  obtain ⟨r, h1, h2, h3⟩ := reshape_flat ((tabRows dims number crd vals).map fun r => r.getD (2 * dims.length + f) 0) dims.reverse
    (by rw [List.length_map]; unfold tabRows; rw [List.length_map, cells_length, prod_reverse]; rfl)
  rw [h1]
  refine ⟨_, rfl, rfl, ?_⟩
  intro idx hi
  simp only
  rw [h3 _ (forall₂_reverse (inside_forall dims idx hi)), ravel_reverse dims idx hi.1, List.getD_eq_getElem?_getD, List.getElem?_map]
  unfold tabRows
  rw [List.getElem?_map, cells_get dims idx hi]
  simp only [Option.map_some, Option.getD_some]
  have hl : (idx.zipIdx.map fun p => crd p.2 p.1).length = dims.length := by rw [List.length_map, List.length_zipIdx, hi.1]
  rw [List.getD_eq_getElem?_getD, List.getElem?_append_right (by rw [hn]; omega), hn, List.getElem?_append_right (by rw [hl]; omega), hl,
    show 2 * dims.length + f - dims.length - dims.length = f by omega]
  have : f < (vals idx).length := by rw [hv]; exact hf
  rw [List.getElem?_eq_getElem this]; rfl

/-- C199: a .txt or .asc file with two or more rows and columns: the nodes are the first column, and field c`i` is column `i` -/
theorem C199_ascii_partial (rows : Table) (m : Nat) (hr : 2 ≤ rows.length) (hm : 2 ≤ m) (h : ∀ r ∈ rows, r.length = m) :
    ∃ x fs, ascii rows = .ok (x, fs) ∧ x.length = rows.length ∧ fs.length = m - 1 ∧
      (∀ (j : Nat) r, rows[j]? = some r → r[0]? = x[j]?) ∧
      ∀ i, 0 < i → i < m → ∃ c, fs[i - 1]? = some ("c" ++ toString i, c) ∧ c.length = rows.length ∧ ∀ (j : Nat) r, rows[j]? = some r → r[i]? = c[j]? := by
  have hh : (rows.headD []).length = m := by
    cases rows with
    | nil => simp at hr
    | cons r rows => exact h r (by simp)
  have hcol : ∀ i, i < m → column rows i = .ok (rows.map fun r => r.getD i 0) := fun i hi => column_ok rows i fun r hr => by rw [h r hr]; exact hi
  have hval : ∀ i, i < m → ∀ (j : Nat) r, rows[j]? = some r → r[i]? = (rows.map fun r => r.getD i 0)[j]? := by
    intro i hi j r hj
    have : i < r.length := by rw [h r (List.mem_of_getElem? hj)]; exact hi
    rw [List.getElem?_map, hj, Option.map_some, List.getD_eq_getElem?_getD, List.getElem?_eq_getElem this]; rfl
  refine ⟨_, (List.range (m - 1)).map fun i => ("c" ++ toString (i + 1), rows.map fun r => r.getD (i + 1) 0), ?_, ?_, ?_, hval 0 (by omega), ?_⟩
  · unfold ascii
    rw [if_pos (by unfold twoDim; rw [hh]; simp; omega), hcol 0 (by omega), hh]
    simp only [bind, Except.bind]
    rw [Txt.mapM_ok _ (fun i => ("c" ++ toString (i + 1), rows.map fun r => r.getD (i + 1) 0)) _ fun i hi => by
      rw [List.mem_range] at hi; rw [hcol (i + 1) (by omega)]; rfl]
  · simp
  · simp
  · intro i h0 hi
    refine ⟨rows.map fun r => r.getD i 0, ?_, by simp, hval i hi⟩
    rw [List.getElem?_map, List.getElem?_range (by omega)]
    simp only [Option.map_some, show i - 1 + 1 = i by omega]

/-- C199 is violated: a file with one row, or with one column, is an IndexError, although the code has a condition for it -/
theorem C199_ascii_violated (rows : Table) (h : rows.length ≤ 1 ∨ ∀ r ∈ rows, r.length ≤ 1) : ascii rows = .error .index := by
  unfold ascii
  rw [if_neg]
  unfold twoDim
  rw [Bool.and_eq_true, decide_eq_true_eq, decide_eq_true_eq]
  rintro ⟨h1, h2⟩
  rcases h with h | h
  · omega
  · cases rows with
    | nil => simp at h1
    | cons r rows => have := h r (by simp); simp at h2; omega

/-- C199: an Athena history file: the times are the first column, and each other column is the field with the name of the column in
the header -/
theorem C199_history (a : Line) (l : List (List (Fin 10) × List Char)) (rows : Table) (ha : '[' ∉ a) (hl : ∀ x ∈ l, x.1 ≠ [] ∧ '[' ∉ x.2)
    (h0 : l ≠ []) (h : ∀ r ∈ rows, l.length ≤ r.length) :
    ∃ t fs, hst (a ++ columnsText l) rows = .ok (t, fs) ∧ t.length = rows.length ∧ fs.length + 1 = l.length ∧
      (∀ (j : Nat) r, rows[j]? = some r → r[0]? = t[j]?) ∧
      ∀ (i : Nat) x, 0 < i → l[i]? = some x → ∃ n c, fs[i - 1]? = some (n, c) ∧ Trimmed x.2 n ∧ c.length = rows.length ∧
        ∀ (j : Nat) r, rows[j]? = some r → r[i]? = c[j]? := by
  have hpos : 0 < l.length := List.length_pos_iff.2 h0
  have hcol : ∀ i, i < l.length → column rows i = .ok (rows.map fun r => r.getD i 0) := fun i hi => column_ok rows i fun r hr => by have := h r hr; omega
  have hval : ∀ i, i < l.length → ∀ (j : Nat) r, rows[j]? = some r → r[i]? = (rows.map fun r => r.getD i 0)[j]? := by
    intro i hi j r hj
    have : i < r.length := by have := h r (List.mem_of_getElem? hj); omega
    rw [List.getElem?_map, hj, Option.map_some, List.getD_eq_getElem?_getD, List.getElem?_eq_getElem this]; rfl
  have hnames : (splitMarks (a ++ columnsText l).length (a ++ columnsText l)).tail.map strip = l.map fun x => strip x.2 := by
    rw [split_names l hl a _ ha (le_refl _), List.tail_cons, List.map_map]; rfl
  refine ⟨_, (List.range (l.length - 1)).map fun i => ((l.map fun x => strip x.2).getD (i + 1) [], rows.map fun r => r.getD (i + 1) 0), ?_, ?_, ?_, hval 0 hpos, ?_⟩
  · unfold hst
    rw [hnames, hcol 0 hpos]
    simp only [bind, Except.bind, List.length_map]
    rw [Txt.mapM_ok _ (fun i => ((l.map fun x => strip x.2).getD (i + 1) [], rows.map fun r => r.getD (i + 1) 0)) _ fun i hi => by
      rw [List.mem_range] at hi; rw [hcol (i + 1) (by omega)]]
  · simp
  · simp; omega
  · intro i x h1 hx
    have hi : i < l.length := (List.getElem?_eq_some_iff.1 hx).1
    refine ⟨strip x.2, rows.map fun r => r.getD i 0, ?_, strip_trimmed _, by simp, hval i hi⟩
    rw [List.getElem?_map, List.getElem?_range (by omega)]
    simp only [Option.map_some, show i - 1 + 1 = i by omega, List.getD_eq_getElem?_getD, List.getElem?_map, hx, Option.getD_some]

/-- C199: a .nda file: the axes with their names and nodes; a field with as many numbers as there are nodes has them in C order -/
theorem C199_nda (axes fields rest : List Entry) :
    ∃ fs, nda axes.length fields.length (axes ++ fields ++ rest) = .ok (axes, fs) ∧ fs.map (·.1) = fields.map (·.1) ∧
      ∀ (k : Nat) f, fields[k]? = some f → f.2.length = count (axes.map fun a => a.2.length) →
        ∃ a, fs[k]? = some (f.1, .ok a) ∧ a.shape = axes.map (fun a => a.2.length) ∧
          ∀ idx, List.Forall₂ (· < ·) idx a.shape → f.2[place a.shape idx]? = some (a.get idx) := by
  have e1 : (axes ++ fields ++ rest).take axes.length = axes := by rw [List.append_assoc, List.take_left]
  have e2 : ((axes ++ fields ++ rest).drop axes.length).take fields.length = fields := by rw [List.append_assoc, List.drop_left, List.take_left]
  unfold nda
  rw [if_neg (by simp only [List.length_append]; omega)]
  simp only [e1, e2]
  refine ⟨_, rfl, by rw [List.map_map]; rfl, ?_⟩
  intro k f hf hl
  obtain ⟨r, h1, h2, h3⟩ := reshape_flat f.2 (axes.map fun a : Entry => a.2.length) (by rw [hl, count_prod])
  refine ⟨r, ?_, h2, ?_⟩
  · rw [List.getElem?_map, hf, Option.map_some, h1]
  · intro idx hi
    rw [h2] at hi ⊢
    rw [place_ravel]
    have hlt : Layout.ravel (axes.map fun a => a.2.length) idx < f.2.length := by
      rw [hl, count_prod]
      exact Hdf5.ravel_lt _ _ hi
    rw [h3 idx hi, List.getElem?_eq_getElem hlt, List.getD_eq_getElem _ _ hlt]

/-- C199: a .nda file that is too short is refused, and so is a field with another number of values, when it is used -/
theorem C199_nda_refused (ndim nfields : Nat) (entries : List Entry) :
    (entries.length < ndim + nfields → nda ndim nfields entries = .error .value) ∧
    (∀ axes fs, nda ndim nfields entries = .ok (axes, fs) → ∀ (k : Nat) f, entries[ndim + k]? = some f → k < nfields →
      f.2.length ≠ count (axes.map fun a => a.2.length) → fs[k]? = some (f.1, .error .value)) := by
  constructor
  · intro h; unfold nda; rw [if_pos h]
  · intro axes fs h k f hf hk hl
    unfold nda at h
    split at h
    · cases h
    · simp only [Except.ok.injEq, Prod.mk.injEq] at h
      obtain ⟨h1, h2⟩ := h
      rw [h1] at h2
      rw [← h2, List.getElem?_map, List.getElem?_take, if_pos hk, List.getElem?_drop, hf, Option.map_some]
      have : reshape ⟨[f.2.length], fun i => f.2.getD (i.headD 0) 0⟩ (axes.map fun a => a.2.length) = .error .valueError := by
        unfold reshape
        rw [if_neg, if_neg]
        · simp only [prod, List.foldr_cons, List.foldr_nil, Nat.mul_one]; rw [count_prod] at hl; exact hl
        · simp only
          intro h
          rw [← h] at hl
          simp [count] at hl
      rw [this]

/-! ### examples -/

example : parseHeader (fun _ => .ok 2) ["Nx1 = 2".toList, "PRIMITIVE vars at Time= 1.25, level= 0".toList, "Nx2 = 2".toList,
    "[1]=i-zone [2]=j-zone [3]=x1 [4]=x2 [5]=d [6]=V1".toList] = .ok (5 / 4, [2, 2], ["d".toList, "V1".toList]) := by decide +kernel
example : parseHeader (fun _ => .ok 2) ["Time= 1.5e-05".toList] = .ok (3 / 2, [], []) := by decide +kernel
example : readCrds (tabRows [2, 3] (fun i => i.map fun n => (n : ℚ)) (fun d i => if d = 0 then i else 2 * i) fun _ => [7]) [2, 3] =
    .ok [[-1 / 2, 1 / 2, 3 / 2], [-1, 1, 3, 5]] := by decide +kernel
example : ∃ a, tabField (tabRows [2, 3] (fun i => i.map fun n => (n : ℚ)) (fun d i => if d = 0 then i else 2 * i) fun i => [7, (i.headD 0 : Nat)]) [2, 3] 1 = .ok a ∧
    a.get [1, 2] = 1 := ⟨_, rfl, by decide +kernel⟩
example : ascii [[0, 5, 7], [1, 6, 8]] = .ok ([0, 1], [("c1", [5, 6]), ("c2", [7, 8])]) := by decide +kernel
example : ascii [[0, 5, 7]] = .error .index := C199_ascii_violated _ (.inl (by decide))
example : hst "[1]=time [2]=dt [3]=mass".toList [[0, 1, 2], [3, 4, 5]] = .ok ([0, 3], [("dt".toList, [1, 4]), ("mass".toList, [2, 5])]) := by decide +kernel

end Viscid.Props
