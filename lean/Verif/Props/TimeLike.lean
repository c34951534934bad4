import Verif.Spec.TimeLike
import Verif.Props.TimeDelta
import Verif.Props.TimeText
/-!
# C223: what is taken for a time, and how text is read as one
-/
namespace Viscid.Props
open Viscid.TimeLike Viscid.Spec.TimeLike
open Viscid.NpTime (U Time Err)
open Viscid.TimeDelta (ofString ofNumber splitColon floats asTimedelta64)
open Viscid.TimeText (isotime)

namespace TL

theorem fields_ne (s : List Char) : fields s ≠ [] := by
  induction s with
  | nil => simp [fields]
  | cons c s ih =>
    rw [fields]
    split
    · simp
    · cases h : fields s with
      | nil => exact absurd h ih
      | cons => simp [List.modifyHead]

theorem fields_eq (s : List Char) : splitColon s = fields s := by
  induction s with
  | nil => rfl
  | cons c s ih =>
    rw [splitColon, fields, ih]
    split
    · rfl
    · cases h : fields s with
      | nil => exact absurd h (fields_ne s)
      | cons => rfl

theorem like_ok {check : List Char → Except Err Bool} {isNp isNative : Atom → Bool} {dtype : Val → Bool} (l : List Atom) :
    checkLike isNp isNative dtype check (.list l) = .ok true ↔
      ∀ a ∈ l, checkLike isNp isNative dtype check (.atom a) = .ok true := by
  show checkList _ _ _ = _ ↔ _
  induction l with
  | nil => simp [checkList]
  | cons a l ih =>
    rw [List.forall_mem_cons, ← ih]
    cases a with
    | text s =>
      rw [checkList, checkLike]
      cases check s with
      | error e => simp
      | ok b => cases b <;> simp
    | _ =>
      simp only [checkList, checkLike]
      split <;> simp_all

theorem validTd_false {float : List Char → Option ℚ} {s : List Char}
    (h : 3 < (fields (s.dropWhile (· = 'T'))).length ∨ ∃ f ∈ fields (s.dropWhile (· = 'T')), float f = none) :
    validTd float s = .ok false := by
  rw [← fields_eq] at h
  have := C107_refused float s none h
  unfold validTd
  rw [show ofString float s none = .error .value from this]

theorem digit_no {l : List Char} (h : ∀ c ∈ l, c.isDigit = true) : ':' ∉ l ∧ l.head? ≠ some 'T' := by
  constructor
  · intro hc
    have := h _ hc
    revert this
    decide
  · cases l with
    | nil => simp
    | cons c l =>
      intro hc
      have := h c (by simp)
      rw [List.head?_cons, Option.some.injEq] at hc
      subst hc
      revert this
      decide

theorem value_lt (l : List Char) (h : ∀ c ∈ l, c.isDigit = true) : value l < 10 ^ l.length := by
  unfold value
  suffices ∀ v, l.foldl (fun v c => 10 * v + (c.toNat - '0'.toNat)) v < (v + 1) * 10 ^ l.length by simpa using this 0
  induction l with
  | nil => simp
  | cons c l ih =>
    intro v
    rw [List.foldl_cons]
    refine lt_of_lt_of_le (ih (fun c hc => h c (by simp [hc])) _) ?_
    rw [List.length_cons, Nat.pow_succ']
    have hc := h c (by simp)
    have : c.toNat - '0'.toNat ≤ 9 := by
      simp only [Char.isDigit, Bool.and_eq_true, decide_eq_true_eq] at hc
      have h2 : c.val.toNat ≤ '9'.val.toNat := UInt32.le_iff_toNat_le.mp hc.2
      have : '9'.val.toNat = 57 := by decide
      have : '0'.toNat = 48 := by decide
      have : c.toNat = c.val.toNat := rfl
      omega
    rw [← Nat.mul_assoc]
    exact Nat.mul_le_mul_right _ (by omega)

theorem ofText_td {float : List Char → Option ℚ} {s : List Char} {t : Time} (parse : List Char → Option U → Except Err Time)
    (h : ofString float s none = .ok t) : ofText float parse s none = .ok { t with delta := false } := by
  unfold ofText validTd
  simp only [h]

end TL
open TL

/-- C223: values of the types of instants are taken for instants, those of the types of durations for durations, and numbers
for durations unless asked to be conservative. Nothing else is, of the values that are not text. -/
theorem C223_types (float : List Char → Option ℚ) (parse : List Char → Option U → Except Err Time) (fl : Val → Bool) (a : Atom)
    (ha : ∀ s, a ≠ .text s) (hb : a ≠ .bool) :
    (∃ x y z, isDt float parse fl false (.atom a) = .ok x ∧ isTd float true (.atom a) = .ok y ∧
      isTd float false (.atom a) = .ok z ∧
      (x = true ↔ Instant a) ∧ (y = true ↔ Duration a) ∧ (z = true ↔ Duration a ∨ Number a)) := by
  have hi : Instant a ↔ a = .dt64 ∨ a = .dt := ⟨fun h => by cases h <;> simp, by rintro (rfl | rfl) <;> constructor⟩
  have hd : Duration a ↔ a = .td64 ∨ a = .td := ⟨fun h => by cases h <;> simp, by rintro (rfl | rfl) <;> constructor⟩
  have hn : Number a ↔ ∃ b, a = .flt b ∨ a = .int b :=
    ⟨fun h => by cases h <;> simp, by rintro ⟨b, (rfl | rfl)⟩ <;> constructor⟩
  rw [hi, hd, hn]
  cases a with
  | text s => exact absurd rfl (ha s)
  | bool => exact absurd rfl hb
  | flt b => cases b <;> refine ⟨_, _, _, rfl, rfl, rfl, ?_⟩ <;> simp [isNpTd, isNativeTd]
  | int b => cases b <;> refine ⟨_, _, _, rfl, rfl, rfl, ?_⟩ <;> simp [isNpTd, isNativeTd]
  | _ => refine ⟨_, _, _, rfl, rfl, rfl, ?_⟩ <;> simp [isNpTd, isNativeTd]

/-- C223 fails: `True` and `False` are durations -/
theorem C223_bool_violated (float : List Char → Option ℚ) : isTd float false (.atom .bool) = .ok true := rfl

/-- C223: a list is taken for instants, or for durations, exactly if each of its elements is -/
theorem C223_lists (float : List Char → Option ℚ) (parse : List Char → Option U → Except Err Time) (fl : Val → Bool)
    (l : List Atom) :
    (isDt float parse fl false (.list l) = .ok true ↔ ∀ a ∈ l, isDt float parse fl false (.atom a) = .ok true) ∧
    (isTd float false (.list l) = .ok true ↔ ∀ a ∈ l, isTd float false (.atom a) = .ok true) := by
  constructor
  · exact like_ok l
  · exact like_ok l

/-- C223 fails: an empty list is a list of instants and one of durations, and rounded as the former -/
theorem C223_empty_violated (float : List Char → Option ℚ) (parse : List Char → Option U → Except Err Time) (fl : Val → Bool) :
    isDt float parse fl false (.list []) = .ok true ∧ isTd float false (.list []) = .ok true ∧
    isTd float true (.list []) = .ok true ∧ secondsAs float parse fl (.list []) = .ok .date := ⟨rfl, rfl, rfl, rfl⟩

/-- C223: arrays of numpy's types of instants and durations are recognised, and arrays of Python's `datetime` and `timedelta` -/
theorem C223_arrays (float : List Char → Option ℚ) (parse : List Char → Option U → Except Err Time) (fl : Val → Bool)
    (l : List Atom) :
    isDt float parse fl false .arrDt = .ok true ∧ isTd float false .arrDt = .ok false ∧
    isTd float false .arrTd = .ok true ∧ isTd float true .arrTd = .ok true ∧ isDt float parse fl false .arrTd = .ok false ∧
    (isDt float parse fl false (.arrObj l) = .ok true ↔ ∀ a ∈ l, a = .dt) ∧
    (isTd float true (.arrObj l) = .ok true ↔ ∀ a ∈ l, a = .td) := by
  refine ⟨rfl, rfl, rfl, rfl, rfl, ?_, ?_⟩
  · show Except.ok (l.all _) = _ ↔ _
    simp
  · show Except.ok (l.all _) = _ ↔ _
    simp

/-- C223 fails: numbers and lists of numbers are durations, arrays of the same numbers are not; and a list of
`np.datetime64`s is one of instants, but not an array of Python objects with the same elements -/
theorem C223_array_violated (float : List Char → Option ℚ) (parse : List Char → Option U → Except Err Time) (fl : Val → Bool)
    (n : Nat) :
    isTd float false (.list (List.replicate n (.flt true))) = .ok true ∧ isTd float false .arrFlt = .ok false ∧
    isTd float false (.list (List.replicate n (.int true))) = .ok true ∧ isTd float false .arrInt = .ok false ∧
    isDt float parse fl false (.list (List.replicate (n + 1) .dt64)) = .ok true ∧
    isDt float parse fl false (.arrObj (List.replicate (n + 1) .dt64)) = .ok false := by
  refine ⟨?_, rfl, ?_, rfl, ?_, ?_⟩
  · exact ((C223_lists float parse fl _).2).2 fun a ha => by rw [List.eq_of_mem_replicate ha]; rfl
  · exact ((C223_lists float parse fl _).2).2 fun a ha => by rw [List.eq_of_mem_replicate ha]; rfl
  · exact ((C223_lists float parse fl _).1).2 fun a ha => by rw [List.eq_of_mem_replicate ha]; rfl
  · show Except.ok (List.all _ _) = _
    rw [List.replicate_succ]
    rfl

/-- C223: text that is not up to three numbers between colons is read as numpy reads what `as_isotime` makes of it, if that is
a time, and as numpy reads the text itself if not. -/
theorem C223_text (float : List Char → Option ℚ) (parse : List Char → Option U → Except Err Time) (s : List Char) (unit : Option U)
    (h : 3 < (fields (s.dropWhile (· = 'T'))).length ∨ ∃ f ∈ fields (s.dropWhile (· = 'T')), float f = none) :
    (∀ t, parse (isotime s) none = .ok t → ofText float parse s unit = parse (isotime s) unit) ∧
    (∀ e t, parse (isotime s) none = .error e → parse s none = .ok t → ofText float parse s unit = parse s unit) ∧
    (∀ e e', parse (isotime s) none = .error e → parse s none = .error e' → ofText float parse s unit = .error e') := by
  unfold ofText
  rw [validTd_false h]
  refine ⟨?_, ?_, ?_⟩
  · intro t ht
    simp only [ht]
  · intro e t he ht
    simp only [he, ht]
  · intro e e' he he'
    simp only [he, he']

/-- C223: text is taken for an instant exactly if it can be read as one -/
theorem C223_text_like (float : List Char → Option ℚ) (parse : List Char → Option U → Except Err Time) (fl : Val → Bool)
    (s : List Char) :
    isDt float parse fl false (.atom (.text s)) = .ok true ↔ ∃ t, ofText float parse s none = .ok t := by
  show validDt float parse s = _ ↔ _
  unfold validDt
  cases h : ofText float parse s none with
  | ok t => simp
  | error e => cases e <;> simp

/-- C223 fails: a date YYYY:MM:DD, which `as_isotime` makes YYYY-MM-DD, is read as so many hours, minutes and seconds after the
start of 1970. -/
theorem C223_date_violated (float : List Char → Option ℚ) (hfl : Reads float) (parse : List Char → Option U → Except Err Time)
    (y₁ y₂ y₃ y₄ m₁ m₂ d₁ d₂ : Char) (hd : ∀ c ∈ [y₁, y₂, y₃, y₄, m₁, m₂, d₁, d₂], c.isDigit = true) :
    isotime [y₁, y₂, y₃, y₄, ':', m₁, m₂, ':', d₁, d₂] = [y₁, y₂, y₃, y₄, '-', m₁, m₂, '-', d₁, d₂] ∧
    ofText float parse [y₁, y₂, y₃, y₄, ':', m₁, m₂, ':', d₁, d₂] none =
      .ok ⟨false, .s, some (3600 * value [y₁, y₂, y₃, y₄] + 60 * value [m₁, m₂] + value [d₁, d₂])⟩ := by
  have hy : ∀ c ∈ [y₁, y₂, y₃, y₄], c.isDigit = true := fun c hc => hd c (by simp at hc ⊢; tauto)
  have hm : ∀ c ∈ [m₁, m₂], c.isDigit = true := fun c hc => hd c (by simp at hc ⊢; tauto)
  have hdd : ∀ c ∈ [d₁, d₂], c.isDigit = true := fun c hc => hd c (by simp at hc ⊢; tauto)
  constructor
  · exact (C108_colons_partial [] (by simp) y₁ y₂ y₃ y₄ m₁ m₂ d₁ d₂ y₁ y₁ y₁ y₁ y₁ y₁ [] (by
      intro c hc; apply hd; simp at hc ⊢; tauto)).1
  · have := (C107_fields_partial float [y₁, y₂, y₃, y₄] [m₁, m₂] [d₁, d₂] _ _ _ (hfl _ (by simp) hy) (hfl _ (by simp) hm)
      (hfl _ (by simp) hdd) (digit_no hy).1 (digit_no hm).1 (digit_no hdd).1 (digit_no hy).2 (digit_no hm).2 (digit_no hdd).2
      (by simp) (by simp) [] (by simp)).1
    have l1 := value_lt _ hy
    have l2 := value_lt _ hm
    have l3 := value_lt _ hdd
    simp only [List.length_cons, List.length_nil] at l1 l2 l3
    have e := C106_integers (3600 * value [y₁, y₂, y₃, y₄] + 60 * value [m₁, m₂] + value [d₁, d₂]) .s (by decide)
      (by omega) (by omega)
    push_cast at e
    rw [e] at this
    exact ofText_td parse this

/-- C223 fails: a year is read as so many seconds after the start of 1970 -/
theorem C223_year_violated (float : List Char → Option ℚ) (hfl : Reads float) (parse : List Char → Option U → Except Err Time)
    (l : List Char) (hn : l ≠ []) (hl : l.length ≤ 18) (hd : ∀ c ∈ l, c.isDigit = true) :
    ofText float parse l none = .ok ⟨false, .s, some (value l)⟩ := by
  have := (C107_fields_partial float ['0'] ['0'] l _ _ _ (hfl ['0'] (by simp) (by simp)) (hfl ['0'] (by simp) (by simp))
      (hfl _ hn hd) (by decide) (by decide) (digit_no hd).1 (by decide) (by decide) (digit_no hd).2
      (by simp) (by simp) [] (by simp)).2.2 none
  have l1 := value_lt _ hd
  have l2 : (10 : Nat) ^ l.length ≤ 10 ^ 18 := Nat.pow_le_pow_right (by omega) hl
  have e := C106_integers (value l) .s (by decide) (by omega) (by omega)
  push_cast at e
  rw [e] at this
  exact ofText_td parse this

/-- C223: values that are not text are rounded as instants if they are of the types of instants, as durations if they are of
those of durations, and as numbers otherwise; and they are times, asked conservatively, in the first two cases only -/
theorem C223_seconds (float : List Char → Option ℚ) (parse : List Char → Option U → Except Err Time) (fl : Val → Bool) (a : Atom)
    (ha : ∀ s, a ≠ .text s) :
    (secondsAs float parse fl (.atom a) = .ok .date ↔ Instant a) ∧
    (secondsAs float parse fl (.atom a) = .ok .delta ↔ Duration a) ∧
    (secondsAs float parse fl (.atom a) = .ok .number ↔ ¬ Instant a ∧ ¬ Duration a) ∧
    (fl (.atom a) = false → (isTime float parse fl true (.atom a) = .ok true ↔ Instant a ∨ Duration a)) := by
  have hi : Instant a ↔ a = .dt64 ∨ a = .dt := ⟨fun h => by cases h <;> simp, by rintro (rfl | rfl) <;> constructor⟩
  have hd : Duration a ↔ a = .td64 ∨ a = .td := ⟨fun h => by cases h <;> simp, by rintro (rfl | rfl) <;> constructor⟩
  have h1 : isDt float parse fl false (.atom a) = .ok (a == .dt64 || a == .dt) := by
    cases a with
    | text s => exact absurd rfl (ha s)
    | _ => rfl
  have h2 : isTd float true (.atom a) = .ok (a == .td64 || a == .td) := by
    cases a with
    | text s => exact absurd rfl (ha s)
    | _ => rfl
  have h3 : fl (.atom a) = false → isDt float parse fl true (.atom a) = .ok (a == .dt64 || a == .dt) := by
    intro h
    rw [← h1]
    unfold isDt
    rw [h]
    rfl
  have b1 : (a == .dt64 || a == .dt) = true ↔ Instant a := by simp [hi]
  have b2 : (a == .td64 || a == .td) = true ↔ Duration a := by simp [hd]
  have hx : Instant a → ¬ Duration a := by
    rw [hi, hd]
    rintro (rfl | rfl) <;> simp
  revert h1 h2 h3 b1 b2
  generalize (a == Atom.dt64 || a == Atom.dt) = x
  generalize (a == Atom.td64 || a == Atom.td) = y
  intro h1 h2 h3 b1 b2
  unfold secondsAs isTime
  rw [h1, h2, ← b1, ← b2]
  rw [← b1, ← b2] at hx
  refine ⟨?_, ?_, ?_, fun h => ?_⟩
  · cases x <;> cases y <;> simp
  · cases x <;> cases y <;> simp at hx ⊢
  · cases x <;> cases y <;> simp at hx ⊢
  · rw [h3 h]
    cases x <;> cases y <;> simp

/-- C223: a value is a time exactly if it is an instant or a duration, unless the first question raises an error -/
theorem C223_time (float : List Char → Option ℚ) (parse : List Char → Option U → Except Err Time) (fl : Val → Bool)
    (cons : Bool) (v : Val) (he : ∀ e, isDt float parse fl cons v ≠ .error e) :
    isTime float parse fl cons v = .ok true ↔ isDt float parse fl cons v = .ok true ∨ isTd float cons v = .ok true := by
  unfold isTime
  cases h : isDt float parse fl cons v with
  | error e => exact absurd h (he e)
  | ok b => cases b <;> simp

/-- C223 fails: text that is a duration is never rounded as one, but as the instant so long after the start of 1970 -/
theorem C223_seconds_violated (float : List Char → Option ℚ) (parse : List Char → Option U → Except Err Time) (fl : Val → Bool)
    (s : List Char) (t : Time) (h : asTimedelta64 float (.inr s) none = .ok t) :
    isTd float false (.atom (.text s)) = .ok true ∧ isDt float parse fl false (.atom (.text s)) = .ok true ∧
    ofText float parse s none = .ok { t with delta := false } ∧
    secondsAs float parse fl (.atom (.text s)) = .ok .date := by
  have hs : ofString float s none = .ok t := h
  have ht := ofText_td parse hs
  have hd : isDt float parse fl false (.atom (.text s)) = .ok true := (C223_text_like float parse fl s).2 ⟨_, ht⟩
  refine ⟨?_, hd, ht, ?_⟩
  · show validTd float s = _
    unfold validTd
    simp only [hs]
  · unfold secondsAs
    simp only [hd]

/-- C223: asked to be conservative, text that is a number is not taken for a time -/
theorem C223_conservative (float : List Char → Option ℚ) (parse : List Char → Option U → Except Err Time) (fl : Val → Bool)
    (s : List Char) (x : ℚ) (h : float s = some x) (hf : fl (.atom (.text s)) = (float s).isSome) :
    isTime float parse fl true (.atom (.text s)) = .ok false := by
  have h1 : isDt float parse fl true (.atom (.text s)) = .ok false := by
    unfold isDt
    rw [hf, h]
    rfl
  have h2 : isTd float true (.atom (.text s)) = .ok false := by
    unfold isTd
    simp [h]
  unfold isTime
  simp only [h1, h2]

/-- C223: `as_datetime` reads text as `as_datetime64` does: its second attempt, as a duration, fails whenever the first does -/
theorem C223_datetime (float : List Char → Option ℚ) (parse : List Char → Option U → Except Err Time) (s : List Char)
    (unit : Option U) : asDatetime float parse s unit = ofText float parse s unit := by
  unfold asDatetime
  cases ho : ofText float parse s unit with
  | ok t => rfl
  | error e =>
    cases e with
    | value =>
      have : ofString float s unit = .error .value := by
        unfold ofText at ho
        cases hv : validTd float s with
        | error e =>
          rw [hv] at ho
          unfold validTd at hv
          cases hs : ofString float s none with
          | ok t => simp [hs] at hv
          | error e' => 
            rw [hs] at hv
            cases e' <;> simp_all
        | ok b =>
          cases b with
          | true =>
            rw [hv] at ho
            cases hs : ofString float s unit with
            | ok t => simp [hs] at ho
            | error e => simpa [hs] using ho
          | false =>
            have hn : ofString float s none = .error .value := by
              unfold validTd at hv
              cases hs : ofString float s none with
              | ok t => simp [hs] at hv
              | error e' => rw [hs] at hv; cases e' <;> simp_all
            unfold ofString at hn ⊢
            cases hf : floats float (splitColon (s.dropWhile (· = 'T'))) with
            | none => rfl
            | some time =>
              simp only [hf] at hn ⊢
              rw [if_neg (by simp)] at hn
              split
              · rfl
              · exact hn
      simp only [this]
    | _ => rfl

/-- two numbers and `float` of them -/
def TL.exFloat (l : List Char) : Option ℚ :=
  if l ≠ [] ∧ ∀ c ∈ l, c.isDigit = true then some (value l : ℚ) else none

example : Reads TL.exFloat := fun _ h1 h2 => if_pos ⟨h1, h2⟩

example : let parse : List Char → Option U → Except Err Time := fun _ _ => .error .value
    ofText TL.exFloat parse "1967:01:02".toList none = .ok ⟨false, .s, some 7081262⟩ ∧
    ofText TL.exFloat parse "2000".toList none = .ok ⟨false, .s, some 2000⟩ ∧
    asTimedelta64 TL.exFloat (.inr "12:30".toList) none = .ok ⟨true, .s, some 750⟩ ∧
    (∃ f ∈ fields ("2010-06-21T12:05".toList.dropWhile (· = 'T')), TL.exFloat f = none) ∧
    3 < (fields ("2010:06:21:12".toList.dropWhile (· = 'T'))).length := by
  refine ⟨?_, ?_, ?_, ?_, ?_⟩ <;> decide +kernel

end Viscid.Props
