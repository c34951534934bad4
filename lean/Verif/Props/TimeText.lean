import Verif.Lemmas.TimeText
/-!
# C108 to C111: times as text, and evenly spaced times
-/
namespace Viscid.Props
open Viscid.TimeText Viscid.Spec.TimeText
open Viscid.TimeDelta (splitColon nint splitColon_no splitColon_app nint_near nint_int)

/-- C108: the formats `as_isotime` knows, with colons everywhere and possibly after "UT", become ISO 8601 with the same digits:
YYYY:MM:DD, YYYY:MM:DD:hh, YYYY:MM:DD:hh:mm, YYYY:MM:DD:hh:mm:ss, the latter with a fraction, or with seconds of one
digit. -/
theorem C108_colons_partial (pre : List Char) (hpre : ∀ c ∈ pre, c = 'U' ∨ c = 'u' ∨ c = 'T' ∨ c = 't')
    (y₁ y₂ y₃ y₄ m₁ m₂ d₁ d₂ h₁ h₂ n₁ n₂ s₁ s₂ : Char) (f : List Char)
    (hd : ∀ c ∈ [y₁, y₂, y₃, y₄, m₁, m₂, d₁, d₂, h₁, h₂, n₁, n₂, s₁, s₂] ++ f, c.isDigit = true) :
    isotime (pre ++ [y₁, y₂, y₃, y₄, ':', m₁, m₂, ':', d₁, d₂]) = [y₁, y₂, y₃, y₄, '-', m₁, m₂, '-', d₁, d₂] ∧
    isotime (pre ++ [y₁, y₂, y₃, y₄, ':', m₁, m₂, ':', d₁, d₂, ':', h₁, h₂]) =
      [y₁, y₂, y₃, y₄, '-', m₁, m₂, '-', d₁, d₂, 'T', h₁, h₂] ∧
    isotime (pre ++ [y₁, y₂, y₃, y₄, ':', m₁, m₂, ':', d₁, d₂, ':', h₁, h₂, ':', n₁, n₂]) =
      [y₁, y₂, y₃, y₄, '-', m₁, m₂, '-', d₁, d₂, 'T', h₁, h₂, ':', n₁, n₂] ∧
    isotime (pre ++ [y₁, y₂, y₃, y₄, ':', m₁, m₂, ':', d₁, d₂, ':', h₁, h₂, ':', n₁, n₂, ':', s₁, s₂]) =
      [y₁, y₂, y₃, y₄, '-', m₁, m₂, '-', d₁, d₂, 'T', h₁, h₂, ':', n₁, n₂, ':', s₁, s₂] ∧
    isotime (pre ++ ([y₁, y₂, y₃, y₄, ':', m₁, m₂, ':', d₁, d₂, ':', h₁, h₂, ':', n₁, n₂, ':', s₁, s₂, '.'] ++ f)) =
      [y₁, y₂, y₃, y₄, '-', m₁, m₂, '-', d₁, d₂, 'T', h₁, h₂, ':', n₁, n₂, ':', s₁, s₂, '.'] ++ f ∧
    isotime (pre ++ ([y₁, y₂, y₃, y₄, ':', m₁, m₂, ':', d₁, d₂, ':', h₁, h₂, ':', n₁, n₂, ':', s₂, '.'] ++ f)) =
      [y₁, y₂, y₃, y₄, '-', m₁, m₂, '-', d₁, d₂, 'T', h₁, h₂, ':', n₁, n₂, ':', '0', s₂, '.'] ++ f := by
  have hf : ∀ c ∈ f, c.isDigit = true := fun c hc => hd c (by simp [hc])
  simp only [List.cons_append, List.nil_append, List.mem_cons, forall_eq_or_imp] at hd
  obtain ⟨y1, y2, y3, y4, m1, m2, d1, d2, h1, h2, n1, n2, s1, s2, -⟩ := hd
  have hfc : ':' ∉ f := fun h => (digit_facts (hf _ h)).1 rfl
  have hfm : f.map (fun c => if c = '.' then ':' else c) = f := by
    rw [List.map_congr_left fun c hc => if_neg (digit_facts (hf c hc)).2.1, List.map_id']
  have hfs := splitColon_no f hfc
  have hall : f.all (·.isDigit) = true := by simpa using hf
  have hdig : ∀ {c : Char}, c.isDigit = true → (c = ':') = False ∧ (c = '.') = False := fun h =>
    ⟨eq_false (digit_facts h).1, eq_false (digit_facts h).2.1⟩
  have nodot : ('.'.isDigit) = false := by decide
  have cd : ((':' : Char) = '.') = False := by decide
  have dc : (('.' : Char) = ':') = False := by decide
  have hT : ∀ c ∈ f, Timely c := fun c hc => Or.inl (hf c hc)
  have hTc : Timely ':' := Or.inr (Or.inl rfl)
  have hTd : Timely '.' := Or.inr (Or.inr rfl)
  have tm : ∀ {c : Char}, c.isDigit = true → Timely c := fun h => Or.inl h
  unfold isotime
  refine ⟨?_, ?_, ?_, ?_, ?_, ?_⟩
  all_goals
    rw [normal_body pre _ hpre (by
      simp only [List.cons_append, List.nil_append, List.mem_cons, List.not_mem_nil, or_false, forall_eq_or_imp, forall_eq]
      simp only [tm y1, tm y2, tm y3, tm y4, tm m1, tm m2, tm d1, tm d2, tm h1, tm h2, tm n1, tm n2, tm s1, tm s2, hTc, hTd, true_and,
        and_true]
      try exact hT)]
  all_goals
    simp [reformat, isLong, isDate, digits, lastField, splitColon, (hdig y1).1, (hdig y2).1, (hdig y3).1, (hdig y4).1, (hdig m1).1,
      (hdig m2).1, (hdig d1).1, (hdig d2).1, (hdig h1).1, (hdig h2).1, (hdig n1).1, (hdig n2).1, (hdig s1).1, (hdig s2).1,
      (hdig y1).2, (hdig y2).2, (hdig y3).2, (hdig y4).2, (hdig m1).2,
      (hdig m2).2, (hdig d1).2, (hdig d2).2, (hdig h1).2, (hdig h2).2, (hdig n1).2, (hdig n2).2, (hdig s1).2, (hdig s2).2,
      y1, y2, y3, y4, m1, m2, d1, d2, h1, h2, n1, n2, s1, s2, hfs, hfm, hall, nodot, cd, dc, zfill, joinColon, hf]

/-- C108 fails: half past twelve, "2010:06:21:12.5", becomes five past -/
theorem C108_fraction_violated : isotime "2010:06:21:12.5".toList = "2010-06-21T12:05".toList := by decide +kernel

/-- C108 fails: a list of strings is converted, an array of strings is not -/
theorem C108_array_violated (valid : List Char → Bool) (ts : List (List Char)) (h : ∀ t ∈ ts, valid (isotime t) = true) :
    asIsotime valid false ts = .ok (ts.map isotime) ∧ asIsotime valid true ts = .ok ts := by
  have : (ts.map isotime).all valid = true := by simpa using h
  simp [asIsotime, this]

example : isotime "UT 2010".toList = " 2010".toList ∧ isotime "ut2010:06:21:1:5".toList ≠ "2010-06-21T01:05".toList ∧
    isotime "ut1967:01:01:00:00:00.5".toList = "1967-01-01T00:00:00.5".toList ∧
    isotime "2010-06-21T12:30".toList = "2010-06-21T12:30".toList := by decide +kernel

/-- C109: on the first day, format 'hms' is the time since midnight -/
theorem C109_first_day_partial (base us : Int) (h0 : 0 ≤ us) (h1 : us < 86400000000) :
    ∃ h m s : Nat, m < 60 ∧ s < 60 ∧ (3600 * h + 60 * m + s : Int) = us / 1000000 ∧
      formatHms false false base us = hms h m s := by
  refine ⟨(us / 1000000 % 86400).toNat / 3600, (us / 1000000 % 86400).toNat / 60 % 60, (us / 1000000 % 86400).toNat % 60,
    by omega, by omega, by omega, ?_⟩
  unfold formatHms clock hms
  simp only
  rw [two_pad _ (by omega), two_pad _ (by omega), two_pad _ (by omega)]
  simp

/-- C109: from 1970 on, except on the second day, 'dhms' is the number of whole days and the time of the day -/
theorem C109_days_partial (base us : Int) (h0 : 0 ≤ us) (h1 : us / 86400000000 ≠ 1) :
    ∃ d h m s : Nat, h < 24 ∧ m < 60 ∧ s < 60 ∧ (86400 * d + 3600 * h + 60 * m + s : Int) = us / 1000000 ∧
      formatHms true false base us = (toString d).toList ++ " days ".toList ++ hms h m s := by
  refine ⟨(us / 86400000000).toNat, (us / 1000000 % 86400).toNat / 3600, (us / 1000000 % 86400).toNat / 60 % 60,
    (us / 1000000 % 86400).toNat % 60, by omega, by omega, by omega, by omega, ?_⟩
  unfold formatHms clock hms dayText
  simp only
  rw [two_pad _ (by omega), two_pad _ (by omega), two_pad _ (by omega)]
  have e : us.tdiv 86400000000 = us / 86400000000 := Int.tdiv_eq_ediv_of_nonneg h0
  have e2 : toString (us / 86400000000) = toString (us / 86400000000).toNat := by
    have : us / 86400000000 = ((us / 86400000000).toNat : Int) := by omega
    rw [this]
    rfl
  simp only [e, if_neg h1, e2]
  simp

/-- C109, formats 'hmss' and 'dhmss': they add the seconds since the base time in at least six digits -/
theorem C109_seconds (d : Bool) (base us : Int) (h : base ≤ us) (h6 : us - base < 1000000000000) :
    ∃ l, formatHms d true base us = formatHms d false base us ++ " (".toList ++ l ++ [')'] ∧ 6 ≤ l.length ∧
      ∃ z, l = List.replicate z '0' ++ (toString ((us - base) / 1000000).toNat).toList := by
  have e : (us - base).tdiv 1000000 = (us - base) / 1000000 := Int.tdiv_eq_ediv_of_nonneg (by omega)
  have e2 : ((us - base) / 1000000).natAbs = ((us - base) / 1000000).toNat := by omega
  refine ⟨six ((us - base).tdiv 1000000), by simp [formatHms], ?_, ?_⟩
  · rw [e, six, if_neg (by omega), zfill, List.length_append, List.length_replicate]
    omega
  · rw [e, six, if_neg (by omega), e2, zfill]
    exact ⟨_, rfl⟩

/-- C109, formats 'hmss' and 'dhmss' before the base time: the seconds, rounded toward it, have a sign and at least five digits -/
theorem C109_before (d : Bool) (base us : Int) (h : us ≤ base - 1000000) :
    ∃ l, formatHms d true base us = formatHms d false base us ++ " (".toList ++ '-' :: l ++ [')'] ∧ 5 ≤ l.length ∧
      ∃ z, l = List.replicate z '0' ++ (toString ((base - us) / 1000000).toNat).toList := by
  have e : (us - base).tdiv 1000000 = -((base - us) / 1000000) := by
    rw [show us - base = -(base - us) by omega, Int.neg_tdiv, Int.tdiv_eq_ediv_of_nonneg (by omega)]
  have e2 : (-((base - us) / 1000000)).natAbs = ((base - us) / 1000000).toNat := by omega
  refine ⟨zfill 5 (toString ((us - base).tdiv 1000000).natAbs).toList, ?_, ?_, ?_⟩
  · have hs : six ((us - base).tdiv 1000000) = '-' :: zfill 5 (toString ((us - base).tdiv 1000000).natAbs).toList := by
      unfold six; rw [if_pos (by omega)]
    simp only [formatHms, if_true, hs]
    simp
  · rw [zfill, List.length_append, List.length_replicate]; omega
  · rw [e, e2, zfill]; exact ⟨_, rfl⟩

/-- C109 fails: the documentation's "25:00:15" for 90015 s is "01:00:15"; on the second day 'dhms' misses a blank;
one second before 1970 is day 0. -/
theorem C109_violated :
    formatHms false false 0 90015000000 = "01:00:15".toList ∧
    formatHms true false 0 90015000000 = "1 day01:00:15".toList ∧
    formatHms true false 0 (-1000000) = "0 days 23:59:59".toList := by
  decide +kernel

example : formatHms true true 0 900000000 = "0 days 00:15:00 (000900)".toList ∧
    formatHms false true 0 900000000 = "00:15:00 (000900)".toList := by decide +kernel

/-- the texts before fractions are without six digits in a row, and do not end in a digit -/
def Safe : List Piece → Prop
  | [] => True
  | .text s :: ps => ((∀ n, Piece.frac n ∉ ps) ∨ Plain s) ∧ Safe ps
  | .frac _ :: ps => Safe ps

/-- C110: in such a format, fractions of a second are given to the digits asked for, correctly rounded, as long as they do
not round up to a whole second. -/
theorem C110_digits_partial (rnd : Nat → Nat → Nat) (hr : Rounds rnd) (us : Nat) (hus : us < 10 ^ 6) (fmt : List Piece)
    (hs : Safe fmt) (hup : ∀ n, Piece.frac n ∈ fmt → 2 * (us * 10 ^ n.getD 6) + 10 ^ 6 < 2 * (10 ^ 6 * 10 ^ n.getD 6)) :
    Filled us fmt (formatFrac rnd fmt us) := by
  unfold formatFrac
  induction fmt with
  | nil => rw [precisions, strftime, rewrite_nil]; exact .nil
  | cons p ps ih =>
    cases p with
    | text s =>
      obtain ⟨h1, h2⟩ := hs
      have ih := ih h2 fun n hn => hup n (by simp [hn])
      have : rewrite rnd (precisions ps) (s ++ strftime us ps) = s ++ rewrite rnd (precisions ps) (strftime us ps) := by
        rcases h1 with h1 | h1
        · have : precisions ps = [] := by
            clear * - h1
            induction ps with
            | nil => rfl
            | cons p ps ih =>
              cases p with
              | text s => exact ih fun n hn => h1 n (by simp [hn])
              | frac n => exact absurd (by simp) (h1 n)
          rw [this, rewrite_nil, rewrite_nil]
        · exact rewrite_plain rnd _ _ s h1
      rw [precisions, strftime, this]
      exact .text ih
    | frac n =>
      have ih := ih hs fun n hn => hup n (by simp [hn])
      rw [precisions, strftime, rewrite_frac rnd n _ us hus]
      have hlt : rnd (n.getD 6) us < 10 ^ n.getD 6 := by
        have h1 := (hr (n.getD 6) us).1
        have h2 := hup n (by simp)
        by_contra hc
        have : 10 ^ n.getD 6 * 10 ^ 6 ≤ rnd (n.getD 6) us * 10 ^ 6 := Nat.mul_le_mul_right _ (by omega)
        rw [Nat.mul_comm (10 ^ 6)] at h2
        omega
      have hv : value (fraction rnd (n.getD 6) us) = rnd (n.getD 6) us := by
        rw [← number_eq_value, fraction, number_decimal, Nat.mod_mod, Nat.mod_eq_of_lt hlt]
      refine .frac (decimal_length _ _) (decimal_digits _ _) ?_ ?_ ih
      · rw [hv]; exact (hr _ _).1
      · rw [hv]; exact (hr _ _).2

/-- rounding half up -/
def exRnd (n us : Nat) : Nat := (2 * (us * 10 ^ n) + 10 ^ 6) / (2 * 10 ^ 6)

example : Rounds exRnd := by
  intro n us
  unfold exRnd
  omega

example : formatFrac exRnd [.text "2010-06-21 12:30:59.".toList, .frac (some 2)] 954999 =
    "2010-06-21 12:30:59.95".toList := by decide +kernel

example : Plain "12:30:59.".toList := by
  refine ⟨fun a b c h hl => ?_, by decide⟩
  by_contra hc
  have hb : ∀ x ∈ b, x.isDigit = true := by
    intro x hx
    by_contra hn
    exact hc ⟨x, hx, by simpa using hn⟩
  have hlen := congrArg List.length h
  simp only [List.length_append, hl] at hlen
  have h9 : "12:30:59.".toList.length = 9 := by decide
  have ha : a.length ≤ 3 := by omega
  have hbm : b = ("12:30:59.".toList.drop a.length).take 6 := by
    rw [h, List.append_assoc, List.drop_left, ← hl, List.take_left]
  have : a.length = 0 ∨ a.length = 1 ∨ a.length = 2 ∨ a.length = 3 := by omega
  have hcol : ':' ∈ b := by
    rw [hbm]
    rcases this with h | h | h | h <;> rw [h] <;> decide
  exact absurd (hb _ hcol) (by decide)

/-- C110 fails: 59.96 s with one digit is written "59.0", however the rounding is done; and a date without separators is
taken for a fraction: 2010-06-21, half a second past, with format "%Y%m%d.%1f" is written "221.500000". -/
theorem C110_violated (rnd : Nat → Nat → Nat) (hr : Rounds rnd) :
    formatFrac rnd [.text "59.".toList, .frac (some 1)] 960000 = "59.0".toList ∧
    formatFrac rnd [.text "20100621.".toList, .frac (some 1)] 500000 = "221.500000".toList := by
  have h1 : rnd 1 960000 = 10 := by
    have := hr 1 960000
    omega
  have h2 : rnd 1 201006 = 2 := by
    have := hr 1 201006
    omega
  constructor
  · have e : strftime 960000 [.text "59.".toList, .frac (some 1)] = '5' :: '9' :: '.' :: (decimal 960000 6 ++ []) := by
      simp [strftime]
    have d1 : ∀ rest, digits 6 (List.take 6 ('5' :: '9' :: '.' :: rest)) = false := by intro r; simp [digits]
    have d2 : ∀ rest, digits 6 (List.take 6 ('9' :: '.' :: rest)) = false := by intro r; simp [digits]
    have d3 : ∀ rest, digits 6 (List.take 6 ('.' :: rest)) = false := by intro r; simp [digits]
    unfold formatFrac
    rw [e]
    simp only [precisions]
    rw [rewrite, d1, if_neg (by simp), rewrite, d2, if_neg (by simp), rewrite, d3, if_neg (by simp),
      rewrite_frac rnd _ _ _ (by norm_num), rewrite_nil]
    simp only [Option.getD_some, fraction, h1]
    decide +kernel
  · have e : strftime 500000 [.text "20100621.".toList, .frac (some 1)] =
        '2' :: ['0', '1', '0', '0', '6', '2', '1', '.', '5', '0', '0', '0', '0', '0'] := by decide +kernel
    unfold formatFrac
    rw [e]
    simp only [precisions]
    rw [rewrite, if_pos (by decide), rewrite_nil]
    have e3 : number (List.take 6 ('2' :: ['0', '1', '0', '0', '6', '2', '1', '.', '5', '0', '0', '0', '0', '0'])) = 201006 := by
      decide +kernel
    rw [e3]
    simp only [Option.getD_some, fraction, h2]
    decide +kernel

/-! ### linspace_datetime64 -/

/-- C111: as long as the times are less than 2^53 units from 1970, `linspace_datetime64` gives `n` times, each the nearest to
its place on the line from `start` to `stop`; with `endpoint` the first and the last of them are `start` and `stop`. -/
theorem C111_spaced_partial (start stop : Int) (n : Nat) (endpoint : Bool) (h1 : start.natAbs < 2 ^ 53)
    (h2 : stop.natAbs < 2 ^ 53) :
    (linspaceInt start stop n endpoint).length = n ∧
    (∀ (i : Nat) (x : Int), (linspaceInt start stop n endpoint)[i]? = some x →
      |(x : ℚ) - (start + i * ((stop - start) / (if endpoint then n - 1 else n : Nat)))| ≤ 1 / 2) ∧
    (0 < n → (linspaceInt start stop n endpoint)[0]? = some start) ∧
    (endpoint = true → 1 < n → (linspaceInt start stop n endpoint)[n - 1]? = some stop) := by
  have f8_id : ∀ z : Int, z.natAbs < 2 ^ 53 → f8 z = z := by
    intro z hz
    have hk : z.natAbs.log2 + 1 - 53 = 0 := by
      by_cases h0 : z.natAbs = 0
      · rw [h0]; decide
      · have := (Nat.log2_lt h0).mpr hz
        omega
    unfold f8
    rw [hk]
    simp [nint_int]
  unfold linspaceInt
  rw [f8_id start h1, f8_id stop h2]
  simp only
  refine ⟨by simp, ?_, ?_, ?_⟩
  · intro i x hx
    rw [List.getElem?_map] at hx
    simp only [Option.map_eq_some_iff, List.getElem?_range] at hx
    obtain ⟨j, hj, hx⟩ := hx
    have hi : i < n ∧ j = i := by
      have := List.getElem?_eq_some_iff.mp hj
      obtain ⟨h, e⟩ := this
      simp at h e
      exact ⟨h, e.symm⟩
    obtain ⟨hi, rfl⟩ := hi
    split at hx
    · rename_i hc
      subst hx
      have hn : ((n - 1 : Nat) : ℚ) = j := by
        have : n - 1 = j := by omega
        rw [this]
      have hj0 : (j : ℚ) ≠ 0 := by exact_mod_cast (by omega : j ≠ 0)
      rw [hc.1, if_pos rfl, hn, mul_div_cancel₀ _ hj0]
      norm_num
    · subst hx
      rw [abs_sub_comm]
      exact nint_near _
  · intro h0
    rw [List.getElem?_map]
    have : (List.range n)[0]? = some 0 := by simp [h0]
    rw [this]
    simp only [Option.map_some]
    rw [if_neg (by omega)]
    simp [nint_int]
  · intro he hn
    rw [List.getElem?_map]
    have : (List.range n)[n - 1]? = some (n - 1) := by
      rw [List.getElem?_eq_getElem (by simp; omega)]
      simp
    rw [this]
    simp only [Option.map_some]
    rw [if_pos ⟨he, by omega, by omega⟩]

/-- C111 fails for dates: in ns, which is what the code turns them into, they are beyond 2^53, so neither end is exact -/
theorem C111_ends_violated :
    linspaceInt 1277078400000000001 1277078400000001001 3 true = [1277078400000000000, 1277078400000000512, 1277078400000001024] := by
  decide +kernel

example : linspaceInt 0 10 5 true = [0, 2, 5, 8, 10] ∧ linspaceInt 0 10 5 false = [0, 2, 4, 6, 8] ∧
    linspaceInt 3 10 1 true = [3] := by decide +kernel

end Viscid.Props
