import Verif.Lemmas.TimeDelta
/-!
# C106 and C107: times from numbers and strings
-/
namespace Viscid.Props
open Viscid.NpTime (U Time Err units)
open Viscid.TimeDelta Viscid.Spec.TimeDelta

/-- C106: what `as_timedelta64` does with a number `t` of units up to hours. The result is the nearest integer in the coarsest
unit, not coarser than the one given, in which `t` is within 0.01 % of its nearest integer; so the result is only within
0.01 % of `t`. ValueError means there is no such unit, OverflowError that the integer does not fit into 64 bits. -/
theorem C106_close_partial (t : ℚ) (unit : U) (hu : unit.idx ≤ 8) :
    (∀ r, ofNumber t unit = .ok r → ∃ n : Int, r.delta = true ∧ r.val = some n ∧ r.unit.idx ≤ unit.idx ∧
      Nearest (atto t unit) n r.unit ∧ Close (atto t unit) n r.unit ∧
      ∀ x : U, r.unit.idx < x.idx → x.idx ≤ unit.idx → ∃ m, Nearest (atto t unit) m x ∧ ¬ Close (atto t unit) m x) ∧
    (ofNumber t unit = .error .value →
      ∀ x : U, x.idx ≤ unit.idx → ∃ m, Nearest (atto t unit) m x ∧ ¬ Close (atto t unit) m x) ∧
    (ofNumber t unit = .error .overflow →
      ∃ (n : Int) (u : U), u.idx ≤ unit.idx ∧ Nearest (atto t unit) n u ∧ (n ≤ -2 ^ 63 ∨ 2 ^ 63 ≤ n)) := by
  obtain ⟨hmem, hidx, hget⟩ := timeUnits_idx hu
  obtain ⟨hs1, hs2⟩ := settle_spec unit.idx t (by omega)
  rw [hget] at hs1 hs2
  unfold ofNumber
  rw [if_neg (by simpa using hmem), hidx]
  cases h : settle unit.idx t with
  | error e =>
    obtain ⟨he, hall⟩ := hs2 e h
    subst he
    refine ⟨by simp, fun _ x hx => ?_, by simp⟩
    have := hall x.idx hx
    rwa [(timeUnits_idx (u := x) (by omega)).2.2] at this
  | ok p =>
    obtain ⟨n, j⟩ := p
    obtain ⟨hj, hnear, hclose, hall⟩ := hs1 n j h
    have hji := getD_idx (i := j) (by omega)
    simp only
    split
    · refine ⟨?_, by simp, by simp⟩
      intro r hr
      injection hr with hr
      subst hr
      refine ⟨n, rfl, rfl, by simp only; omega, hnear, hclose, fun x hx1 hx2 => ?_⟩
      have := hall x.idx (by simp only at hx1; omega) hx2
      rwa [(timeUnits_idx (u := x) (by omega)).2.2] at this
    · refine ⟨by simp, by simp, fun _ => ⟨n, _, by omega, hnear, by omega⟩⟩

/-- C106 for integers: they keep their value and unit -/
theorem C106_integers (n : Int) (unit : U) (hu : unit.idx ≤ 8) (h1 : -2 ^ 63 < n) (h2 : n < 2 ^ 63) :
    ofNumber (n : ℚ) unit = .ok ⟨true, unit, some n⟩ := by
  obtain ⟨hmem, hidx, hget⟩ := timeUnits_idx hu
  have hc : isclose (n : ℚ) (nint (n : ℚ)) = true := by
    rw [nint_int]
    unfold isclose
    simp only [sub_self, abs_zero, decide_eq_true_eq]
    positivity
  have hs : ∀ i, settle i (n : ℚ) = .ok (n, i) := by
    intro i
    cases i with
    | zero => rw [settle, if_pos hc, nint_int]
    | succ i => rw [settle, if_pos hc, nint_int]
  unfold ofNumber
  rw [if_neg (by simpa using hmem), hidx, hs]
  simp only
  rw [if_pos ⟨h1, h2⟩, hget]

/-- C106 fails: 7200.25 s become 7200 s, and 100.009 s become 100 s -/
theorem C106_fraction_violated :
    ofNumber (7200 + 1 / 4) .s = .ok ⟨true, .s, some 7200⟩ ∧ ofNumber (100 + 9 / 1000) .s = .ok ⟨true, .s, some 100⟩ := by
  decide +kernel

/-- ... so times of more than 5000 s lose their fraction, whatever it is -/
theorem C106_long_violated (t : ℚ) (h1 : 5000 ≤ t) (h2 : t < 2 ^ 62) :
    ∃ n : Int, ofNumber t .s = .ok ⟨true, .s, some n⟩ ∧ |t - n| ≤ 1 / 2 := by
  have hn := nint_near t
  have hn' := abs_le.mp hn
  have hc : isclose t (nint t) = true := by
    unfold isclose
    have hlow : (4999 : ℚ) < nint t := by linarith
    have hlow2 : (5000 : ℚ) ≤ nint t := by
      have : (4999 : Int) < nint t := by exact_mod_cast hlow
      exact_mod_cast this
    rw [decide_eq_true_iff, abs_of_pos (by linarith : (0 : ℚ) < nint t)]
    linarith
  have hb1 : -2 ^ 63 < nint t := by
    have : (-2 ^ 63 : ℚ) < nint t := by linarith
    exact_mod_cast this
  have hb2 : nint t < 2 ^ 63 := by
    have : (nint t : ℚ) < 2 ^ 63 := by linarith
    exact_mod_cast this
  refine ⟨nint t, ?_, hn⟩
  have hs : settle 6 t = .ok (nint t, 6) := by rw [settle, if_pos hc]
  have : timeUnits.idxOf U.s = 6 := by decide
  unfold ofNumber
  rw [if_neg (by decide), this, hs]
  simp only
  rw [if_pos ⟨hb1, hb2⟩]
  rfl

/-- ... and rounding a time to seconds with two decimals gives whole seconds: 12345670 ms -/
theorem C106_decimals_violated : timedeltaAsSeconds 12345670 .ms 2 = .ok ⟨true, .s, some 12346⟩ := by
  decide +kernel

/-- ... and days are refused, although numpy knows them -/
theorem C106_days_violated (t : ℚ) (unit : U) (hu : 8 < unit.idx) : ofNumber t unit = .error .value := by
  unfold ofNumber
  rw [if_pos (by simpa using not_mem_timeUnits hu)]

example : ofNumber (3 / 10) .s = .ok ⟨true, .ms, some 300⟩ ∧ ofNumber (1 / 3) .s = .ok ⟨true, .us, some 333333⟩ ∧
    ofNumber (15 / 10000000000000000000) .s = .error .value ∧ ofNumber (5 / 2) .h = .ok ⟨true, .m, some 150⟩ := by
  decide +kernel

/-- C107: "h:m:s", "m:s" and "s", possibly after a "T", mean 3600 h + 60 m + s seconds. For every `float`. -/
theorem C107_fields_partial (float : List Char → Option ℚ) (fh fm fs : List Char) (h m s : ℚ)
    (hh : float fh = some h) (hm : float fm = some m) (hs : float fs = some s)
    (ch : ':' ∉ fh) (cm : ':' ∉ fm) (cs : ':' ∉ fs)
    (th : fh.head? ≠ some 'T') (tm : fm.head? ≠ some 'T') (ts : fs.head? ≠ some 'T')
    (nh : fh ≠ []) (nm : fm ≠ []) (T : List Char) (hT : ∀ c ∈ T, c = 'T') :
    asTimedelta64 float (.inr (T ++ fh ++ ':' :: fm ++ ':' :: fs)) none = ofNumber (3600 * h + 60 * m + s) .s ∧
    asTimedelta64 float (.inr (T ++ fm ++ ':' :: fs)) none = ofNumber (60 * m + s) .s ∧
    ∀ unit, asTimedelta64 float (.inr (T ++ fs)) unit = ofNumber s .s := by
  have strip : ∀ l : List Char, l.head? ≠ some 'T' → (T ++ l).dropWhile (· = 'T') = l := by
    intro l hl
    rw [List.dropWhile_append_of_pos (by simpa using hT)]
    cases l with
    | nil => rfl
    | cons c l =>
      rw [List.dropWhile_cons_of_neg]
      simpa using hl
  refine ⟨?_, ?_, ?_⟩
  · have e : T ++ fh ++ ':' :: fm ++ ':' :: fs = T ++ (fh ++ ':' :: (fm ++ ':' :: fs)) := by simp
    rw [e]
    show ofString _ _ _ = _
    unfold ofString
    rw [strip _ (by cases fh with | nil => exact absurd rfl nh | cons c l => simpa using th),
      splitColon_app _ _ ch, splitColon_app _ _ cm, splitColon_no _ cs]
    simp only [floats, hh, hm, hs]
    rw [if_neg (by simp), if_neg (by simp)]
    congr 1
    simp
    ring
  · have e : T ++ fm ++ ':' :: fs = T ++ (fm ++ ':' :: fs) := by simp
    rw [e]
    show ofString _ _ _ = _
    unfold ofString
    rw [strip _ (by cases fm with | nil => exact absurd rfl nm | cons c l => simpa using tm),
      splitColon_app _ _ cm, splitColon_no _ cs]
    simp only [floats, hm, hs]
    rw [if_neg (by simp), if_neg (by simp)]
    congr 1
    simp
    ring
  · intro unit
    show ofString _ _ _ = _
    unfold ofString
    rw [strip _ ts, splitColon_no _ cs]
    simp only [floats, hs]
    rw [if_neg (by simp), if_neg (by simp)]
    congr 1
    simp

/-- C107: more than three fields, or fields that are not numbers, are refused -/
theorem C107_refused (float : List Char → Option ℚ) (s : List Char) (unit : Option U)
    (h : 3 < (splitColon (s.dropWhile (· = 'T'))).length ∨ ∃ f ∈ splitColon (s.dropWhile (· = 'T')), float f = none) :
    asTimedelta64 float (.inr s) unit = .error .value := by
  have hf : ∀ l : List (List Char), (∃ f ∈ l, float f = none) → floats float l = none := by
    intro l
    induction l with
    | nil => simp
    | cons a l ih =>
      rintro ⟨f, hfm, hfn⟩
      rcases List.mem_cons.mp hfm with rfl | hfm
      · simp [floats, hfn]
      · rw [floats, ih ⟨f, hfm, hfn⟩]
        cases float a <;> rfl
  have hl : ∀ (l : List (List Char)) (xs : List ℚ), floats float l = some xs → xs.length = l.length := by
    intro l
    induction l with
    | nil => intro xs h; simp [floats] at h; subst h; rfl
    | cons a l ih =>
      intro xs h
      rw [floats] at h
      cases h1 : float a with
      | none => rw [h1] at h; cases h
      | some x =>
        cases h2 : floats float l with
        | none => rw [h1, h2] at h; cases h
        | some ys =>
          rw [h1, h2] at h
          injection h with h
          subst h
          simp [ih ys h2]
  show ofString _ _ _ = _
  unfold ofString
  cases hx : floats float (splitColon (s.dropWhile (· = 'T'))) with
  | none => rfl
  | some xs =>
    rcases h with h | h
    · have := hl _ _ hx
      simp only
      split
      · rfl
      · rw [if_pos (by omega)]
    · rw [hf _ h] at hx
      cases hx

/-- `float` of a few strings -/
def exFloat : List Char → Option ℚ
  | ['-', '1'] => some (-1)
  | ['1'] => some 1
  | ['3', '0'] => some 30
  | ['2', '.', '5'] => some (5 / 2)
  | _ => none

/-- C107 fails: "-1:30" is -30 s (the minus sign is the minutes' only), and `as_timedelta64("30", "m")` is 30 s although
`as_timedelta64(30, "m")` is 30 min. -/
theorem C107_sign_and_unit_violated :
    asTimedelta64 exFloat (.inr "-1:30".toList) none = .ok ⟨true, .s, some (-30)⟩ ∧
    asTimedelta64 exFloat (.inr "30".toList) (some .m) = .ok ⟨true, .s, some 30⟩ ∧
    asTimedelta64 exFloat (.inl 30) (some .m) = .ok ⟨true, .m, some 30⟩ := by
  decide +kernel

example : asTimedelta64 exFloat (.inr "T1:30:2.5".toList) none = .ok ⟨true, .s, some 5402⟩ ∧
    asTimedelta64 exFloat (.inr "1:2.5".toList) none = .ok ⟨true, .ms, some 62500⟩ ∧
    asTimedelta64 exFloat (.inr "1:1:1:1".toList) none = .error .value := by
  decide +kernel

end Viscid.Props
