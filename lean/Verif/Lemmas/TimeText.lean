import Verif.Spec.TimeText
import Verif.Lemmas.TimeDelta
import Mathlib.Tactic.Linarith
import Mathlib.Tactic.Tauto
/-!
# Lemmas for C108 to C111
-/
namespace Viscid.TimeText
open Viscid.Spec.TimeText
open Viscid.TimeDelta (splitColon nint splitColon_no splitColon_app)

theorem isDigit_iff {c : Char} : c.isDigit = true ↔ 48 ≤ c.toNat ∧ c.toNat ≤ 57 := by
  unfold Char.isDigit Char.toNat
  simp [UInt32.le_iff_toNat_le]

theorem digit_facts {c : Char} (h : c.isDigit = true) : c ≠ ':' ∧ c ≠ '.' ∧ c ≠ 'U' ∧ c ≠ 'T' ∧
    c.isWhitespace = false ∧ c.toUpper = c := by
  have hb := isDigit_iff.mp h
  refine ⟨?_, ?_, ?_, ?_, ?_, ?_⟩
  · rintro rfl; revert h; decide
  · rintro rfl; revert h; decide
  · rintro rfl; revert h; decide
  · rintro rfl; revert h; decide
  · rw [Bool.eq_false_iff]
    intro hw
    have : c = ' ' ∨ c = '\t' ∨ c = '\r' ∨ c = '\n' := by simpa [Char.isWhitespace, or_assoc] using hw
    rcases this with rfl | rfl | rfl | rfl <;> (revert h; decide)
  · unfold Char.toUpper
    split
    · rename_i h1
      exfalso
      have := h1.1
      simp [UInt32.le_iff_toNat_le] at this
      omega
    · rfl

/-- the characters of times -/
def Timely (c : Char) : Prop := c.isDigit = true ∨ c = ':' ∨ c = '.'

theorem timely_facts {c : Char} (h : Timely c) : c.isWhitespace = false ∧ c.toUpper = c ∧ c ≠ 'U' ∧ c ≠ 'T' := by
  rcases h with h | rfl | rfl
  · have := digit_facts h; tauto
  · decide
  · decide

theorem strip_id (s : List Char) (h : ∀ c ∈ s, c.isWhitespace = false) : strip s = s := by
  have h1 : s.dropWhile (·.isWhitespace) = s := by
    cases s with
    | nil => rfl
    | cons c s => rw [List.dropWhile_cons_of_neg]; simp [h c (by simp)]
  have h2 : s.reverse.dropWhile (·.isWhitespace) = s.reverse := by
    cases hr : s.reverse with
    | nil => rfl
    | cons c t =>
      rw [List.dropWhile_cons_of_neg]
      have : c ∈ s := by rw [← List.mem_reverse, hr]; simp
      simp [h c this]
  unfold strip
  rw [h1, h2, List.reverse_reverse]

theorem normal_body (pre body : List Char) (hpre : ∀ c ∈ pre, c = 'U' ∨ c = 'u' ∨ c = 'T' ∨ c = 't')
    (hb : ∀ c ∈ body, Timely c) : normal (pre ++ body) = body := by
  have hpre' : ∀ c ∈ pre, c.isWhitespace = false ∧ (c.toUpper = 'U' ∨ c.toUpper = 'T') := by
    intro c hc
    rcases hpre c hc with rfl | rfl | rfl | rfl <;> decide
  unfold normal
  rw [strip_id]
  · have e : (pre ++ body).map Char.toUpper = pre.map Char.toUpper ++ body := by
      rw [List.map_append]
      congr 1
      rw [List.map_congr_left fun c hc => (timely_facts (hb c hc)).2.1, List.map_id']
    rw [e, List.dropWhile_append_of_pos]
    · cases body with
      | nil => rfl
      | cons c body =>
        rw [List.dropWhile_cons_of_neg]
        have := timely_facts (hb c (by simp))
        simp [this.2.2.1, this.2.2.2]
    · intro c hc
      obtain ⟨d, hd, rfl⟩ := List.mem_map.mp hc
      simpa using (hpre' d hd).2
  · intro c hc
    rcases List.mem_append.mp hc with hc | hc
    · exact (hpre' c hc).1
    · exact (timely_facts (hb c hc)).1

/-! ### fractions -/

theorem digit_char (n : Nat) : (Char.ofNat (48 + n % 10)).isDigit = true ∧ (Char.ofNat (48 + n % 10)).toNat - 48 = n % 10 := by
  have h : ∀ k, k < 10 → (Char.ofNat (48 + k)).isDigit = true ∧ (Char.ofNat (48 + k)).toNat - 48 = k := by decide
  exact h _ (Nat.mod_lt _ (by omega))

theorem decimal_length (k : Nat) : ∀ n, (decimal n k).length = k := by
  induction k with
  | zero => intro n; rfl
  | succ k ih => intro n; simp [decimal, ih]

theorem decimal_digits (k : Nat) : ∀ n, (decimal n k).all (·.isDigit) = true := by
  induction k with
  | zero => intro n; rfl
  | succ k ih => intro n; simp only [decimal, List.all_append, ih, Bool.true_and, List.all_cons, List.all_nil, Bool.and_true]; exact (digit_char n).1

theorem number_decimal (k : Nat) : ∀ n, number (decimal n k) = n % 10 ^ k := by
  induction k with
  | zero => intro n; simp [decimal, number, Nat.mod_one]
  | succ k ih =>
    intro n
    have h := ih (n / 10)
    unfold number at h ⊢
    rw [decimal, List.foldl_append, h]
    simp only [List.foldl_cons, List.foldl_nil]
    rw [(digit_char n).2, Nat.pow_succ, Nat.mul_comm (10 ^ k) 10, Nat.mod_mul]
    omega

theorem number_eq_value (l : List Char) : number l = value l := rfl

theorem rewrite_nil (rnd : Nat → Nat → Nat) (s : List Char) : rewrite rnd [] s = s := by
  cases s <;> simp [rewrite]

theorem rewrite_plain (rnd : Nat → Nat → Nat) (ps : List (Option Nat)) (rest : List Char) :
    ∀ s, Plain s → rewrite rnd ps (s ++ rest) = s ++ rewrite rnd ps rest := by
  intro s
  cases ps with
  | nil => intro _; rw [rewrite_nil, rewrite_nil]
  | cons p ps =>
    induction s with
    | nil => intro _; rfl
    | cons c s ih =>
      rintro ⟨h1, h2⟩
      have hplain : Plain s := by
        refine ⟨fun a b d e hl => h1 (c :: a) b d (by rw [e]; rfl) hl, fun x hx => h2 x ?_⟩
        cases s with
        | nil => cases hx
        | cons _ _ => rw [List.getLast?_cons_cons]; exact hx
      have hw : ¬ digits 6 ((c :: (s ++ rest)).take 6) = true := by
        intro hd
        unfold digits at hd
        rw [decide_eq_true_iff] at hd
        obtain ⟨hl, hall⟩ := hd
        have hall : ∀ x ∈ (c :: (s ++ rest)).take 6, x.isDigit = true := by simpa using hall
        by_cases hlen : 6 ≤ (c :: s).length
        · obtain ⟨x, hx, hxf⟩ := h1 [] ((c :: s).take 6) ((c :: s).drop 6) (by simp) (by rw [List.length_take]; omega)
          have : (c :: (s ++ rest)).take 6 = (c :: s).take 6 := by
            rw [← List.cons_append, List.take_append_of_le_length hlen]
          rw [this] at hall
          rw [hall x hx] at hxf
          cases hxf
        · have hne : c :: s ≠ [] := by simp
          have hx := h2 ((c :: s).getLast hne) (List.getLast?_eq_some_getLast hne)
          have : (c :: s).getLast hne ∈ (c :: (s ++ rest)).take 6 := by
            rw [← List.cons_append, List.take_append]
            apply List.mem_append_left
            rw [List.take_of_length_le (by omega)]
            exact List.getLast_mem hne
          rw [hall _ this] at hx
          cases hx
      rw [List.cons_append, rewrite, if_neg hw, ih hplain]
      rfl

theorem rewrite_frac (rnd : Nat → Nat → Nat) (p : Option Nat) (ps : List (Option Nat)) (us : Nat) (hus : us < 10 ^ 6)
    (rest : List Char) : rewrite rnd (p :: ps) (decimal us 6 ++ rest) = fraction rnd (p.getD 6) us ++ rewrite rnd ps rest := by
  have hlen := decimal_length 6 us
  have htake : (decimal us 6 ++ rest).take 6 = decimal us 6 := by
    rw [List.take_append_of_le_length (by omega), List.take_of_length_le (by omega)]
  have hdrop : (decimal us 6 ++ rest).drop 6 = rest := by
    rw [List.drop_append_of_le_length (by omega), List.drop_of_length_le (by omega), List.nil_append]
  have hdig : digits 6 (decimal us 6) = true := by
    unfold digits
    rw [decide_eq_true_iff]
    exact ⟨hlen, decimal_digits 6 us⟩
  have hnum : number (decimal us 6) = us := by rw [number_decimal, Nat.mod_eq_of_lt hus]
  cases hd : decimal us 6 ++ rest with
  | nil => rw [hd] at htake; rw [← htake] at hlen; simp at hlen
  | cons c s =>
    rw [hd] at htake hdrop
    rw [rewrite, htake, hdrop, if_pos hdig, hnum]

theorem two_pad (n : Nat) (h : n < 100) : two n = pad2 n := by
  have : ∀ n, n < 100 → two n = pad2 n := by decide
  exact this n h

end Viscid.TimeText
