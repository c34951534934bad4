import Verif.Spec.Scripts
import Mathlib.Tactic.NormNum
import Mathlib.Tactic.Linarith
/-! # C218: command line tools -/
namespace Viscid.Props
open Viscid.Scripts Viscid.Spec.Scripts

namespace Scr

theorem digits_two (n : Nat) : Nat.toDigits 2 n = if n < 2 then [n.digitChar] else Nat.toDigits 2 (n / 2) ++ [(n % 2).digitChar] := by
  rw [Nat.toDigits_eq_if (by omega)]

theorem digit_bit (n : Nat) (h : n < 2) : digit n.digitChar = some n := by
  match n, h with
  | 0, _ => rfl
  | 1, _ => rfl

theorem onbits_ok (n i : Nat) : ∃ l, onbits i (Nat.toDigits 2 n).reverse = .ok l ∧ l.Pairwise (· < ·) ∧ (∀ b ∈ l, i ≤ b) ∧ ∀ b, i + b ∈ l ↔ n.testBit b = true := by
  induction n using Nat.strongRecOn generalizing i with
  | _ n ih =>
    rw [digits_two]
    by_cases hn : n < 2
    · rw [if_pos hn]
      match n, hn with
      | 0, _ => exact ⟨[], rfl, .nil, by simp, by simp⟩
      | 1, _ =>
        refine ⟨[i], rfl, by simp, by simp, ?_⟩
        intro b
        cases b with
        | zero => simp
        | succ b => rw [Nat.testBit_succ]; simp
    · rw [if_neg hn, List.reverse_append]
      obtain ⟨l, e, h1, h2, h3⟩ := ih (n / 2) (by omega) (i + 1)
      have hm : n % 2 < 2 := Nat.mod_lt _ (by omega)
      have hd := digit_bit (n % 2) hm
      have hb : ∀ b, n.testBit (b + 1) = (n / 2).testBit b := fun b => by rw [Nat.testBit_succ]
      have h0 : n.testBit 0 = decide (n % 2 = 1) := Nat.testBit_zero n
      show ∃ l, onbits i ((n % 2).digitChar :: (Nat.toDigits 2 (n / 2)).reverse) = _ ∧ _
      rw [onbits, hd]
      rcases (show n % 2 = 0 ∨ n % 2 = 1 by omega) with h | h <;> rw [h]
      · refine ⟨l, e, h1, fun b hb' => by have := h2 b hb'; omega, ?_⟩
        intro b
        cases b with
        | zero => rw [h0, h]; simp; intro hi; have := h2 i hi; omega
        | succ b => rw [hb, ← h3 b]; rw [show i + (b + 1) = i + 1 + b by omega]
      · refine ⟨i :: l, by simp only [e]; rfl, ?_, ?_, ?_⟩
        · rw [List.pairwise_cons]; exact ⟨fun b hb' => by have := h2 b hb'; omega, h1⟩
        · intro b hb'; rcases List.mem_cons.1 hb' with rfl | hb'
          · omega
          · have := h2 b hb'; omega
        · intro b
          cases b with
          | zero => rw [h0, h]; simp
          | succ b =>
            rw [hb, ← h3 b, show i + (b + 1) = i + 1 + b by omega, List.mem_cons]
            constructor
            · rintro (h | h)
              · omega
              · exact h
            · exact .inr

theorem two_ok : ∀ n < 256, two n = ["0123456789abcdef".toList[n / 16]?.getD 'z', "0123456789abcdef".toList[n % 16]?.getD 'z'] := by decide +kernel

theorem two_hex (n : Nat) (h : n < 256) : HexTwo (two n) n := by
  have hlen : "0123456789abcdef".toList.length = 16 := by decide
  have key : ∀ k < 16, HexDigit ("0123456789abcdef".toList[k]?.getD 'z') k := by unfold HexDigit; decide +kernel
  exact ⟨_, _, n / 16, n % 16, two_ok n h, key _ (by omega), key _ (by omega), by omega⟩

theorem floor_small (x : ℚ) (h0 : 0 ≤ x) (h1 : x ≤ 255) : ⌊x⌋.toNat < 256 := by
  have : ⌊x⌋ < 256 := by rw [Int.floor_lt]; norm_num; linarith
  have : 0 ≤ ⌊x⌋ := Int.floor_nonneg.2 h0
  omega

end Scr

/-- C218: the bits that are printed are those that are on, in order, with their powers of two. -/
theorem C218_bits (n : Nat) : ∃ l : List Nat, bitmask n = .ok (.bits (l.map fun b => (b, 2 ^ b))) ∧ l.Pairwise (· < ·) ∧ ∀ b, b ∈ l ↔ n.testBit b = true := by
  obtain ⟨l, e, h1, _, h3⟩ := Scr.onbits_ok n 0
  refine ⟨l, ?_, h1, fun b => by simpa using h3 b⟩
  unfold bitmask
  have : (bin (n : Int)).drop 2 = Nat.toDigits 2 n := rfl
  rw [this]
  dsimp only
  rw [if_neg (by simp), e]; rfl

/-- C218 is false: that zero needs no bits is never printed. -/
theorem C218_zero_violated (n : Int) : bitmask n ≠ .ok .noBits := by
  unfold bitmask
  dsimp only
  rw [if_neg (by simp)]
  cases onbits 0 ((bin n).drop 2).reverse <;> simp [Except.map]

/-- C218: a negative number is an error. -/
theorem C218_negative (n : Nat) : bitmask (Int.negSucc n) = .error .value := by
  unfold bitmask
  dsimp only
  rw [if_neg (by simp)]
  have : (bin (Int.negSucc n)).drop 2 = 'b' :: Nat.toDigits 2 (n + 1) := rfl
  rw [this, List.reverse_cons]
  have key : ∀ (s : List Char) (i : Nat), (∀ c ∈ s, digit c ≠ none) → onbits i (s ++ ['b']) = .error .value := by
    intro s
    induction s with
    | nil => intro i _; rfl
    | cons c s ih =>
      intro i h
      have hc := h c (by simp)
      have ih := ih (i + 1) fun d hd => h d (by simp [hd])
      rw [List.cons_append, onbits]
      cases hd : digit c with
      | none => exact absurd hd hc
      | some k =>
        cases k with
        | zero => exact ih
        | succ k => simp only [ih]; rfl
  rw [key]
  · rfl
  · intro c hc
    rw [List.mem_reverse] at hc
    have : ∀ m, ∀ c ∈ Nat.toDigits 2 m, digit c ≠ none := by
      intro m
      induction m using Nat.strongRecOn with
      | _ m ih =>
        rw [Scr.digits_two]
        split
        · rename_i h
          intro c hc
          rw [List.mem_singleton] at hc
          rw [hc, Scr.digit_bit m h]; simp
        · intro c hc
          rcases List.mem_append.1 hc with hc | hc
          · exact ih (m / 2) (by omega) c hc
          · rw [List.mem_singleton] at hc
            rw [hc, Scr.digit_bit (m % 2) (Nat.mod_lt _ (by omega))]; simp
    exact this _ c hc

/-- C218: a colour of numbers from 0 to 255, not all of which are at most one, as six hexadecimal digits; fractions are cut off. -/
theorem C218_rgb_partial (r g b : ℚ) (hr : 0 ≤ r ∧ r ≤ 255) (hg : 0 ≤ g ∧ g ≤ 255) (hb : 0 ≤ b ∧ b ≤ 255) (h1 : ¬ (r ≤ 1 ∧ g ≤ 1 ∧ b ≤ 1)) :
    ∃ s, rgb2hex r g b = .ok s ∧ HexColor s ⌊r⌋.toNat ⌊g⌋.toNat ⌊b⌋.toNat := by
  refine ⟨_, ?_, two ⌊r⌋.toNat, two ⌊g⌋.toNat, two ⌊b⌋.toNat, rfl, Scr.two_hex _ (Scr.floor_small r hr.1 hr.2), Scr.two_hex _ (Scr.floor_small g hg.1 hg.2),
    Scr.two_hex _ (Scr.floor_small b hb.1 hb.2)⟩
  unfold rgb2hex
  rw [if_neg (by rintro (h | h | h) <;> linarith), if_neg (by rintro (h | h | h) <;> linarith [hr.2, hg.2, hb.2]), if_neg h1]
  simp only [mul_one]

/-- C218: a colour of fractions: one is 255. -/
theorem C218_fractions (r g b : ℚ) (hr : 0 ≤ r ∧ r ≤ 1) (hg : 0 ≤ g ∧ g ≤ 1) (hb : 0 ≤ b ∧ b ≤ 1) :
    ∃ s, rgb2hex r g b = .ok s ∧ HexColor s ⌊r * 255⌋.toNat ⌊g * 255⌋.toNat ⌊b * 255⌋.toNat := by
  refine ⟨_, ?_, two ⌊r * 255⌋.toNat, two ⌊g * 255⌋.toNat, two ⌊b * 255⌋.toNat, rfl, Scr.two_hex _ (Scr.floor_small _ (by linarith) (by linarith)),
    Scr.two_hex _ (Scr.floor_small _ (by linarith) (by linarith)), Scr.two_hex _ (Scr.floor_small _ (by linarith) (by linarith))⟩
  unfold rgb2hex
  rw [if_neg (by rintro (h | h | h) <;> linarith), if_neg (by rintro (h | h | h) <;> linarith), if_pos ⟨hr.2, hg.2, hb.2⟩]

/-- C218: other numbers are refused. -/
theorem C218_refused (r g b : ℚ) (h : ¬ ((0 ≤ r ∧ r ≤ 255) ∧ (0 ≤ g ∧ g ≤ 255) ∧ (0 ≤ b ∧ b ≤ 255))) : rgb2hex r g b = .error .value := by
  unfold rgb2hex
  split
  · rfl
  · split
    · rfl
    · rename_i h1 h2
      exfalso; apply h
      simp only [not_or, not_lt] at h1 h2
      exact ⟨⟨h1.1, h2.1⟩, ⟨h1.2.1, h2.2.1⟩, ⟨h1.2.2, h2.2.2⟩⟩

/-- C218 is false: the almost black colours of zeros and ones become the brightest ones: one comes out as 255. -/
theorem C218_dark_violated (r g b : Nat) (hr : r ≤ 1) (hg : g ≤ 1) (hb : b ≤ 1) :
    ∃ s, rgb2hex r g b = .ok s ∧ HexColor s (255 * r) (255 * g) (255 * b) := by
  obtain ⟨s, e, h⟩ := C218_fractions r g b ⟨by positivity, by exact_mod_cast hr⟩ ⟨by positivity, by exact_mod_cast hg⟩ ⟨by positivity, by exact_mod_cast hb⟩
  have f : ∀ k : Nat, ⌊(k : ℚ) * 255⌋.toNat = 255 * k := by
    intro k
    rw [show (k : ℚ) * 255 = ((255 * k : Nat) : ℚ) by push_cast; ring, Int.floor_natCast]
    rfl
  rw [f, f, f] at h
  exact ⟨s, e, h⟩

/-- C218 is false: two files are never compared: an argument is passed under a name that is not there, and it ends with a TypeError whatever the files. -/
theorem C218_diff_violated (same : F → F → Bool) (a b : List (String × F)) (names : List String) : diff same a b names = .error .type := by
  unfold diff iterFields iterFieldsArgs
  simp only [List.mem_cons, List.not_mem_nil, or_false]
  rfl

example : bitmask 20 = .ok (.bits [(2, 4), (4, 16)]) := by decide +kernel
example : ∃ s, rgb2hex 255 16 0 = .ok s ∧ HexColor s 255 16 0 := by
  have := C218_rgb_partial 255 16 0 (by norm_num) (by norm_num) (by norm_num) (by norm_num)
  simpa using this

end Viscid.Props
