import Verif.Model.RFind
import Verif.Spec.RFind
/-!
# C226: rfind_all
-/
namespace Viscid.Props
open Viscid.RFind Viscid.Spec.RFind

namespace RF

theorem occurs_iff (s w : List Char) (p : Nat) (hp : p ≤ s.length) :
    w.isPrefixOf (s.drop p) = true ↔ Occurs s w p := by
  rw [List.isPrefixOf_iff_prefix]
  constructor
  · rintro ⟨b, hb⟩
    exact ⟨s.take p, b, by rw [List.append_assoc, hb, List.take_append_drop], by
      rw [List.length_take]; omega⟩
  · rintro ⟨a, b, hs, ha⟩
    refine ⟨b, ?_⟩
    rw [hs, List.append_assoc, ← ha, List.drop_left]

theorem occurs_len {s w : List Char} {p : Nat} (h : Occurs s w p) : p + w.length ≤ s.length := by
  obtain ⟨a, b, hs, ha⟩ := h
  rw [hs, List.length_append, List.length_append]; omega

theorem endIndex_le (n : Nat) (e : Option Int) :
    endIndex n e ≤ n := by
  cases e with
  | none => exact Nat.le_refl _
  | some e =>
    simp only [endIndex]
    split <;> omega

theorem find_rev (P : Nat → Bool) (a : Nat) : ∀ k, ((List.range' a k).reverse).find? P = none ∧
      (∀ p, a ≤ p → p < a + k → P p = false) ∨
    ∃ p, ((List.range' a k).reverse).find? P = some p ∧ a ≤ p ∧ p < a + k ∧ P p = true ∧
      ∀ q, p < q → q < a + k → P q = false := by
  intro k
  induction k with
  | zero => exact .inl ⟨rfl, fun p h1 h2 => by omega⟩
  | succ k ih =>
    rw [List.range'_concat, List.reverse_append, List.reverse_singleton, List.singleton_append,
      List.find?_cons, Nat.one_mul]
    cases hP : P (a + k) with
    | true => exact .inr ⟨a + k, rfl, by omega, by omega, hP, fun q h1 h2 => by omega⟩
    | false =>
      rcases ih with ⟨h, hn⟩ | ⟨p, h, h1, h2, h3, h4⟩
      · refine .inl ⟨h, fun p h1 h2 => ?_⟩
        by_cases he : p = a + k
        · rw [he, hP]
        · exact hn p h1 (by omega)
      · refine .inr ⟨p, h, h1, by omega, h3, fun q q1 q2 => ?_⟩
        by_cases he : q = a + k
        · rw [he, hP]
        · exact h4 q q1 (by omega)

/-- The places `rfind` looks at. -/
def In (s w : List Char) (start : Nat) (e : Option Int) (p : Nat) : Prop :=
  start ≤ p ∧ p + w.length ≤ endIndex s.length e ∧ Occurs s w p

theorem rfind_none {s w : List Char} {start : Nat} {e : Option Int} :
    rfind s w start e = none ↔ ∀ p, ¬ In s w start e p := by
  have hle := endIndex_le s.length e
  simp only [rfind]
  rcases find_rev (fun p => w.isPrefixOf (s.drop p)) start (endIndex s.length e + 1 - w.length - start)
    with ⟨h, hn⟩ | ⟨p, h, h1, h2, h3, h4⟩
  · refine ⟨fun _ p ⟨h1, h2, h3⟩ => ?_, fun _ => h⟩
    have := hn p h1 (by omega)
    rw [(occurs_iff s w p (by omega)).2 h3] at this
    exact absurd this (by decide)
  · rw [h]
    refine ⟨fun hh => absurd hh (by simp), fun hh => ?_⟩
    exact absurd ⟨h1, by omega, (occurs_iff s w p (by omega)).1 h3⟩ (hh p)

theorem rfind_some {s w : List Char} {start : Nat} {e : Option Int} {p : Nat}
    (hf : rfind s w start e = some p) : In s w start e p ∧ ∀ q, In s w start e q → q ≤ p := by
  have hle := endIndex_le s.length e
  simp only [rfind] at hf
  rcases find_rev (fun p => w.isPrefixOf (s.drop p)) start (endIndex s.length e + 1 - w.length - start)
    with ⟨h, hn⟩ | ⟨p', h, h1, h2, h3, h4⟩
  · rw [h] at hf; exact absurd hf (by simp)
  · rw [h] at hf
    obtain rfl := Option.some.inj hf
    refine ⟨⟨h1, by omega, (occurs_iff s w p' (by omega)).1 h3⟩, fun q ⟨q1, q2, q3⟩ => ?_⟩
    by_cases hq : q ≤ p'
    · exact hq
    · have := h4 q (by omega) (by omega)
      rw [(occurs_iff s w q (by omega)).2 q3] at this
      exact absurd this (by decide)

/-- What the loop over the substrings has found after some of them. -/
def Best (s : List Char) (start : Nat) (e : Option Int) (ws : List (List Char)) :
    Option (Nat × Nat) → Prop
  | none => ∀ w ∈ ws, ∀ p, ¬ In s w start e p
  | some (p, l) => (∃ w ∈ ws, w.length = l ∧ In s w start e p) ∧ ∀ w ∈ ws, ∀ q, In s w start e q → q ≤ p

theorem fold_best (s : List Char) (start : Nat) (e : Option Int) : ∀ (ws seen : List (List Char)) (b),
    Best s start e seen b → Best s start e (seen ++ ws) (ws.foldl (fun best sub =>
      match rfind s sub start e with
      | none => best
      | some ind =>
        match best with
        | none => some (ind, sub.length)
        | some (m, l) => if m < ind then some (ind, sub.length) else some (m, l)) b) := by
  intro ws
  induction ws with
  | nil => intro seen b h; simpa using h
  | cons w ws ih =>
    intro seen b h
    rw [List.foldl_cons, show seen ++ w :: ws = (seen ++ [w]) ++ ws by simp]
    apply ih
    cases hr : rfind s w start e with
    | none =>
      have hw := rfind_none.1 hr
      cases b with
      | none =>
        intro v hv
        rcases List.mem_append.1 hv with hv | hv
        · exact h v hv
        · rw [List.mem_singleton.1 hv]; exact hw
      | some b =>
        obtain ⟨⟨v, hv, h1⟩, h2⟩ := h
        refine ⟨⟨v, List.mem_append_left _ hv, h1⟩, fun v hv q hq => ?_⟩
        rcases List.mem_append.1 hv with hv | hv
        · exact h2 v hv q hq
        · rw [List.mem_singleton.1 hv] at hq; exact absurd hq (hw q)
    | some ind =>
      obtain ⟨hi, hm⟩ := rfind_some hr
      cases b with
      | none =>
        refine ⟨⟨w, by simp, rfl, hi⟩, fun v hv q hq => ?_⟩
        rcases List.mem_append.1 hv with hv | hv
        · exact absurd hq (h v hv q)
        · rw [List.mem_singleton.1 hv] at hq; exact hm q hq
      | some b =>
        obtain ⟨⟨v, hv, h1⟩, h2⟩ := h
        simp only
        split
        · next hlt =>
          refine ⟨⟨w, by simp, rfl, hi⟩, fun v hv q hq => ?_⟩
          rcases List.mem_append.1 hv with hv | hv
          · have := h2 v hv q hq; omega
          · rw [List.mem_singleton.1 hv] at hq; exact hm q hq
        · next hlt =>
          refine ⟨⟨v, List.mem_append_left _ hv, h1⟩, fun v hv q hq => ?_⟩
          rcases List.mem_append.1 hv with hv | hv
          · exact h2 v hv q hq
          · rw [List.mem_singleton.1 hv] at hq; have := hm q hq; omega

theorem lastMatch_best (s : List Char) (start : Nat) (e : Option Int) (ws : List (List Char)) :
    Best s start e ws (lastMatch s ws start e) := by
  have := fold_best s start e ws [] none (by simp [Best])
  rwa [List.nil_append] at this

theorem loop_sound (s : List Char) (ws : List (List Char)) (start : Nat) : ∀ n e,
    ∀ p ∈ (loop s ws start n e).1, start ≤ p ∧ Any s ws p := by
  intro n
  induction n with
  | zero => intro e p hp; simp [loop] at hp
  | succ n ih =>
    intro e p hp
    have hb := lastMatch_best s start e ws
    rw [loop] at hp
    cases hl : lastMatch s ws start e with
    | none => rw [hl] at hp; simp at hp
    | some b =>
      rw [hl] at hp hb
      obtain ⟨⟨w, hw, _, h1, _, h3⟩, _⟩ := hb
      rcases List.mem_cons.1 hp with rfl | hp
      · exact ⟨h1, w, hw, h3⟩
      · exact ih _ p hp

theorem loop_complete (s : List Char) (ws : List (List Char)) (m start : Nat)
    (hm : ∀ w ∈ ws, w.length = m) (h0 : 0 < m)
    (hfirst : ∀ p, start ≤ p → Any s ws p → m ≤ p + 1)
    (hgap : ∀ p q, start ≤ p → p < q → Any s ws p → Any s ws q → p + (2 * m - 1) ≤ q) : ∀ n e,
    endIndex s.length e < n →
      (loop s ws start n e).2 = true ∧ (loop s ws start n e).1.Pairwise (· > ·) ∧
        ∀ p, p ∈ (loop s ws start n e).1 ↔ start ≤ p ∧ p + m ≤ endIndex s.length e ∧ Any s ws p := by
  intro n
  induction n with
  | zero => intro e h; omega
  | succ n ih =>
    intro e hn
    have hb := lastMatch_best s start e ws
    have hle := endIndex_le s.length e
    rw [loop]
    cases hl : lastMatch s ws start e with
    | none =>
      rw [hl] at hb
      refine ⟨rfl, List.Pairwise.nil, fun p => ⟨fun h => absurd h (by simp), ?_⟩⟩
      rintro ⟨h1, h2, w, hw, h3⟩
      exact absurd ⟨h1, by rw [hm w hw]; exact h2, h3⟩ (hb w hw p)
    | some b =>
      obtain ⟨p, l⟩ := b
      rw [hl] at hb
      obtain ⟨⟨w, hw, hl', h1, h2, h3⟩, hmax⟩ := hb
      have hlm : l = m := hl'.symm.trans (hm w hw)
      subst hlm
      have hp := hfirst p h1 ⟨w, hw, h3⟩
      rw [hm w hw] at h2
      have hE : endIndex s.length (some ((p : Int) - ((l : Int) - 1))) = p + 1 - l := by
        simp only [endIndex]
        rw [if_neg (by omega)]
        omega
      obtain ⟨i1, i2, i3⟩ := ih (some ((p : Int) - ((l : Int) - 1))) (by rw [hE]; omega)
      rw [hE] at i3
      refine ⟨i1, List.pairwise_cons.2 ⟨fun q hq => ?_, i2⟩, fun q => ?_⟩
      · obtain ⟨_, h, _⟩ := (i3 q).1 hq
        omega
      · simp only [List.mem_cons]
        constructor
        · rintro (rfl | hq)
          · exact ⟨h1, h2, w, hw, h3⟩
          · obtain ⟨a, b, c⟩ := (i3 q).1 hq
            exact ⟨a, by omega, c⟩
        · rintro ⟨a, b, v, hv, c⟩
          by_cases hqp : q = p
          · exact .inl hqp
          · right
            have := hmax v hv q ⟨a, by rw [hm v hv]; exact b, c⟩
            have := hgap q p a (by omega) ⟨v, hv, c⟩ ⟨w, hw, h3⟩
            exact (i3 q).2 ⟨a, by omega, v, hv, c⟩

end RF
open RF

/-- C226: whatever is asked for, rfind_all only gives places where one of the texts stands, and none before
the start. -/
theorem C226_sound (s : List Char) (ws : List (List Char)) (start : Int) (e : Option Int) (n p : Nat)
    (h : p ∈ (rfindAll s ws start e n).1) : start ≤ p ∧ Any s ws p := by
  rw [rfindAll] at h
  split at h
  · next hs =>
    have := loop_sound s ws start.toNat n e p h
    exact ⟨by omega, this.2⟩
  · simp at h

/-- C226: looking for single characters, rfind_all gives all their places from the start on and before the
end, from right to left, and then ends. -/
theorem C226_chars (s : List Char) (cs : List Char) (start : Nat) (e : Option Nat)
    (n : Nat) (hn : s.length < n) :
    ∃ ps, rfindAll s (cs.map fun c => [c]) start (e.map Int.ofNat) n = (ps, true) ∧
      ps.Pairwise (· > ·) ∧
      ∀ p, p ∈ ps ↔ start ≤ p ∧ (∀ x, e = some x → p < x) ∧ ∃ c ∈ cs, s[p]? = some c := by
  have hlen : ∀ w ∈ cs.map fun c => [c], w.length = 1 := by
    intro w hw
    obtain ⟨c, _, rfl⟩ := List.mem_map.1 hw
    rfl
  have hE : endIndex s.length (e.map Int.ofNat) = (match e with | none => s.length | some x => min x s.length) := by
    cases e with
    | none => rfl
    | some x =>
      simp only [Option.map_some, endIndex]
      rw [if_neg (by simp)]
      simp
  have hc := loop_complete s (cs.map fun c => [c]) 1 start hlen (by omega) (fun p _ _ => by omega)
    (fun p q _ h _ _ => by omega) n (e.map Int.ofNat)
    (Nat.lt_of_le_of_lt (endIndex_le s.length _) hn)
  have hany : ∀ p, Any s (cs.map fun c => [c]) p ↔ ∃ c ∈ cs, s[p]? = some c := by
    intro p
    constructor
    · rintro ⟨w, hw, a, b, hs, ha⟩
      obtain ⟨c, hc, rfl⟩ := List.mem_map.1 hw
      refine ⟨c, hc, ?_⟩
      rw [hs, ← ha, List.append_assoc, List.getElem?_append_right (Nat.le_refl _)]
      simp
    · rintro ⟨c, hc, hp⟩
      obtain ⟨hlt, hget⟩ := List.getElem?_eq_some_iff.1 hp
      refine ⟨[c], List.mem_map.2 ⟨c, hc, rfl⟩, s.take p, s.drop (p + 1), ?_, by
        rw [List.length_take]; omega⟩
      rw [← hget]; simp
  refine ⟨_, ?_, hc.2.1, fun p => ?_⟩
  · rw [rfindAll, if_pos (by omega), Int.toNat_natCast]
    exact Prod.ext rfl hc.1
  · rw [hc.2.2, hany]
    constructor
    · rintro ⟨h1, h2, h3⟩
      refine ⟨h1, fun x hx => ?_, h3⟩
      subst hx
      rw [hE] at h2
      simp only at h2
      omega
    · rintro ⟨h1, h2, c, hc, h3⟩
      refine ⟨h1, ?_, c, hc, h3⟩
      have : p < s.length := (List.getElem?_eq_some_iff.1 h3).1
      rw [hE]
      cases e with
      | none => simp only; omega
      | some x => have := h2 x rfl; simp only; omega

example : rfindAll "a,b;c".toList [[','], [';']] 0 none 9 = ([3, 1], true) := by decide

/-- C226: looking for texts of m characters, rfind_all gives all their places and ends if there are m - 1
characters before the first and between one and the next. -/
theorem C226_words_partial (s : List Char) (ws : List (List Char)) (m n : Nat) (h0 : 0 < m)
    (hm : ∀ w ∈ ws, w.length = m) (hn : s.length < n)
    (hfirst : ∀ p, Any s ws p → m - 1 ≤ p)
    (hgap : ∀ p q, p < q → Any s ws p → Any s ws q → p + m + (m - 1) ≤ q) :
    ∃ ps, rfindAll s ws 0 none n = (ps, true) ∧ ps.Pairwise (· > ·) ∧ ∀ p, p ∈ ps ↔ Any s ws p := by
  have hc := loop_complete s ws m 0 hm h0 (fun p _ h => by have := hfirst p h; omega)
    (fun p q _ h h1 h2 => by have := hgap p q h h1 h2; omega) n none hn
  refine ⟨_, ?_, hc.2.1, fun p => ?_⟩
  · rw [rfindAll, if_pos (by omega)]
    exact Prod.ext rfl hc.1
  · rw [hc.2.2]
    refine ⟨fun h => h.2.2, fun h => ⟨Nat.zero_le _, ?_, h⟩⟩
    obtain ⟨w, hw, h⟩ := h
    have := occurs_len h
    rw [hm w hw] at this
    exact this

example : rfindAll "a//b c//".toList ["//".toList] 0 none 9 = ([6, 1], true) := by decide

/-- C226: a text of two or more characters that stands twice in a row is found once only: the one that the
other one follows directly is passed over. -/
theorem C226_adjacent_violated (w : List Char) (h : 2 ≤ w.length) (n : Nat) :
    rfindAll (w ++ w) [w] 0 none (n + 2) = ([w.length], true) ∧ Occurs (w ++ w) w 0 := by
  have ho : Occurs (w ++ w) w w.length := ⟨w, [], by simp, rfl⟩
  refine ⟨?_, ⟨[], w, by simp, rfl⟩⟩
  rw [rfindAll, if_pos (by omega), loop]
  have hb := lastMatch_best (w ++ w) 0 none [w]
  rw [show Int.toNat 0 = 0 from rfl]
  cases hl : lastMatch (w ++ w) [w] 0 none with
  | none =>
    rw [hl] at hb
    exact absurd ⟨Nat.zero_le _, by simp [endIndex], ho⟩ (hb w (by simp) w.length)
  | some b =>
    obtain ⟨p, l⟩ := b
    rw [hl] at hb
    obtain ⟨⟨v, hv, hvl, h1, h2, h3⟩, hmax⟩ := hb
    rw [List.mem_singleton] at hv
    subst hv
    subst hvl
    have hge := hmax v (by simp) v.length ⟨Nat.zero_le _, by simp [endIndex], ho⟩
    have hp : p = v.length := by
      have := occurs_len h3
      rw [List.length_append] at this
      omega
    subst hp
    simp only
    rw [loop]
    have hb := lastMatch_best (v ++ v) 0 (some ((v.length : Int) - ((v.length : Int) - 1))) [v]
    have hE : endIndex (v ++ v).length (some ((v.length : Int) - ((v.length : Int) - 1))) = 1 := by
      simp only [endIndex, List.length_append]
      rw [if_neg (by omega)]
      omega
    cases hl : lastMatch (v ++ v) [v] 0 (some ((v.length : Int) - ((v.length : Int) - 1))) with
    | none => rfl
    | some b =>
      rw [hl] at hb
      obtain ⟨⟨u, hu, _, _, h2, _⟩, _⟩ := hb
      rw [List.mem_singleton.1 hu, hE] at h2
      omega

/-- C226: if a text of two or more characters stands at the very beginning and nowhere else, rfind_all never
ends, unless less than m - 1 characters follow: it gives position 0 again and again. -/
theorem C226_forever_violated (w r : List Char) (h : 2 ≤ w.length) (hr : w.length ≤ r.length + 1)
    (hone : ∀ p, Occurs (w ++ r) w p → p = 0) (n : Nat) :
    rfindAll (w ++ r) [w] 0 none n = (List.replicate n 0, false) := by
  have ho : Occurs (w ++ r) w 0 := ⟨[], r, by simp, rfl⟩
  have step : ∀ e, w.length ≤ endIndex (w ++ r).length e →
      lastMatch (w ++ r) [w] 0 e = some (0, w.length) := by
    intro e he
    have hb := lastMatch_best (w ++ r) 0 e [w]
    cases hl : lastMatch (w ++ r) [w] 0 e with
    | none =>
      rw [hl] at hb
      exact absurd ⟨Nat.le_refl _, by omega, ho⟩ (hb w (by simp) 0)
    | some b =>
      obtain ⟨p, l⟩ := b
      rw [hl] at hb
      obtain ⟨⟨v, hv, hvl, h1, h2, h3⟩, _⟩ := hb
      rw [List.mem_singleton] at hv
      subst hv
      rw [hone p h3, hvl]
  have key : ∀ n e, w.length ≤ endIndex (w ++ r).length e →
      loop (w ++ r) [w] 0 n e = (List.replicate n 0, false) := by
    intro n
    induction n with
    | zero => intro e _; rfl
    | succ n ih =>
      intro e he
      rw [loop, step e he]
      simp only
      rw [ih _ (by
        simp only [endIndex, List.length_append]
        rw [if_pos (by omega)]
        omega)]
      rfl
  rw [rfindAll, if_pos (by omega)]
  exact key n none (by simp [endIndex])

example (n : Nat) : rfindAll "// text".toList ["//".toList] 0 none (n + 3) =
    (0 :: 0 :: 0 :: List.replicate n 0, false) := by
  have := C226_forever_violated "//".toList " text".toList (by decide) (by decide) (by
    rintro p ⟨a, b, h, rfl⟩
    match a, h with
    | [], _ => rfl
    | [_], h => simp at h
    | _ :: _ :: a, h =>
      exfalso
      have h' : '/' ∈ " text".toList := by
        have : " text".toList = a ++ "//".toList ++ b := by simp at h; simpa using h.2.2
        rw [this]; simp
      exact absurd h' (by decide)) (n + 3)
  rw [show "// text".toList = "//".toList ++ " text".toList by decide, this]
  rfl

/-- C226: the empty text is found at the end of every text, without end. -/
theorem C226_empty_violated (s : List Char) (n : Nat) :
    rfindAll s [[]] 0 none n = (List.replicate n s.length, false) := by
  have step : ∀ e, endIndex s.length e = s.length → lastMatch s [[]] 0 e = some (s.length, 0) := by
    intro e he
    have ho : Occurs s [] s.length := ⟨s, [], by simp, rfl⟩
    have hb := lastMatch_best s 0 e [[]]
    cases hl : lastMatch s [[]] 0 e with
    | none =>
      rw [hl] at hb
      exact absurd ⟨Nat.zero_le _, by simp [he], ho⟩ (hb [] (by simp) s.length)
    | some b =>
      obtain ⟨p, l⟩ := b
      rw [hl] at hb
      obtain ⟨⟨v, hv, hvl, h1, h2, h3⟩, hmax⟩ := hb
      rw [List.mem_singleton] at hv
      subst hv
      have := hmax [] (by simp) s.length ⟨Nat.zero_le _, by simp [he], ho⟩
      have := occurs_len h3
      simp only [List.length_nil] at this hvl
      rw [show p = s.length by omega, ← hvl]
  have key : ∀ n e, endIndex s.length e = s.length →
      loop s [[]] 0 n e = (List.replicate n s.length, false) := by
    intro n
    induction n with
    | zero => intro e _; rfl
    | succ n ih =>
      intro e he
      rw [loop, step e he]
      simp only
      rw [ih _ (by
        simp only [endIndex]
        rw [if_neg (by omega)]
        omega)]
      rfl
  rw [rfindAll, if_pos (by omega)]
  exact key n none rfl

/-- C226: a start counted from the end, which is what a negative index means to every other function of
texts, finds nothing, whatever the text. -/
theorem C226_negative_violated (s : List Char) (ws : List (List Char)) (start : Int) (h : start < 0)
    (e : Option Int) (n : Nat) : rfindAll s ws start e (n + 1) = ([], true) := by
  rw [rfindAll, if_neg (by omega)]
  simp

example : ∃ s ws, rfindAll s ws (-2) none 5 = ([], true) ∧ Any s ws (s.length - 2) :=
  ⟨"a#b".toList, ["#".toList], by decide, "#".toList, by simp, "a".toList, "b".toList, by decide, by decide⟩

end Viscid.Props
