import Verif.Model.Labels
import Verif.Spec.Labels
import Mathlib.Tactic.Linarith
import Mathlib.Tactic.FieldSimp
import Mathlib.Tactic.Ring
import Mathlib.Algebra.Order.Field.Basic
/-!
# C243: labels at lines
-/
namespace Viscid.Props
open Viscid.Labels Viscid.Spec.Labels

namespace LB

theorem firstMin_spec : ∀ (l : List Nat), l ≠ [] → ∃ h : firstMin l < l.length, (∀ y ∈ l, l[firstMin l] ≤ y) ∧ ∀ j (hj : j < firstMin l), l[firstMin l] < l[j]
  | [], h => absurd rfl h
  | x :: xs, _ => by
    unfold firstMin
    split
    · rename_i h
      refine ⟨by simp, ?_, fun j hj => by omega⟩
      intro y hy
      rcases List.mem_cons.1 hy with rfl | hy
      · exact Nat.le_refl _
      · exact h y hy
    · rename_i h
      have hne : xs ≠ [] := by rintro rfl; exact h (fun y hy => by simp at hy)
      obtain ⟨h1, h2, h3⟩ := firstMin_spec xs hne
      have hlt : xs[firstMin xs] < x := by
        by_contra hc
        exact h fun y hy => Nat.le_trans (Nat.not_lt.1 hc) (h2 y hy)
      refine ⟨by simpa using h1, ?_, ?_⟩
      · intro y hy
        simp only [List.getElem_cons_succ]
        rcases List.mem_cons.1 hy with rfl | hy
        · exact hlt.le
        · exact h2 y hy
      · intro j hj
        simp only [List.getElem_cons_succ]
        cases j with
        | zero => exact hlt
        | succ j => exact h3 j (by omega)

theorem cum_len (s : ℚ) (l : List ℚ) : (cum s l).length = l.length + 1 := by
  induction l generalizing s with
  | nil => rfl
  | cons a l ih => simp [cum, ih]

theorem cum_zero (s : ℚ) (l : List ℚ) : (cum s l)[0]? = some s := by cases l <;> rfl

theorem cum_succ (s : ℚ) (l : List ℚ) (i : Nat) (a : ℚ) (h : l[i]? = some a) : ∃ x, (cum s l)[i]? = some x ∧ (cum s l)[i + 1]? = some (x + a) := by
  induction l generalizing s i with
  | nil => simp at h
  | cons b l ih =>
    cases i with
    | zero =>
      simp only [List.getElem?_cons_zero, Option.some.injEq] at h
      subst h
      exact ⟨s, rfl, by simp only [cum, List.getElem?_cons_succ]; exact cum_zero _ _⟩
    | succ i =>
      obtain ⟨x, h1, h2⟩ := ih (s + b) i (by simpa using h)
      exact ⟨x, by simpa [cum] using h1, by simpa [cum] using h2⟩

/-- what the search for the nearest gives, on increasing numbers -/
theorem nearest_spec (d : ℚ) : ∀ (ss : List ℚ) (i : Nat) (best : Option (Nat × ℚ)), ss.Pairwise (· < ·) →
    (∀ j b, best = some (j, b) → 0 < b ∧ ∀ s ∈ ss, d - s < b) →
    (∃ (k : Nat) (s : ℚ), ss[k]? = some s ∧ s < d ∧ nearest d i ss best = i + k ∧ ∀ (k' : Nat) (s' : ℚ), k < k' → ss[k']? = some s' → d ≤ s') ∨
    ((∀ s ∈ ss, d ≤ s) ∧ nearest d i ss best = (best.map Prod.fst).getD 0)
  | [], i, best, _, _ => by
    right
    refine ⟨by simp, ?_⟩
    cases best with
    | none => rfl
    | some p => obtain ⟨j, b⟩ := p; rfl
  | s :: ss, i, best, hp, hb => by
    have hp' := (List.pairwise_cons.1 hp)
    by_cases h : d - s ≤ 0
    · have hn : nearest d i (s :: ss) best = nearest d (i + 1) ss best := by
        rw [nearest.eq_def]; simp only; rw [if_pos h]
      rcases nearest_spec d ss (i + 1) best hp'.2 (fun j b e => ⟨(hb j b e).1, fun s' hs' => (hb j b e).2 s' (by simp [hs'])⟩) with ⟨k, x, h1, h2, -, -⟩ | ⟨h1, h2⟩
      · have := hp'.1 x (List.mem_of_getElem? h1)
        linarith
      · right
        refine ⟨fun x hx => ?_, by rw [hn, h2]⟩
        rcases List.mem_cons.1 hx with rfl | hx
        · linarith
        · exact h1 x hx
    · left
      have hd : s < d := by linarith
      have hn : nearest d i (s :: ss) best = nearest d (i + 1) ss (some (i, d - s)) := by
        rw [nearest.eq_def]; simp only; rw [if_neg h]
        cases best with
        | none => rfl
        | some p =>
          obtain ⟨j, b⟩ := p
          have := (hb j b rfl).2 s (by simp)
          simp only
          rw [if_pos this]
      rcases nearest_spec d ss (i + 1) (some (i, d - s)) hp'.2 (fun j b e => by
          obtain ⟨rfl, rfl⟩ : i = j ∧ d - s = b := by simpa using e
          exact ⟨by linarith, fun s' hs' => by have := hp'.1 s' hs'; linarith⟩) with ⟨k, x, h1, h2, h3, h4⟩ | ⟨h1, h2⟩
      · refine ⟨k + 1, x, by simpa using h1, h2, by rw [hn, h3]; omega, fun k' s' hk hs => ?_⟩
        cases k' with
        | zero => omega
        | succ k' => exact h4 k' s' (by omega) (by simpa using hs)
      · refine ⟨0, s, rfl, hd, by rw [hn, h2]; rfl, fun k' s' hk hs => ?_⟩
        cases k' with
        | zero => omega
        | succ k' => exact h1 s' (List.mem_of_getElem? (by simpa using hs))

theorem cum_ge (l : List ℚ) : ∀ (s : ℚ), (∀ a ∈ l, 0 < a) → ∀ x ∈ cum s l, s ≤ x := by
  induction l with
  | nil => intro s _ x hx; simp only [cum, List.mem_singleton] at hx; rw [hx]
  | cons a l ih =>
    intro s h x hx
    simp only [cum, List.mem_cons] at hx
    rcases hx with rfl | hx
    · exact le_refl _
    · have := ih (s + a) (fun b hb => h b (by simp [hb])) x hx
      have := h a (by simp)
      linarith

theorem cum_inc (l : List ℚ) : ∀ (s : ℚ), (∀ a ∈ l, 0 < a) → (cum s l).Pairwise (· < ·) := by
  induction l with
  | nil => intro s _; simp [cum]
  | cons a l ih =>
    intro s h
    simp only [cum, List.pairwise_cons]
    refine ⟨fun x hx => ?_, ih _ fun b hb => h b (by simp [hb])⟩
    have := cum_ge l (s + a) (fun b hb => h b (by simp [hb])) x hx
    have := h a (by simp)
    linarith

theorem cum_last (l : List ℚ) : ∀ (s : ℚ), (cum s l)[l.length]? = some (s + l.sum) := by
  induction l with
  | nil => intro s; simp [cum]
  | cons a l ih => intro s; simp only [cum, List.length_cons, List.getElem?_cons_succ, ih, List.sum_cons]; congr 1; ring

end LB

/-- C243: the label is put at the best candidate, whatever the order of those at the same distance; and it belongs to the root it was made from:
candidate `c` is the choice `c / n` at root `c % n`. -/
theorem C243_best (n m : Nat) (cost : Nat → Nat) (dist : Nat → ℚ) (isorted : List Nat)
    (hp : isorted.Perm (List.range m)) (hs : isorted.Pairwise fun a b => dist a ≤ dist b) (hm : 0 < m) :
    ∃ w, winner isorted cost n = some (w, w % n) ∧ Best m cost dist w := by
  have hlen : isorted.length = m := by rw [hp.length_eq, List.length_range]
  have hne : isorted.map cost ≠ [] := by
    intro h
    have := congrArg List.length h
    simp only [List.length_map, List.length_nil] at this
    omega
  obtain ⟨h1, h2, h3⟩ := LB.firstMin_spec _ hne
  set k := firstMin (isorted.map cost) with hk
  have hkl : k < isorted.length := by simpa using h1
  refine ⟨isorted[k], ?_, ?_⟩
  · unfold winner
    simp only [← hk, List.getElem?_eq_getElem hkl, Option.map_some]
  · refine ⟨?_, fun c hc => ?_⟩
    · have := hp.mem_iff.1 (List.getElem_mem hkl)
      simpa using this
    · have hcm : c ∈ isorted := hp.mem_iff.2 (by simpa using hc)
      obtain ⟨j, hj, rfl⟩ := List.getElem_of_mem hcm
      have hle := h2 (cost isorted[j]) (List.mem_map.2 ⟨_, List.getElem_mem hj, rfl⟩)
      simp only [List.getElem_map] at hle h3
      refine ⟨hle, fun he => ?_⟩
      rcases Nat.lt_trichotomy j k with h | h | h
      · have h9 := h3 j h
        have he' : cost isorted[j] = cost isorted[k] := he
        rw [he'] at h9
        exact absurd h9 (Nat.lt_irrefl _)
      · subst h; exact le_refl _
      · exact List.pairwise_iff_getElem.1 hs k j hkl hj h

/-- C243: the box of a label is beside its point at the distance of the padding, or has the point in its middle. -/
theorem C243_box (root size pad : ℚ) :
    (box root size pad 0).2 = root - pad ∧ ((box root size pad 1).1 + (box root size pad 1).2) / 2 = root ∧ (box root size pad 2).1 = root + pad ∧
    ∀ c, (box root size pad c).2 - (box root size pad c).1 = size := by
  refine ⟨?_, ?_, ?_, fun c => ?_⟩ <;> simp only [box] <;> push_cast <;> ring

/-- C243: each candidate is on a segment of the line that is seen, at its length along them. -/
theorem C243_on_line (lens : List ℚ) (hl : lens ≠ []) (hpos : ∀ a ∈ lens, 0 < a) (d : ℚ) (h0 : 0 ≤ d) (h1 : d ≤ lens.sum) :
    ∃ a, lens[(onSegment lens d).1]? = some a ∧ 0 ≤ (onSegment lens d).2 ∧ (onSegment lens d).2 ≤ 1 ∧
      (lens.take (onSegment lens d).1).sum + (onSegment lens d).2 * a = d := by
  have take_sum : ∀ (l : List ℚ) (s : ℚ) (i : Nat) (x : ℚ), (cum s l)[i]? = some x → s + (l.take i).sum = x := by
    intro l
    induction l with
    | nil =>
      intro s i x h
      cases i with
      | zero => simpa [cum] using h
      | succ i => simp [cum] at h
    | cons a l ih =>
      intro s i x h
      cases i with
      | zero => simpa [cum] using h
      | succ i =>
        have := ih (s + a) i x (by simpa [cum] using h)
        simp only [List.take_succ_cons, List.sum_cons]; linarith
  rcases LB.nearest_spec d (cum 0 lens) 0 none (LB.cum_inc lens 0 hpos) (fun j b e => by simp at e) with ⟨k, s, hk, hsd, hn, hnext⟩ | ⟨hall, hn⟩
  · have hkl : k < lens.length := by
      by_contra hc
      have hk' : k < (cum 0 lens).length := (List.getElem?_eq_some_iff.1 hk).1
      rw [LB.cum_len] at hk'
      have : k = lens.length := by omega
      subst this
      rw [LB.cum_last] at hk
      have := Option.some.inj hk
      linarith
    have ha : lens[k]? = some lens[k] := List.getElem?_eq_getElem hkl
    obtain ⟨x, hx1, hx2⟩ := LB.cum_succ 0 lens k _ ha
    rw [hk] at hx1
    obtain rfl := Option.some.inj hx1
    have hle := hnext (k + 1) _ (by omega) hx2
    have hap := hpos _ (List.getElem_mem hkl)
    have e : onSegment lens d = (k, (d - s) / lens[k]) := by
      unfold onSegment
      rw [Nat.zero_add] at hn
      simp only [hn, List.getD_eq_getElem?_getD, hk, ha, Option.getD_some]
    rw [e]
    refine ⟨lens[k], ha, div_nonneg (by linarith) hap.le, (div_le_one hap).2 (by linarith), ?_⟩
    have := take_sum lens 0 k s hk
    dsimp only
    rw [div_mul_cancel₀ _ hap.ne']
    linarith
  · have hd : d = 0 := le_antisymm (hall 0 (List.mem_of_getElem? (LB.cum_zero 0 lens))) h0
    obtain ⟨a, l, rfl⟩ : ∃ a l, lens = a :: l := by
      cases lens with
      | nil => exact absurd rfl hl
      | cons a l => exact ⟨a, l, rfl⟩
    have e : onSegment (a :: l) d = (0, 0) := by
      unfold onSegment
      have : nearest d 0 (cum 0 (a :: l)) none = 0 := by rw [hn]; rfl
      simp only [this, List.getD_eq_getElem?_getD, LB.cum_zero, Option.getD_some, sub_zero]
      rw [hd, zero_div]
    rw [e]
    exact ⟨a, rfl, le_refl _, by norm_num, by simp [hd]⟩

/-- C243: texts as colours are used in turn; without colours the label has that of its line. Missing: numbers as colours, see the next theorem. -/
theorem C243_colors_partial (l : List String) (hl : l ≠ []) (h : ∀ s ∈ l, s ≠ "") (n i : Nat) (hi : i < n) :
    (∃ cs, cycleColors (.texts l) n = .ok cs ∧ ∃ s, l[i % l.length]? = some s ∧ labelColor cs i = .ok (some (.text s))) ∧
    (∃ cs, cycleColors .nothing n = .ok cs ∧ labelColor cs i = .ok none) := by
  refine ⟨⟨_, rfl, ?_⟩, ⟨_, rfl, ?_⟩⟩
  · have hpos : 0 < l.length := List.length_pos_iff.2 hl
    have hlt : i % l.length < l.length := Nat.mod_lt _ hpos
    refine ⟨l[i % l.length], List.getElem?_eq_getElem hlt, ?_⟩
    unfold labelColor cyc
    rw [List.getElem?_map, List.getElem?_range hi, Option.map_some, List.getElem?_eq_getElem hlt, Option.map_some]
    simp only
    rw [if_neg (h _ (List.getElem_mem hlt))]
  · unfold labelColor
    rw [List.getElem?_replicate, if_pos hi]

/-- C243 is violated: colours that are numbers, as an array, or as rows of three or four, are refused for every label. -/
theorem C243_numbers_violated (n i : Nat) (hi : i < n) (l : List (List ℚ)) (hl : l ≠ []) (h : ∀ r ∈ l, r.length = 3 ∨ r.length = 4) :
    cycleColors (.array l) n = .error .value ∧ ∃ cs, cycleColors (.rows l) n = .ok cs ∧ labelColor cs i = .error .value := by
  refine ⟨rfl, _, rfl, ?_⟩
  have hpos : 0 < l.length := List.length_pos_iff.2 hl
  have hlt : i % (l.map rgba).length < (l.map rgba).length := Nat.mod_lt _ (by simpa using hpos)
  unfold labelColor cyc
  rw [List.getElem?_map, List.getElem?_range hi, Option.map_some, List.getElem?_eq_getElem hlt, Option.map_some]
  simp only [List.getElem_map]
  have hm := h _ (List.getElem_mem (show i % (l.map rgba).length < l.length by simpa using hlt))
  generalize l[i % (l.map rgba).length]'(by simpa using hlt) = r at hm ⊢
  have hr : 2 ≤ (rgba r).length := by
    unfold rgba
    split
    · simp only [List.length_append, List.length_cons, List.length_nil]; omega
    · omega
  generalize rgba r = q at hr ⊢
  match q, hr with
  | _ :: _ :: _, _ => rfl

/-- C243: rows of numbers are taken in turn too; three become opaque, four stay as they are (but see the last theorem). -/
theorem C243_rows (l : List (List ℚ)) (n i : Nat) (hi : i < n) (r : List ℚ) (hr : l[i % l.length]? = some r) :
    ∃ cs, cycleColors (.rows l) n = .ok cs ∧ cs.length = n ∧ (r.length = 3 → cs[i]? = some (some (.rgba (r ++ [1])))) ∧ (r.length = 4 → cs[i]? = some (some (.rgba r))) := by
  refine ⟨_, rfl, by rw [List.length_map, List.length_range], fun h => ?_, fun h => ?_⟩
  · rw [List.getElem?_map, List.getElem?_range hi, Option.map_some, cyc, List.length_map, List.getElem?_map, hr]
    simp [rgba, h]
  · rw [List.getElem?_map, List.getElem?_range hi, Option.map_some, cyc, List.length_map, List.getElem?_map, hr]
    simp [rgba, h]

/-- C243: one more line or label below a candidate makes it worse, a label as much as five lines, and leaving the axes as much as a hundred. -/
theorem C243_penalty (p b : Nat) (inside : Bool) :
    penalty 0 0 true = 0 ∧ penalty (p + 1) b inside = penalty p b inside + 1 ∧ penalty p (b + 1) inside = penalty (p + 5) b inside ∧
    penalty p b false = penalty (p + 100) b true := by
  unfold penalty
  refine ⟨rfl, by omega, by omega, by simp; omega⟩

/-- C243 is violated: placing a label is an IndexError as soon as more labels have been placed before than there are paths, as it is with labels
of patches in axes without lines. -/
theorem C243_filled_violated (paths boxes : Nat) : askFilled paths boxes = .error .index ↔ paths < boxes := by
  unfold askFilled
  split <;> simp <;> omega

/-- C243 is violated: a padding in fractions of the axes is the place of such a point and not a length; a padding of nothing is as far as the axes are
from the corner of the figure. -/
theorem C243_padding_violated (dpi lo hi : ℚ) : asPixels .fraction dpi lo hi 0 = lo ∧
    (lo ≠ 0 → ∀ x, asPixels .fraction dpi lo hi x ≠ x * (hi - lo)) := by
  constructor
  · simp [asPixels]
  · intro h x e
    simp only [asPixels] at e
    exact h (by linarith)

/-- C243 is violated: the default padding is the size of the font in points, but in pixels it is another one unless a point is a pixel. -/
theorem C243_default_violated (dpi font lo hi : ℚ) (hd : 0 < dpi) (hf : 0 < font) :
    asPixels .points dpi lo hi (defaultPadding .points dpi font) = dpi / 72 * font ∧
    (asPixels .pixels dpi lo hi (defaultPadding .pixels dpi font) = dpi / 72 * font ↔ dpi = 72) := by
  refine ⟨rfl, ?_⟩
  simp only [asPixels, defaultPadding]
  constructor
  · intro h
    rw [div_eq_iff hd.ne'] at h
    have h' : font * (72 * 72 - dpi * dpi) = 0 := by linarith
    rcases mul_eq_zero.1 h' with h | h
    · linarith
    · nlinarith
  · rintro rfl; ring

/-- C243: the estimated width is enough for each line of the text at the given aspect, and the height grows with the lines. -/
theorem C243_size (aspect spacing dpi size : ℚ) (ha : 0 ≤ aspect) (hd : 0 ≤ dpi) (hs : 0 ≤ size) (lines : List (List Char)) :
    (∀ l ∈ lines, aspect * (dpi * size / 72) * l.length ≤ (textSize aspect spacing dpi size lines).1) ∧
    (textSize aspect spacing dpi size lines).2 = lines.length * (spacing * (dpi * size / 72)) := by
  have hm : ∀ (l : List Nat) (a : Nat), a ≤ l.foldl max a ∧ ∀ x ∈ l, x ≤ l.foldl max a := by
    intro l
    induction l with
    | nil => intro a; simp
    | cons b l ih =>
      intro a
      obtain ⟨h1, h2⟩ := ih (max a b)
      refine ⟨Nat.le_trans (Nat.le_max_left _ _) h1, fun x hx => ?_⟩
      rcases List.mem_cons.1 hx with rfl | hx
      · exact Nat.le_trans (Nat.le_max_right _ _) h1
      · exact h2 x hx
  refine ⟨fun l hl => ?_, by simp only [textSize]; ring⟩
  simp only [textSize]
  apply mul_le_mul_of_nonneg_left
  · exact_mod_cast (hm (lines.map List.length) 0).2 _ (List.mem_map.2 ⟨l, hl, rfl⟩)
  · exact mul_nonneg ha (div_nonneg (mul_nonneg hd hs) (by norm_num))

/-- The hypotheses of C243 are met. -/
example : winner [2, 0, 3, 1] (fun c => [6, 1, 6, 1].getD c 0) 2 = some (3, 1) := by decide
example : onSegment [3, 4, 1] 5 = (1, 1 / 2) ∧ onSegment [3, 4, 1] 3 = (0, 1) ∧ onSegment [3, 4, 1] 0 = (0, 0) := by decide +kernel

end Viscid.Props
