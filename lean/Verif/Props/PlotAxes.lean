import Verif.Spec.PlotAxes
import Verif.Props.AsCotr
import Mathlib.Tactic.NormNum
import Mathlib.Tactic.Linarith
/-! # C219: limits and directions of axes -/
namespace Viscid.Props
open Viscid.PlotAxes Viscid.Spec.PlotAxes Viscid.Spec.AsCotr

namespace PA

theorem fold_min (x : ℚ) (l : List ℚ) : l.foldl min x ∈ x :: l ∧ ∀ y ∈ x :: l, l.foldl min x ≤ y := by
  induction l generalizing x with
  | nil => simp
  | cons a l ih =>
    obtain ⟨h1, h2⟩ := ih (min x a)
    rw [List.foldl_cons]
    refine ⟨?_, ?_⟩
    · rcases List.mem_cons.1 h1 with h | h
      · rw [h]; rcases min_choice x a with h | h <;> rw [h] <;> simp
      · simp [h]
    · intro y hy
      have h0 := h2 (min x a) (by simp)
      rcases List.mem_cons.1 hy with rfl | hy
      · exact le_trans h0 (min_le_left _ _)
      · rcases List.mem_cons.1 hy with rfl | hy
        · exact le_trans h0 (min_le_right _ _)
        · exact h2 y (by simp [hy])

theorem fold_max (x : ℚ) (l : List ℚ) : l.foldl max x ∈ x :: l ∧ ∀ y ∈ x :: l, y ≤ l.foldl max x := by
  induction l generalizing x with
  | nil => simp
  | cons a l ih =>
    obtain ⟨h1, h2⟩ := ih (max x a)
    rw [List.foldl_cons]
    refine ⟨?_, ?_⟩
    · rcases List.mem_cons.1 h1 with h | h
      · rw [h]; rcases max_choice x a with h | h <;> rw [h] <;> simp
      · simp [h]
    · intro y hy
      have h0 := h2 (max x a) (by simp)
      rcases List.mem_cons.1 hy with rfl | hy
      · exact le_trans (le_max_left _ _) h0
      · rcases List.mem_cons.1 hy with rfl | hy
        · exact le_trans (le_max_right _ _) h0
        · exact h2 y (by simp [hy])

theorem extend_shows (lim : ℚ × ℚ) (row : List ℚ) (lo hi : ℚ) (hl : lo ∈ row) (hh : hi ∈ row) (h : ∀ x ∈ row, lo ≤ x ∧ x ≤ hi) (hne : lim.1 ≠ lim.2) :
    Shows lim (extend lim lo hi) row := by
  have hlh := (h lo hl).2
  obtain ⟨a, b⟩ := lim
  simp only at hne
  unfold extend
  rcases lt_or_gt_of_ne hne with hab | hab
  · simp only [hab, if_true]
    refine ⟨?_, ?_, ?_, ?_, ?_⟩
    · intro x hx
      have := h x hx
      left; constructor <;> simp only <;> split <;> linarith
    · intro x hx
      rcases hx with hx | hx <;> simp only at hx
      · left; constructor <;> simp only <;> split <;> linarith
      · linarith
    · simp only; split
      · exact .inr hl
      · exact .inl rfl
    · simp only; split
      · exact .inr hh
      · exact .inl rfl
    · simp only [hab, true_iff]; split <;> split <;> linarith
  · have hn : ¬ a < b := not_lt.2 (le_of_lt hab)
    simp only [hn, if_false]
    refine ⟨?_, ?_, ?_, ?_, ?_⟩
    · intro x hx
      have := h x hx
      right; constructor <;> simp only <;> split <;> linarith
    · intro x hx
      rcases hx with hx | hx <;> simp only at hx
      · linarith
      · right; constructor <;> simp only <;> split <;> linarith
    · simp only; split
      · exact .inr hh
      · exact .inl rfl
    · simp only; split
      · exact .inr hl
      · exact .inl rfl
    · simp only [hn, false_iff, not_lt]; split <;> split <;> linarith

theorem one_ok (lim : ℚ × ℚ) (row : List ℚ) (hr : row ≠ []) (hne : lim.1 ≠ lim.2) : ∃ r, one lim row = .ok r ∧ Shows lim r row := by
  cases row with
  | nil => exact absurd rfl hr
  | cons x l =>
    obtain ⟨a1, a2⟩ := fold_min x l
    obtain ⟨b1, b2⟩ := fold_max x l
    exact ⟨_, rfl, extend_shows lim _ _ _ a1 b1 (fun y hy => ⟨a2 y hy, b2 y hy⟩) hne⟩

theorem const_ok (row : List ℚ) (hr : row ≠ []) : ∃ c, isConst row = .ok c ∧ (c = true ↔ Flat row) := by
  cases row with
  | nil => exact absurd rfl hr
  | cons x l =>
    refine ⟨_, rfl, ?_⟩
    rw [List.all_eq_true]
    constructor
    · intro h; exact ⟨x, rfl, fun y hy => by simpa using h y hy⟩
    · rintro ⟨x', hx', h⟩ y hy
      simp at hx'; subst hx'
      simpa using h y hy

theorem clean_blank (s : List Char) (h : ∀ c ∈ s, Blank c) : AsCotr.clean s = [] :=
  (AC.clean_iff s []).2 ⟨[], ⟨s, [], by simp, h, by simp, by simp, by simp⟩, .nil⟩

end PA

/-- C219: all points are within the limits afterwards, and nothing that was is not; axes keep their direction, ends that move go to a point. -/
theorem C219_limits_partial (x y z : ℚ × ℚ) (a b : List ℚ) (c : Option (List ℚ)) (ha : a ≠ []) (hb : b ≠ []) (hc : ∀ r, c = some r → r ≠ [])
    (hx : x.1 ≠ x.2) (hy : y.1 ≠ y.2) (hz : z.1 ≠ z.2) :
    ∃ x' y' z', autolimit x y z (a :: b :: c.toList) = .ok (x', y', z') ∧ Shows x x' a ∧ Shows y y' b ∧
      (∀ r, c = some r → Shows z z' r) ∧ (c = none → z' = z) := by
  obtain ⟨x', e1, h1⟩ := PA.one_ok x a ha hx
  obtain ⟨y', e2, h2⟩ := PA.one_ok y b hb hy
  cases c with
  | none =>
    refine ⟨x', y', z, ?_, h1, h2, by simp, fun _ => rfl⟩
    simp only [Option.toList, autolimit, e1, e2]; rfl
  | some r =>
    obtain ⟨z', e3, h3⟩ := PA.one_ok z r (hc r rfl) hz
    refine ⟨x', y', z', ?_, h1, h2, ?_, by simp⟩
    · simp only [Option.toList, autolimit, e1, e2, e3]; rfl
    · intro r' hr'; cases hr'; exact h3

/-- C219 is false: an axis of which the limits are equal, with points on both sides, is turned around. -/
theorem C219_equal_violated (c lo hi : ℚ) (h1 : lo < c) (h2 : c < hi) : extend (c, c) lo hi = (hi, lo) := by
  unfold extend
  simp [h1, h2]

/-- C219: a direction that is named is the one that is left out, and the others follow in order; however it is written. -/
theorem C219_named (rows : List (List ℚ)) (s u : List Char) (hs : Name s u) (h3 : 3 ≤ rows.length) :
    (u = ['x'] → xyzind rows s = .ok (1, 2, some 0)) ∧ (u = ['y'] → xyzind rows s = .ok (0, 2, some 1)) ∧ (u = ['z'] → xyzind rows s = .ok (0, 1, some 2)) ∧
      (u ≠ [] → u ≠ ['x'] → u ≠ ['y'] → u ≠ ['z'] → xyzind rows s = .error .value) := by
  have e := (AC.clean_iff s u).2 hs
  have hl : ¬ rows.length < 3 := by omega
  unfold xyzind
  simp only [e]
  refine ⟨?_, ?_, ?_, ?_⟩
  · rintro rfl; simp [hl]
  · rintro rfl; simp [hl]
  · rintro rfl; simp [hl]
  · intro h0 h1 h2 h3; simp [hl, h0, h1, h2, h3]

/-- C219: a direction is refused for points in a plane. -/
theorem C219_refused (rows : List (List ℚ)) (s u : List Char) (hs : Name s u) (hu : u ≠ []) (h3 : rows.length < 3) : xyzind rows s = .error .value := by
  have e := (AC.clean_iff s u).2 hs
  unfold xyzind
  simp [e, hu, h3]

/-- C219: without one, the last direction along which nothing changes is left out, or z if there is none. -/
theorem C219_plane (a b c : List ℚ) (s : List Char) (hs : ∀ d ∈ s, Blank d) (ha : a ≠ []) (hb : b ≠ []) (hc : c ≠ []) :
    (Flat c → xyzind [a, b, c] s = .ok (0, 1, some 2)) ∧
    (¬ Flat c → Flat b → xyzind [a, b, c] s = .ok (0, 2, some 1)) ∧
    (¬ Flat c → ¬ Flat b → Flat a → xyzind [a, b, c] s = .ok (1, 2, some 0)) ∧
    (¬ Flat c → ¬ Flat b → ¬ Flat a → xyzind [a, b, c] s = .ok (0, 1, some 2)) := by
  obtain ⟨ca, ea, ha⟩ := PA.const_ok a ha
  obtain ⟨cb, eb, hb⟩ := PA.const_ok b hb
  obtain ⟨cc, ec, hc⟩ := PA.const_ok c hc
  have e := PA.clean_blank s hs
  rw [← ha, ← hb, ← hc]
  have h2 : isConst ([a, b, c][2]?.getD []) = .ok cc := ec
  have h1 : isConst ([a, b, c][1]?.getD []) = .ok cb := eb
  have h0 : isConst ([a, b, c][0]?.getD []) = .ok ca := ea
  have hcull : cull [a, b, c] 3 [0, 1, 2] = .ok (if cc then [0, 1] else if cb then [0, 2] else if ca then [1, 2] else [0, 1, 2]) := by
    rw [cull, h2]
    cases cc
    · show cull [a, b, c] 2 [0, 1, 2] = _
      rw [cull, h1]
      cases cb
      · show cull [a, b, c] 1 [0, 1, 2] = _
        rw [cull, h0]
        cases ca <;> rfl
      · rfl
    · rfl
  have hx : xyzind [a, b, c] s = (do
      let l ← (.ok (if cc then [0, 1] else if cb then [0, 2] else if ca then [1, 2] else [0, 1, 2]) : Except Err (List Nat))
      let (x, y) := match l with
        | [a, b] => (a, b)
        | _ :: _ :: _ :: _ => (0, 1)
        | _ => (0, 0)
      return (x, y, if 3 > 2 then ((List.range 3).filter fun k => k ≠ x ∧ k ≠ y).head? else none)) := by
    rw [← hcull]
    unfold xyzind
    rw [e]; rfl
  rw [hx]
  clear hx hcull ha hb hc ea eb ec h0 h1 h2
  cases ca <;> cases cb <;> cases cc <;> refine ⟨?_, ?_, ?_, ?_⟩ <;> intros <;> first | rfl | contradiction

/-- C219: points in a plane are drawn as they are. -/
theorem C219_two (a b : List ℚ) (s : List Char) (hs : ∀ d ∈ s, Blank d) : xyzind [a, b] s = .ok (0, 1, none) := by
  unfold xyzind
  rw [PA.clean_blank s hs]; rfl

example : Within (5, -5) (-3) ∧ Shows (5, -5) (7, -5) [-3, 7] := by
  refine ⟨.inr (by norm_num), ⟨?_, ?_, by simp, by simp, by norm_num⟩⟩
  · intro x hx; simp at hx; rcases hx with rfl | rfl <;> exact .inr (by norm_num)
  · rintro x (h | h)
    · exfalso; simp only at h; linarith [h.1, h.2]
    · exact .inr ⟨h.1, by have := h.2; simp only at this ⊢; linarith⟩
example : Flat [2, 2, 2] ∧ ¬ Flat [1, 2] :=
  ⟨⟨2, rfl, by intro y hy; simp at hy; subst hy; norm_num⟩, by rintro ⟨x, h, h'⟩; simp at h; subst h; have := h' 2 (by simp); norm_num at this⟩

end Viscid.Props
