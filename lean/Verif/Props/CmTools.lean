import Verif.Model.CmTools
import Verif.Spec.CmTools
import Mathlib.Tactic.Ring
import Mathlib.Data.List.Forall2
import Mathlib.Data.List.GetD
/-!
# C242: colour maps from arrays and back
-/
namespace Viscid.Props
open Viscid.CmTools Viscid.Spec.CmTools

namespace CT

theorem place_eq (n i : Nat) (h : i < n) : place n i = i := by
  unfold place
  split
  · omega
  · rename_i h1
    obtain ⟨k, rfl⟩ : ∃ k, n = k + 2 := ⟨n - 2, by omega⟩
    have e : k + 2 - 1 = k + 1 := by omega
    rw [e]
    rcases Nat.lt_or_ge i (k + 1) with h2 | h2
    · have : i * (k + 2) / (k + 1) = i := by
        have : i * (k + 2) = i + i * (k + 1) := by ring
        rw [this, Nat.add_mul_div_right _ _ (by omega), Nat.div_eq_of_lt h2, Nat.zero_add]
      rw [this]; omega
    · have : i = k + 1 := by omega
      subst this
      rw [Nat.mul_div_cancel_left _ (by omega)]; omega

theorem sample_eq (m : Map) : sample m = m.table := by
  unfold sample
  apply List.ext_getElem (by simp)
  intro i h1 h2
  simp only [List.getElem_map, List.getElem_range, List.getD_eq_getElem?_getD]
  rw [place_eq _ _ h2, List.getElem?_eq_getElem h2, Option.getD_some]

theorem mix_zero : ∀ (a b : Clr), a.length = b.length → mix 0 a b = a
  | [], _, _ => by simp [mix]
  | x :: a, [], h => by simp at h
  | x :: a, y :: b, h => by
    have := mix_zero a b (by simpa using h)
    simp only [mix, List.zipWith_cons_cons] at this ⊢
    rw [this]; congr 1; ring

/-- colours on straight lines between 256 are these -/
theorem entries (rows : List Clr) (hl : rows.length = 256) (h4 : ∀ r ∈ rows, r.length = 4) : (List.range 256).map (entry rows) = rows := by
  apply List.ext_getElem (by simp [hl])
  intro j h1 h2
  simp only [List.getElem_map, List.getElem_range]
  unfold entry
  have e1 : j * (rows.length - 1) / 255 = j := by rw [hl]; exact Nat.mul_div_cancel _ (by omega)
  have e2 : j * (rows.length - 1) % 255 = 0 := by rw [hl]; exact Nat.mul_mod_left _ _
  simp only [e1, e2, Nat.cast_zero, zero_div]
  split
  · rename_i h
    rw [List.getD_eq_getElem _ _ h2, List.getD_eq_getElem _ _ h, mix_zero _ _ (by rw [h4 _ (List.getElem_mem _), h4 _ (List.getElem_mem _)])]
  · rw [List.getD_eq_getElem _ _ h2]

theorem fromList_256 (name : String) (rows : List Clr) (hl : rows.length = 256) (h4 : ∀ r ∈ rows, r.length = 4) :
    fromList name rows = .ok ⟨true, name, rows⟩ := by
  unfold fromList
  have hall : (rows.all (fun r => r.length == 3 || r.length == 4) && decide (2 ≤ rows.length)) = true := by
    simp only [Bool.and_eq_true, List.all_eq_true, decide_eq_true_eq]
    exact ⟨fun r hr => by simp [h4 r hr], by omega⟩
  rw [if_pos hall]
  have hm : (rows.map fun r => if r.length = 3 then r ++ [1] else r) = rows := by
    conv => rhs; rw [← List.map_id rows]
    apply List.map_congr_left
    intro r hr
    rw [if_neg (by rw [h4 r hr]; decide)]; rfl
  simp only [hm, entries rows hl h4]

end CT

/-- C242: an array of colours with three or four numbers becomes one with opacities; others are refused; and a map, of whatever kind and size,
gives its colours, each once and in order. -/
theorem C242_rgba (w : Nat) (rows : List Clr) (hw : ∀ r ∈ rows, r.length = w) :
    (w = 3 ∨ w = 4 → ∃ out, toRgba (.array w rows) = .ok out ∧ List.Forall₂ Opaque rows out) ∧
    (w ≠ 3 → w ≠ 4 → toRgba (.array w rows) = .error .value) ∧
    ∀ m : Map, toRgba (.map m) = .ok m.table := by
  refine ⟨?_, ?_, fun m => by simp only [toRgba, CT.sample_eq]⟩
  · rintro (rfl | rfl)
    · refine ⟨rows.map (· ++ [1]), rfl, ?_⟩
      rw [List.forall₂_map_right_iff, List.forall₂_same]
      intro r hr
      match r, hw r hr with
      | [a, b, c], _ => exact ⟨rfl, rfl, rfl⟩
    · refine ⟨rows, rfl, ?_⟩
      rw [List.forall₂_same]
      intro r hr
      match r, hw r hr with
      | [a, b, c, d], _ => exact ⟨rfl, rfl, rfl⟩
  · intro h1 h2
    simp only [toRgba, if_neg h1, if_neg h2]

/-- C242: reversed, a map of 256 colours has these the other way round and the name given; twice, it has its colours again. -/
theorem C242_reverse (m : Map) (name name' : String) (hl : m.table.length = 256) (h4 : ∀ r ∈ m.table, r.length = 4) :
    ∃ m', toLinear name (.map m) true = .ok m' ∧ m'.name = name ∧ m'.table = m.table.reverse ∧
      ∃ m'', toLinear name' (.map m') true = .ok m'' ∧ m''.table = m.table := by
  have h4' : ∀ r ∈ m.table.reverse, r.length = 4 := fun r hr => h4 r (by simpa using hr)
  refine ⟨⟨true, name, m.table.reverse⟩, ?_, rfl, rfl, ⟨true, name', m.table⟩, ?_, rfl⟩
  · simp only [toLinear, Bool.true_or, if_true, CT.sample_eq]
    exact CT.fromList_256 _ _ (by simpa using hl) h4'
  · simp only [toLinear, Bool.true_or, if_true, CT.sample_eq, List.reverse_reverse]
    exact CT.fromList_256 _ _ hl h4

/-- C242: a map of 256 colours that is a list of colours becomes a linear one with the same colours and the name given. -/
theorem C242_linear (m : Map) (name : String) (hm : m.linear = false) (hl : m.table.length = 256) (h4 : ∀ r ∈ m.table, r.length = 4) :
    toLinear name (.map m) false = .ok ⟨true, name, m.table⟩ := by
  simp only [toLinear, hm, Bool.not_false, Bool.or_true, if_true, CT.sample_eq, Bool.false_eq_true, if_false]
  exact CT.fromList_256 _ _ hl h4

/-- C242: a map made of an array of two or more colours begins with the first and ends with the last, or the other way round if reversed. -/
theorem C242_ends (name : String) (w : Nat) (rows : List Clr) (hw : w = 3 ∨ w = 4) (hr : ∀ r ∈ rows, r.length = w) (a b : Clr) (mid : List Clr) (he : rows = a :: mid ++ [b]) :
    (∃ m, toLinear name (.array w rows) false = .ok m ∧ m.table.length = 256 ∧ (∃ x, m.table[0]? = some x ∧ Opaque a x) ∧ ∃ y, m.table[255]? = some y ∧ Opaque b y) ∧
    (∃ m, toLinear name (.array w rows) true = .ok m ∧ m.table.length = 256 ∧ (∃ x, m.table[0]? = some x ∧ Opaque b x) ∧ ∃ y, m.table[255]? = some y ∧ Opaque a y) := by
  have op : ∀ r : Clr, r.length = w → Opaque r (if r.length = 3 then r ++ [1] else r) := by
    intro r h
    rcases hw with rfl | rfl
    · match r, h with
      | [a, b, c], _ => exact ⟨rfl, rfl, rfl⟩
    · match r, h with
      | [a, b, c, d], _ => exact ⟨rfl, rfl, rfl⟩
  have key : ∀ (l : List Clr) (a b : Clr) (mid : List Clr), l = a :: mid ++ [b] → (∀ r ∈ l, r.length = w) →
      ∃ m, fromList name l = .ok m ∧ m.table.length = 256 ∧ (∃ x, m.table[0]? = some x ∧ Opaque a x) ∧ ∃ y, m.table[255]? = some y ∧ Opaque b y := by
    intro l a b mid hl hlw
    have hall : (l.all (fun r => r.length == 3 || r.length == 4) && decide (2 ≤ l.length)) = true := by
      simp only [Bool.and_eq_true, List.all_eq_true, decide_eq_true_eq]
      refine ⟨fun r hr => ?_, by rw [hl]; simp⟩
      rcases hw with h | h <;> simp [hlw r hr, h]
    unfold fromList
    rw [if_pos hall]
    refine ⟨_, rfl, by simp, ?_, ?_⟩
    · refine ⟨_, by simp only [List.getElem?_map, List.getElem?_range (show 0 < 256 by omega), Option.map_some]; rfl, ?_⟩
      have ea : entry (l.map fun r => if r.length = 3 then r ++ [1] else r) 0 = if a.length = 3 then a ++ [1] else a := by
        unfold entry
        simp only [Nat.zero_mul, Nat.zero_div, Nat.zero_mod, Nat.cast_zero, zero_div]
        rw [if_pos (by rw [hl]; simp)]
        rw [CT.mix_zero]
        · rw [hl]; simp
        · have four : ∀ (k : Nat) (h : k < l.length), ((l.map fun r => if r.length = 3 then r ++ [1] else r).getD k []).length = 4 := by
            intro k h
            rw [List.getD_eq_getElem _ _ (by simpa using h), List.getElem_map]
            exact (op _ (hlw _ (List.getElem_mem _))).1
          rw [four 0 (by rw [hl]; simp), four (0 + 1) (by rw [hl]; simp)]
      rw [ea]
      exact op a (hlw a (by rw [hl]; simp))
    · refine ⟨_, by simp only [List.getElem?_map, List.getElem?_range (show 255 < 256 by omega), Option.map_some]; rfl, ?_⟩
      have eb : entry (l.map fun r => if r.length = 3 then r ++ [1] else r) 255 = if b.length = 3 then b ++ [1] else b := by
        unfold entry
        simp only [Nat.mul_div_cancel_left _ (show 0 < 255 by omega)]
        rw [if_neg (by rw [hl]; simp)]
        rw [hl]
        simp
      rw [eb]
      exact op b (hlw b (by rw [hl]; simp))
  constructor
  · simp only [toLinear, Bool.false_eq_true, if_false]
    exact key rows a b mid he hr
  · simp only [toLinear, if_true]
    refine key rows.reverse b a mid.reverse (by rw [he]; simp) (fun r h => hr r (by simpa using h))

/-- C242 is violated: a linear map that is not reversed keeps its own name. -/
theorem C242_name_violated (m : Map) (h : m.linear = true) (name : String) (hn : name ≠ m.name) :
    ∃ m', toLinear name (.map m) false = .ok m' ∧ m'.name ≠ name :=
  ⟨m, by simp [toLinear, h], fun e => hn e.symm⟩

/-- C242 is violated: lists of colours are never made. A linear map is given back as it is; of an array or another map, the name becomes the colours,
as many as it has characters, and the colours become the name. -/
theorem C242_listed_violated (name : String) :
    (∀ m : Map, m.linear = true → toListed name (.map m) false = .inl m) ∧
    (∀ (w : Nat) (rows : List Clr) (r : Bool), ∃ l, toListed name (.array w rows) r = .inr l ∧ l.colors = name ∧ l.n = name.length) ∧
    (∀ m : Map, m.linear = false → ∃ l, toListed name (.map m) false = .inr l ∧ l.colors = name ∧ l.n = name.length ∧ l.name = m.table) := by
  refine ⟨fun m h => by simp [toListed, h], fun w rows r => ⟨_, rfl, rfl, rfl⟩, fun m h => ?_⟩
  refine ⟨⟨name, m.table, name.length⟩, ?_, rfl, rfl, rfl⟩
  simp [toListed, h, CT.sample_eq]

/-- The hypotheses of C242 are met. -/
example : ∃ m : Map, m.table.length = 256 ∧ (∀ r ∈ m.table, r.length = 4) ∧ m.linear = false :=
  ⟨⟨false, "jet", (List.range 256).map fun i : Nat => [(i : ℚ), 0, 1, 1]⟩, by rw [List.length_map, List.length_range], fun r hr => by
    obtain ⟨i, -, rfl⟩ := List.mem_map.1 hr
    rfl, rfl⟩
example : [[0, 0, 0], [1, 0, 0], [1, 1, 1]] = ([0, 0, 0] : Clr) :: [[1, 0, 0]] ++ [[1, 1, 1]] := rfl

end Viscid.Props
