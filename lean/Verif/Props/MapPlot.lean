import Verif.Model.MapPlot
import Verif.Spec.MapPlot
import Mathlib.Tactic.Linarith
import Mathlib.Tactic.NormNum
import Mathlib.Algebra.Order.Field.Basic
import Mathlib.Algebra.Order.Floor.Ring
import Mathlib.Data.List.Forall2
/-!
# C244: maps of hemispheres
-/
namespace Viscid.Props
open Viscid.MapPlot Viscid.Spec.MapPlot

/-- C244: without a choice, a field with latitudes of one hemisphere only is shown as such, any other as the northern one. -/
theorem C244_hemisphere (lat : List ℚ) :
    ((∀ l ∈ lat, 0 ≤ l) → hemisphere "none" lat = .ok .north) ∧
    ((∀ l ∈ lat, l ≤ 0) → (∃ l ∈ lat, l < 0) → hemisphere "none" lat = .ok .south) ∧
    ((∃ l ∈ lat, l < 0) → (∃ l ∈ lat, 0 < l) → hemisphere "none" lat = .ok .north) ∧
    (∀ g, g = "north" ∨ g = "n" → hemisphere g lat = .ok .north) ∧ (∀ g, g = "south" ∨ g = "s" → hemisphere g lat = .ok .south) ∧
    ∀ g, g ∉ ["none", "north", "n", "south", "s"] → hemisphere g lat = .error .value := by
  refine ⟨fun h => ?_, fun h ⟨l, hl, h1⟩ => ?_, fun ⟨l, hl, h1⟩ ⟨k, hk, h2⟩ => ?_, ?_, ?_, ?_⟩
  · have : ∀ l ∈ lat, 0 ≤ l := h
    simp only [hemisphere, if_true, if_pos this, true_or]
  · have hn : ¬ ∀ l ∈ lat, 0 ≤ l := fun h' => by have := h' l hl; linarith
    simp only [hemisphere, if_true, if_neg hn, if_pos h]
    decide
  · have hn : ¬ ∀ l ∈ lat, 0 ≤ l := fun h' => by have := h' l hl; linarith
    have hn' : ¬ ∀ l ∈ lat, l ≤ 0 := fun h' => by have := h' k hk; linarith
    simp only [hemisphere, if_true, if_neg hn, if_neg hn', true_or]
  · rintro g (rfl | rfl) <;> simp [hemisphere]
  · rintro g (rfl | rfl) <;> simp [hemisphere]
  · intro g hg
    simp only [List.mem_cons, List.not_mem_nil, or_false, not_or] at hg
    simp [hemisphere, hg]

/-- C244: the bound of the picture is what is given, negative for the south; else 40 degrees for more than a hemisphere, and 90 for less. -/
theorem C244_bound (lat : List ℚ) (b : ℚ) (hb : 0 ≤ b) :
    bounding (some b) lat .north = b ∧ bounding (some b) lat .south = -b ∧ bounding (some (-b)) lat .south = -b ∧
    (∀ a z mid, lat = a :: mid ++ [z] → |z - a| ≤ 90 → bounding none lat .north = 90 ∧ bounding none lat .south = -90) ∧
    (∀ a z mid, lat = a :: mid ++ [z] → 91 ≤ |z - a| → bounding none lat .north = 40 ∧ bounding none lat .south = -40) := by
  refine ⟨rfl, ?_, ?_, ?_, ?_⟩
  · simp [bounding, abs_of_nonneg hb]
  · simp [bounding, abs_of_nonneg hb]
  · rintro a z mid rfl h
    have e1 : (a :: mid ++ [z]).getLastD 0 = z := by
      rw [List.getLastD_eq_getLast?, List.getLast?_concat, Option.getD_some]
    have e2 : (a :: mid ++ [z]).headD 0 = a := rfl
    have hn : ¬ (9001 / 100 : ℚ) ≤ |z - a| := by intro h'; linarith
    simp only [bounding, e1, e2, if_neg hn, true_and]
    norm_num
  · rintro a z mid rfl h
    have e1 : (a :: mid ++ [z]).getLastD 0 = z := by
      rw [List.getLastD_eq_getLast?, List.getLast?_concat, Option.getD_some]
    have e2 : (a :: mid ++ [z]).headD 0 = a := rfl
    have hn : (9001 / 100 : ℚ) ≤ |z - a| := by linarith
    simp only [bounding, e1, e2, if_pos hn, true_and]
    norm_num

/-- C244: the circles are those at 10 degrees from the pole and so on in steps of 10, or 20 in a picture of more than 50, as far as the picture goes. -/
theorem C244_circles (lim : ℚ) (r : ℚ) :
    r ∈ circles lim ↔ r < lim ∧ ∃ k : ℕ, r = 10 + k * (if 50 < lim then 20 else 10) := by
  have key : ∀ d : ℚ, 0 < d → (r ∈ arange 10 lim d ↔ r < lim ∧ ∃ k : ℕ, r = 10 + k * d) := by
    intro d hd
    simp only [arange, List.mem_map, List.mem_range]
    constructor
    · rintro ⟨k, hk, rfl⟩
      refine ⟨?_, k, rfl⟩
      have h1 : (k : ℤ) < ⌈(lim - 10) / d⌉ := by omega
      have h2 := Int.lt_ceil.1 h1
      rw [lt_div_iff₀ hd] at h2
      push_cast at h2
      linarith
    · rintro ⟨h, k, rfl⟩
      refine ⟨k, ?_, rfl⟩
      have h1 : (k : ℤ) < ⌈(lim - 10) / d⌉ := by
        rw [Int.lt_ceil, lt_div_iff₀ hd]
        push_cast
        linarith
      omega
  unfold circles
  split
  · exact key 20 (by norm_num)
  · exact key 10 (by norm_num)

/-- C244: each circle has the number of its latitude in the hemisphere shown, or of its angle from the pole if asked for, or none. -/
theorem C244_labels (lim : ℚ) :
    List.Forall₂ (fun r l => FromPole 90 l r) (circles lim) (latLabels .yes .north lim) ∧
    List.Forall₂ (fun r l => FromPole (-90) l r) (circles lim) (latLabels .yes .south lim) ∧
    (∀ h, latLabels .fromPole h lim = circles lim) ∧ ∀ h, latLabels .no h lim = [] := by
  refine ⟨?_, ?_, fun h => rfl, fun h => rfl⟩
  · simp only [latLabels]
    rw [List.forall₂_map_right_iff, List.forall₂_same]
    intro r hr
    obtain ⟨-, k, hk⟩ := (C244_circles lim r).1 hr
    have h0 : 0 ≤ r := by
      rw [hk]
      split <;> positivity
    refine ⟨?_, rfl⟩
    rw [show (90 : ℚ) - (90 - r) = r by ring, abs_of_nonneg h0]
  · simp only [latLabels]
    rw [List.forall₂_map_right_iff, List.forall₂_same]
    intro r hr
    obtain ⟨-, k, hk⟩ := (C244_circles lim r).1 hr
    have h0 : 0 ≤ r := by
      rw [hk]
      split <;> positivity
    refine ⟨?_, ?_⟩
    · rw [show (-90 : ℚ) - (-90 + r) = -r by ring, abs_neg, abs_of_nonneg h0]
    · rw [show (-90 : ℚ) + r = -(90 - r) by ring, abs_neg]

/-- C244: local times are at 15 degrees for each hour, from midnight. -/
theorem C244_local_time (p : ℚ × Nat) (h : p ∈ mltGrid) : p.1 = 15 * ((p.2 % 24 : ℕ) : ℚ) := by
  simp only [mltGrid, List.mem_cons, List.not_mem_nil, or_false] at h
  rcases h with rfl | rfl | rfl | rfl | rfl | rfl | rfl | rfl <;> norm_num

/-- C244: for the northern hemisphere the extremes beside a plot of the ionosphere are those of all longitudes and the latitudes from 10 degrees.
Missing: the southern hemisphere, see the next theorem. -/
theorem C244_north_partial (g : String) (lat : List ℚ) (h : hemisphere g lat = .ok .north) :
    ionoPart g lat = .ok [⟨"lon", .sel .all, false⟩, ⟨"lat", .sel .from10, false⟩] := by
  simp only [ionoPart, h]
  decide

/-- C244 is violated: there is no plot of the ionosphere of the southern hemisphere, asked for or found from the latitudes; it is always a ValueError. -/
theorem C244_south_violated (g : String) (lat : List ℚ) (h : hemisphere g lat = .ok .south) : ionoPart g lat = .error .value := by
  simp only [ionoPart, h]
  decide

/-- The hypotheses of C244 are met. -/
example : hemisphere "none" [-90, -45, 0] = .ok .south ∧ hemisphere "s" [3] = .ok .south ∧ hemisphere "none" [-90, 0, 90] = .ok .north := by decide +kernel
example : circles 40 = [10, 20, 30] ∧ circles 90 = [10, 30, 50, 70] ∧ latLabels .yes .south 40 = [-80, -70, -60] := by decide +kernel

end Viscid.Props
