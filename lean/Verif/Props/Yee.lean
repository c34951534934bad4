import Verif.Model.Yee
import Verif.Spec.Yee
import Verif.Props.Region
import Verif.Props.Dipole
import Mathlib.Tactic.Ring
import Mathlib.Tactic.FieldSimp
import Mathlib.Tactic.Linarith
/-!
# C178, C179, C180: face and edge centers, masks, dipoles
-/
namespace Viscid.Props
open Viscid.Yee Viscid.Spec.Yee
open Viscid.Spec.Region (OnPoints First Last Shifted)
open Viscid.Crds (Axis mid)
open Viscid.Arith (Exc bcast bidx)
open Viscid.Spec.Arith (Within)
open Viscid.Layout (Arr)

theorem mid_at (xs : List ℚ) (k : Nat) (p : ℚ) : (mid xs)[k]? = some p ↔ ∃ lo hi, Cell xs k lo hi ∧ p = (lo + hi) / 2 := by
  unfold mid
  by_cases h1 : xs.length = 1
  · obtain ⟨x, rfl⟩ := List.length_eq_one_iff.mp h1
    rw [if_pos h1]
    constructor
    · intro h
      cases k with
      | zero =>
        simp only [List.getElem?_cons_zero, Option.some.injEq] at h
        exact ⟨x, x, Or.inr ⟨rfl, rfl, rfl⟩, by rw [← h]; ring⟩
      | succ k => simp at h
    · rintro ⟨lo, hi, h | ⟨h, rfl, rfl⟩, rfl⟩
      · have := h.2; simp at this
      · simp only [List.cons.injEq, and_true] at h
        subst h
        simp
  · rw [if_neg h1]
    constructor
    · intro h
      rw [List.getElem?_zipWith] at h
      cases h2 : xs.dropLast[k]? with
      | none => rw [h2] at h; simp at h
      | some lo =>
        cases h3 : xs.tail[k]? with
        | none => rw [h2, h3] at h; simp at h
        | some hi =>
          rw [h2, h3] at h
          simp only [Option.some.injEq] at h
          refine ⟨lo, hi, Or.inl ⟨?_, ?_⟩, ?_⟩
          · rw [List.getElem?_dropLast] at h2
            split at h2
            · exact h2
            · simp at h2
          · rw [List.getElem?_tail] at h3
            exact h3
          · rw [← h]; ring
    · rintro ⟨lo, hi, h | ⟨h, -, -⟩, rfl⟩
      · rw [List.getElem?_zipWith]
        have hk : k + 1 < xs.length := (List.getElem?_eq_some_iff.mp h.2).1
        rw [List.getElem?_dropLast, if_pos (by omega), List.getElem?_tail, h.1, h.2]
        simp only [Option.some.injEq]
        ring
      · exact absurd (by rw [h]; rfl) h1

theorem sm1_at (xs : List ℚ) (k : Nat) (p : ℚ) : (sm1 xs)[k]? = some p ↔ ∃ hi, Cell xs k p hi := by
  unfold sm1
  by_cases h1 : xs.length ≤ 1
  · rw [if_pos h1]
    match xs, h1 with
    | [], _ => simp [Cell]
    | [x], _ =>
      constructor
      · intro h
        cases k with
        | zero =>
          simp only [List.getElem?_cons_zero, Option.some.injEq] at h
          exact ⟨p, Or.inr ⟨by rw [h], rfl, rfl⟩⟩
        | succ k => simp at h
      · rintro ⟨hi, h | ⟨h, rfl, rfl⟩⟩
        · have := h.2; simp at this
        · simp only [List.cons.injEq, and_true] at h
          subst h
          simp
  · rw [if_neg h1, List.getElem?_dropLast]
    constructor
    · intro h
      split at h
      · next hk => exact ⟨xs[k + 1], Or.inl ⟨h, List.getElem?_eq_getElem (by omega)⟩⟩
      · simp at h
    · rintro ⟨hi, h | ⟨h, -, -⟩⟩
      · have hk : k + 1 < xs.length := (List.getElem?_eq_some_iff.mp h.2).1
        rw [if_pos (by omega), h.1]
      · rw [h] at h1; exact absurd (Nat.le_refl 1) h1

theorem lower_flat {a : Axis} (h : a.nodes.length ≠ 1) : lower false a = lower true a := by
  unfold lower sm1
  simp only [Bool.false_eq_true, if_false, if_true]
  split
  · have : a.nodes = [] := List.length_eq_zero_iff.mp (by omega)
    rw [this]; rfl
  · rfl

theorem centres_none {a : Axis} (h : a.cc = none) : a.centres = mid a.nodes := by
  unfold Axis.centres
  rw [h]

/-- the list of axis `i` for component `c` -/
theorem crdsVector_get (shaped : Bool) (ctr : Center) (axs : List Axis) (i c : Nat) (a : Axis) (ha : axs[i]? = some a)
    (hc : c < if ctr = .face then axs.length else 3) :
    ((crdsVector shaped ctr axs)[i]?.bind fun l => l[c]?) = some (match ctr with
      | .node => a.nodes
      | .cell => a.centres
      | .face => if i = c then lower shaped a else a.centres
      | .edge => if i ≠ c then lower shaped a else a.centres) := by
  cases ctr with
  | node => simp only [reduceCtorEq, if_false] at hc; simp only [crdsVector, List.getElem?_map, ha, Option.map_some, Option.bind_some, List.getElem?_replicate, if_pos hc]
  | cell => simp only [reduceCtorEq, if_false] at hc; simp only [crdsVector, List.getElem?_map, ha, Option.map_some, Option.bind_some, List.getElem?_replicate, if_pos hc]
  | face => simp only [if_true] at hc; simp [crdsVector, faceCrds, ha, hc, List.getElem?_zipIdx]
  | edge => simp only [reduceCtorEq, if_false] at hc; simp [crdsVector, edgeCrds, ha, hc, List.getElem?_zipIdx]

/-- C178: along each axis, the shaped coordinates of each component of a face or edge centered vector field are those of a staggered grid, one for each cell: the
component along the axis is at the lower nodes and the others at the centers of the cells (faces), or the other way round (edges). Node and cell centered fields have all
components in one place. -/
theorem C178_shaped_partial (ctr : Center) (axs : List Axis) (i c : Nat) (a : Axis) (ha : axs[i]? = some a) (hcc : a.cc = none)
    (hc : c < if ctr = .face then axs.length else 3) :
    ∃ l, ((crdsVector true ctr axs)[i]?.bind fun l => l[c]?) = some l ∧ ∀ k p, l[k]? = some p ↔ At ctr a.nodes (decide (i = c)) k p := by
  refine ⟨_, crdsVector_get true ctr axs i c a ha hc, fun k p => ?_⟩
  have hl : lower true a = sm1 a.nodes := rfl
  cases ctr with
  | node => exact Iff.rfl
  | cell => simp only [centres_none hcc]; exact mid_at _ _ _
  | face =>
    by_cases h : i = c
    · simp only [h, if_true, decide_true, hl]; exact sm1_at _ _ _
    · simp only [h, if_false, decide_false, centres_none hcc]; exact mid_at _ _ _
  | edge =>
    by_cases h : i = c
    · simp only [h, ne_eq, not_true, if_false, decide_true, centres_none hcc]; exact mid_at _ _ _
    · simp only [h, ne_eq, not_false_iff, if_true, decide_false, hl]; exact sm1_at _ _ _

/-- C178: and so are the flat ones, along axes with more than one node -/
theorem C178_flat_partial (ctr : Center) (axs : List Axis) (i c : Nat) (a : Axis) (ha : axs[i]? = some a) (h1 : a.nodes.length ≠ 1)
    (hc : c < if ctr = .face then axs.length else 3) :
    ((crdsVector false ctr axs)[i]?.bind fun l => l[c]?) = ((crdsVector true ctr axs)[i]?.bind fun l => l[c]?) := by
  rw [crdsVector_get false ctr axs i c a ha hc, crdsVector_get true ctr axs i c a ha hc, lower_flat h1]

/-- C178 is violated: an axis with a single node has one cell, and one shaped coordinate, but no flat one -/
theorem C178_flat_violated (axs : List Axis) (i c : Nat) (a : Axis) (x : ℚ) (ha : axs[i]? = some a) (hx : a.nodes = [x]) (hi : i ≠ c) (hc : c < 3) :
    ((crdsVector true .face axs)[i]?.bind fun l => l[i]?) = some [x] ∧ ((crdsVector false .face axs)[i]?.bind fun l => l[i]?) = some [] ∧
    ((crdsVector true .edge axs)[i]?.bind fun l => l[c]?) = some [x] ∧ ((crdsVector false .edge axs)[i]?.bind fun l => l[c]?) = some [] := by
  have hl := (List.getElem?_eq_some_iff.mp ha).1
  rw [crdsVector_get true .face axs i i a ha (by simpa using hl), crdsVector_get false .face axs i i a ha (by simpa using hl),
    crdsVector_get true .edge axs i c a ha (by simpa using hc), crdsVector_get false .edge axs i c a ha (by simpa using hc)]
  simp [hi, lower, sm1, hx]

/-- C178 is violated: on a grid with two axes there are no face centered coordinates for the third component -/
theorem C178_plane_violated (shaped : Bool) (a b : Axis) (i : Nat) :
    ((crdsVector shaped .face [a, b])[i]?.bind fun l => l[2]?) = none := by
  match i with
  | 0 => simp [crdsVector, faceCrds, List.range_succ]
  | 1 => simp [crdsVector, faceCrds, List.range_succ]
  | i + 2 => simp [crdsVector, faceCrds]

/-- C178: the number of coordinates is the number of points of the field -/
theorem C178_count_partial (ctr : Center) (a : Axis) (hcc : a.cc = none) (own : Bool) (k : Nat) :
    k < count ctr a ↔ ∃ p, At ctr a.nodes own k p := by
  have hm : (mid a.nodes).length = (sm1 a.nodes).length := by
    unfold mid sm1
    by_cases h : a.nodes.length = 1
    · rw [if_pos h, if_pos (by omega)]
    · rw [if_neg h]
      by_cases h2 : a.nodes.length ≤ 1
      · rw [if_pos h2]
        have : a.nodes = [] := List.length_eq_zero_iff.mp (by omega)
        rw [this]; rfl
      · rw [if_neg h2]; simp
  have key : ∀ l : List ℚ, k < l.length ↔ ∃ p, l[k]? = some p := fun l => by
    exact ⟨fun h => ⟨l[k], List.getElem?_eq_getElem h⟩, fun ⟨p, h⟩ => (List.getElem?_eq_some_iff.mp h).1⟩
  unfold count
  cases ctr with
  | node => simpa [At] using key a.nodes
  | cell =>
    simp only [reduceCtorEq, if_false, centres_none hcc, At]
    rw [key]; exact exists_congr fun p => mid_at _ _ _
  | face =>
    simp only [reduceCtorEq, if_false, centres_none hcc]
    cases own
    · rw [key]; exact exists_congr fun p => mid_at _ _ _
    · rw [hm, key]; exact exists_congr fun p => sm1_at _ _ _
  | edge =>
    simp only [reduceCtorEq, if_false, centres_none hcc]
    cases own
    · rw [hm, key]; exact exists_congr fun p => sm1_at _ _ _
    · rw [key]; exact exists_congr fun p => mid_at _ _ _

/-- a grid with 2, 3 and 1 nodes -/
def yeeEx : List Axis := [⟨[0, 2], none, false⟩, ⟨[0, 1, 3], none, false⟩, ⟨[5], none, false⟩]

example : crdsVector true .face yeeEx = [[[0], [1], [1]], [[1 / 2, 2], [0, 1], [1 / 2, 2]], [[5], [5], [5]]] ∧
    crdsVector true .edge yeeEx = [[[1], [0], [0]], [[0, 1], [1 / 2, 2], [0, 1]], [[5], [5], [5]]] := by decide +kernel

end Viscid.Props
