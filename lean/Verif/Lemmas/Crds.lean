import Verif.Model.Crds
import Verif.Spec.Crds
import Mathlib.Tactic.Linarith
import Mathlib.Tactic.Ring
import Mathlib.Tactic.FieldSimp
/-!
# Lemmas about coordinates
-/
namespace Viscid.Crds
open Viscid.Spec.Crds Viscid.Spec.Slice
open Viscid.FwdSlice (Slc)

theorem mid_length (l : List ℚ) (h : 2 ≤ l.length) : (mid l).length = l.length - 1 := by
  unfold mid; rw [if_neg (by omega)]; simp

theorem mid_get (l : List ℚ) (h : 2 ≤ l.length) (i : Nat) (a b : ℚ) (ha : l[i]? = some a) (hb : l[i + 1]? = some b) :
    (mid l)[i]? = some (a + (1 / 2) * (b - a)) := by
  unfold mid
  rw [if_neg (by omega), List.getElem?_zipWith]
  have h1 : i + 1 < l.length := (List.getElem?_eq_some_iff.mp hb).1
  have e1 : l.dropLast[i]? = some a := by
    rw [List.getElem?_dropLast, if_pos (by omega), ha]
  have e2 : l.tail[i]? = some b := by rw [List.getElem?_tail, hb]
  rw [e1, e2]

theorem reflectArr_get (l : List ℚ) (i : Nat) (h : i < l.length) :
    (reflectArr l)[i]? = (l[l.length - 1 - i]?).map fun x => -x := by
  unfold reflectArr
  rw [List.getElem?_map, List.getElem?_reverse h]
  congr 1
  funext x; ring

theorem reflectArr_length (l : List ℚ) : (reflectArr l).length = l.length := by
  unfold reflectArr; simp

theorem reflectArr_invol (l : List ℚ) : reflectArr (reflectArr l) = l := by
  unfold reflectArr
  rw [← List.map_reverse, List.reverse_reverse, List.map_map]
  conv_rhs => rw [← List.map_id l]
  congr 1
  funext x
  simp

theorem reflectArr_increasing (l : List ℚ) (h : Increasing l) : Increasing (reflectArr l) := by
  unfold Increasing reflectArr at *
  rw [List.pairwise_map, List.pairwise_reverse]
  exact h.imp fun {a b} hab => by linarith

theorem mid_reflect (l : List ℚ) : mid (reflectArr l) = reflectArr (mid l) := by
  by_cases h1 : l.length = 1
  · unfold mid
    rw [if_pos h1, if_pos (by rw [reflectArr_length, h1])]
  by_cases h0 : l.length = 0
  · rw [List.length_eq_zero_iff.mp h0]; rfl
  apply List.ext_getElem?
  intro i
  have hl : 2 ≤ l.length := by omega
  have hml := mid_length l hl
  have hr : 2 ≤ (reflectArr l).length := by rw [reflectArr_length]; exact hl
  by_cases hi : i < l.length - 1
  · have get : ∀ k, k < l.length → l[k]? = some (l.getD k 0) := by
      intro k hk; rw [List.getD_eq_getElem?_getD, List.getElem?_eq_getElem hk]; rfl
    have e1 := reflectArr_get l i (by omega)
    have e2 := reflectArr_get l (i + 1) (by omega)
    rw [get _ (by omega)] at e1 e2
    rw [mid_get _ hr i _ _ e1 e2, reflectArr_get _ i (by omega), hml]
    have e3 := mid_get l hl (l.length - 1 - 1 - i) _ _ (get _ (by omega)) (get _ (by omega))
    rw [e3]
    simp only [Option.map_some, Option.some.injEq]
    rw [show l.length - 1 - 1 - i + 1 = l.length - 1 - i by omega, show l.length - 1 - (i + 1) = l.length - 1 - 1 - i by omega]
    ring
  · rw [List.getElem?_eq_none (by rw [mid_length _ hr, reflectArr_length]; omega),
      List.getElem?_eq_none (by rw [reflectArr_length, hml]; omega)]

/-! ### Slices with step one -/

theorem pyRange_one (a b : Int) : pyRange a b 1 = ap a 1 (b - a).toNat := by
  unfold pyRange rangeLen
  rw [if_pos (by omega)]
  split
  · congr 1; omega
  · congr 1; omega

theorem map_ap (l : List ℚ) (a b : Nat) (hb : b ≤ l.length) :
    (ap (a : Int) 1 (b - a)).map (fun i => l.getD i.toNat 0) = (l.take b).drop a := by
  unfold ap
  rw [List.map_map]
  apply List.ext_getElem?
  intro i
  rw [List.getElem?_map, List.getElem?_drop, List.getElem?_take]
  by_cases hi : i < b - a
  · rw [List.getElem?_range hi, if_pos (by omega)]
    simp only [Option.map_some, Function.comp]
    rw [show ((a : Int) + (i : Int) * 1).toNat = a + i by omega, List.getD_eq_getElem?_getD,
      List.getElem?_eq_getElem (by omega)]
    rfl
  · rw [List.getElem?_eq_none (by rw [List.length_range]; omega), if_neg (by omega)]
    rfl

/-- The upper bound of a forward slice as a position. -/
def stopPos (n : Nat) (e : Option Int) : Nat :=
  match e with
  | none => n
  | some e => if 0 ≤ e then min e.toNat n else (e + n).toNat

theorem pySlice_fwd (l : List ℚ) (st : Option Nat) (e step : Option Int) (hs : step = none ∨ step = some 1) :
    pySlice l ⟨st.map Int.ofNat, e, step⟩ = (l.take (stopPos l.length e)).drop (st.getD 0) := by
  have hstep : step.getD 1 = 1 := by rcases hs with rfl | rfl <;> rfl
  unfold pySlice
  dsimp only
  rw [hstep]
  unfold pyIndices
  rw [if_pos (by omega), pyRange_one]
  have hstop : e.elim (l.length : Int) (clampIdx l.length 0 l.length) = (stopPos l.length e : Int) ∧ stopPos l.length e ≤ l.length := by
    unfold stopPos
    cases e with
    | none => exact ⟨rfl, le_refl _⟩
    | some e =>
      dsimp only [Option.elim]
      unfold clampIdx
      by_cases h : e < 0
      · rw [if_pos h, if_neg (by omega)]
        constructor
        · rw [Int.toNat_eq_max]
        · omega
      · rw [if_neg h, if_pos (by omega)]
        constructor <;> omega
  have hstart : (st.map Int.ofNat).elim 0 (clampIdx l.length 0 l.length) = ((min (st.getD 0) l.length : Nat) : Int) := by
    cases st with
    | none => simp
    | some k =>
      simp only [Option.map_some, Option.elim, Option.getD_some]
      unfold clampIdx
      rw [show Int.ofNat k = (k : Int) from rfl, if_neg (by omega)]
      omega
  rw [hstop.1, hstart]
  rw [show ((stopPos l.length e : Int) - ((min (st.getD 0) l.length : Nat) : Int)).toNat =
    stopPos l.length e - min (st.getD 0) l.length by omega]
  rw [map_ap l _ _ hstop.2]
  by_cases hlt : st.getD 0 ≤ l.length
  · rw [min_eq_left hlt]
  · rw [min_eq_right (by omega), List.drop_eq_nil_of_le (by rw [List.length_take]; omega),
      List.drop_eq_nil_of_le (by rw [List.length_take]; omega)]

/-- Centres of a contiguous run of nodes. -/
theorem mid_run (l : List ℚ) (a b : Nat) (hb : b ≤ l.length) (hab : a + 2 ≤ b) :
    mid ((l.take b).drop a) = ((mid l).take (b - 1)).drop a := by
  have hl : 2 ≤ l.length := by omega
  have hr : 2 ≤ ((l.take b).drop a).length := by rw [List.length_drop, List.length_take]; omega
  apply List.ext_getElem?
  intro i
  rw [List.getElem?_drop, List.getElem?_take]
  by_cases hi : a + i < b - 1
  · rw [if_pos hi]
    have get : ∀ k, k < l.length → l[k]? = some (l.getD k 0) := by
      intro k hk; rw [List.getD_eq_getElem?_getD, List.getElem?_eq_getElem hk]; rfl
    have get2 : ∀ k, a + k < b → ((l.take b).drop a)[k]? = some (l.getD (a + k) 0) := by
      intro k hk
      rw [List.getElem?_drop, List.getElem?_take, if_pos hk, get _ (by omega)]
    rw [mid_get _ hr i _ _ (get2 i (by omega)) (get2 (i + 1) (by omega)),
      mid_get l hl (a + i) _ _ (get _ (by omega)) (get _ (by omega))]
    rfl
  · rw [if_neg hi, List.getElem?_eq_none (by rw [mid_length _ hr, List.length_drop, List.length_take]; omega)]

end Viscid.Crds
