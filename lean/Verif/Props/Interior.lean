import Verif.Lemmas.Interior
import Verif.Lemmas.Crds
import Verif.Model.Basic
import Mathlib.Data.List.GetD
/-!
# C125 Interior selections, C126 ends of selections
-/
namespace Viscid.Props
open Viscid.Interior Viscid.Spec.Interior Viscid.Select Viscid.Spec.Slice
open Viscid.FwdSlice (Slc)

theorem sub_range (a : List ℚ) (s t : Option Int) (u : Int) (l : List Nat) (hl : ∀ i ∈ l, i < a.length)
    (h : pyIndices a.length s t u = l.map fun i : Nat => (i : Int)) :
    (sub a s t u).head? = l.head?.bind (a[·]?) ∧ (sub a s t u).getLast? = l.getLast?.bind (a[·]?) := by
  unfold sub
  rw [h, List.map_map, List.head?_map, List.getLast?_map]
  constructor
  · cases hh : l.head? with
    | none => rfl
    | some i =>
      have := hl i (List.mem_of_head? hh)
      simp [List.getElem?_eq_getElem this, List.getD_eq_getElem _ _ this]
  · cases hh : l.getLast? with
    | none => rfl
    | some i =>
      have := hl i (List.mem_of_getLast? hh)
      simp [List.getElem?_eq_getElem this, List.getD_eq_getElem _ _ this]

theorem range'_head (lo n : Nat) : (List.range' lo (n + 1)).head? = some lo := by simp [List.range'_succ]

theorem range'_last (lo n : Nat) : (List.range' lo (n + 1)).getLast? = some (lo + n) := by
  rw [List.range'_concat]; simp

theorem last_le_first (a : List ℚ) (ha : a.Pairwise (· < ·)) (v w : ℚ) (lo hi : Nat) (h1 : LastUpTo a v lo) (h2 : FirstFrom a w hi)
    (h : v ≤ w) : lo ≤ hi := by
  obtain ⟨⟨x, hx, hxv⟩, h1⟩ := h1
  obtain ⟨⟨y, hy, hyw⟩, h2⟩ := h2
  by_contra hn
  have := incr_of_pairwise ha hi lo y x hy hx (by omega)
  linarith

theorem range_bounds {lo hi n : Nat} (h : hi < n) : ∀ i ∈ List.range' lo (hi + 1 - lo), i < n := by
  intro i hi'
  rw [List.mem_range'_1] at hi'
  omega

theorem monoGet (a : List ℚ) (ha : a.Pairwise (· < ·)) {i j : Nat} {x y : ℚ} (hx : a[i]? = some x) (hy : a[j]? = some y) (h : i ≤ j) : x ≤ y := by
  rcases Nat.lt_or_ge i j with h' | h'
  · exact le_of_lt (incr_of_pairwise ha _ _ _ _ hx hy h')
  · have : i = j := by omega
    subst this
    rw [hx] at hy
    exact le_of_eq (Option.some.inj hy)

/-- the check passes -/
theorem verify_ok (a : List ℚ) (ha : a.Pairwise (· < ·)) (s t : Option Int) (u : Int) (hu : u ≠ 0) (v w lower upper : Option ℚ) (lo hi : Nat)
    (hen : Enclose a lower upper lo hi) (hlu : ∀ x y, lower = some x → upper = some y → x ≤ y)
    (hv : v = lower ∧ w = upper ∨ v = upper ∧ w = lower)
    (hon : ∀ x, lower = some x ∨ upper = some x → On a x)
    (h : pyIndices a.length s t u = (List.range' lo (hi + 1 - lo)).map (fun i : Nat => (i : Int)) ∨
      pyIndices a.length s t u = (List.range' lo (hi + 1 - lo)).reverse.map (fun i : Nat => (i : Int))) :
    verify a v w s t u = .ok () := by
  obtain ⟨h1, h2, h3, h4⟩ := hen
  have hx : a[lo]? = some (a[lo]'(by omega)) := List.getElem?_eq_getElem _
  have hy : a[hi]? = some a[hi] := List.getElem?_eq_getElem _
  have hxy := monoGet a ha hx hy h1
  have hhead := range'_head lo (hi - lo)
  have hlast := range'_last lo (hi - lo)
  rw [show hi - lo + 1 = hi + 1 - lo by omega] at hhead hlast
  rw [show lo + (hi - lo) = hi by omega] at hlast
  have low : ∀ x, lower = some x → a[lo]'(by omega) ≤ x ∧ x ≤ a[hi] := by
    rintro x rfl
    obtain ⟨⟨z, hz, hzx⟩, hall⟩ := h3
    rw [hx] at hz
    have := Option.some.inj hz
    refine ⟨by linarith, ?_⟩
    cases hup : upper with
    | some y =>
      rw [hup] at h4
      obtain ⟨⟨z', hz', hzx'⟩, -⟩ := h4
      rw [hy] at hz'
      have h5 := Option.some.inj hz'
      have := hlu x y rfl hup
      linarith
    | none =>
      rw [hup] at h4
      simp only [Option.elim] at h4
      obtain ⟨-, i, z', hz', hzx'⟩ := hon x (Or.inl rfl)
      have := (List.getElem?_eq_some_iff.mp hz').1
      exact le_trans hzx' (monoGet a ha hz' hy (by omega))
  have up : ∀ x, upper = some x → a[lo]'(by omega) ≤ x ∧ x ≤ a[hi] := by
    rintro x rfl
    obtain ⟨⟨z, hz, hzx⟩, hall⟩ := h4
    rw [hy] at hz
    have := Option.some.inj hz
    refine ⟨?_, by linarith⟩
    cases hlw : lower with
    | some y => have := low y hlw; have := hlu y x hlw rfl; linarith
    | none =>
      rw [hlw] at h3
      simp only [Option.elim] at h3
      obtain ⟨⟨i, z', hz', hzx'⟩, -⟩ := hon x (Or.inr rfl)
      exact le_trans (monoGet a ha hx hz' (by omega)) hzx'
  have win : ∀ v : Option ℚ, (v = lower ∨ v = upper) → within (a[lo]'(by omega)) a[hi] v = true := by
    intro v hv
    cases v with
    | none => rfl
    | some x =>
      have : a[lo]'(by omega) ≤ x ∧ x ≤ a[hi] := by
        rcases hv with hv | hv
        · exact low x hv.symm
        · exact up x hv.symm
      simp only [within, min_eq_left hxy, max_eq_right hxy, Bool.not_eq_true', Bool.or_eq_false_iff, decide_eq_false_iff_not, not_lt, gt_iff_lt]
      exact this
  have wsymm : ∀ v, within a[hi] (a[lo]'(by omega)) v = within (a[lo]'(by omega)) a[hi] v := by
    intro v; unfold within; rw [min_comm, max_comm]
  have hvw : (v = lower ∨ v = upper) ∧ (w = lower ∨ w = upper) := by
    rcases hv with ⟨rfl, rfl⟩ | ⟨rfl, rfl⟩ <;> simp
  unfold verify
  rw [if_neg hu]
  rcases h with h | h
  · have := sub_range a s t u _ (range_bounds h2) h
    rw [hhead, hlast] at this
    simp only [Option.bind_some, hx, hy] at this
    rw [this.1, this.2]
    simp only [win v hvw.1, win w hvw.2, and_self, if_true]
  · have := sub_range a s t u _ (fun i hi => range_bounds h2 i (List.mem_reverse.mp hi)) h
    rw [List.head?_reverse, List.getLast?_reverse, hhead, hlast] at this
    simp only [Option.bind_some, hx, hy] at this
    rw [this.1, this.2]
    simp only [wsymm, win v hvw.1, win w hvw.2, and_self, if_true]

theorem valOf_ofVal (v : Option ℚ) : valOf (ofVal v) = v := by cases v <;> rfl

theorem not_nil_of_on {a : List ℚ} {v : ℚ} (h : On a v) : a ≠ [] := by
  rintro rfl
  obtain ⟨⟨i, x, hx, -⟩, -⟩ := h
  simp at hx

/-- C125: with `interior`, a forward slice between two values on the axis, either of which may be left out, selects the fewest points
    that have the values between them. -/
theorem C125_forward_partial (a : List ℚ) (ha : a.Pairwise (· < ·)) (hne : a ≠ []) (lower upper : Option ℚ) (step : Option Int)
    (hstep : step = none ∨ step = some 1)
    (hon : ∀ x, lower = some x ∨ upper = some x → On a x) (hlu : ∀ x y, lower = some x → upper = some y → x ≤ y) :
    ∃ (r : Slc) (lo hi : Nat), selInterior a (ofVal lower) (ofVal upper) step = .ok r ∧ Enclose a lower upper lo hi ∧
      r.step = some 1 ∧ pyIndices a.length r.start r.stop 1 = (List.range' lo (hi + 1 - lo)).map fun i : Nat => (i : Int) := by
  have hpos : 0 < a.length := List.length_pos_of_ne_nil hne
  have hu : step.getD 1 = 1 := by rcases hstep with rfl | rfl <;> rfl
  have hS : ∃ (s0 s : Option Int) (lo : Nat), startIdx a 1 (ofVal lower) = some s0 ∧ adjStart a 1 lower s0 = .ok s ∧
      (lower.elim (lo = 0) fun v => LastUpTo a v lo) ∧ s.elim 0 (clampIdx a.length 0 a.length) = (lo : Int) ∧ lo < a.length := by
    cases lower with
    | none => exact ⟨none, none, 0, rfl, rfl, rfl, rfl, hpos⟩
    | some v =>
      obtain ⟨s0, lo, h1, h2, h3⟩ := start_lo a ha v (hon v (Or.inl rfl))
      obtain ⟨x, hx, -⟩ := h3.1
      have hlt := (List.getElem?_eq_some_iff.mp hx).1
      refine ⟨s0, some lo, lo, h1, h2, h3, ?_, hlt⟩
      simp only [Option.elim, clampIdx]
      rw [if_neg (by omega)]; omega
  have hT : ∃ (t : Option Int) (hi : Nat), adjStop a 1 upper (stopIdx a true 1 (ofVal upper)) = .ok t ∧
      (upper.elim (hi + 1 = a.length) fun v => FirstFrom a v hi) ∧ t.elim (a.length : Int) (clampIdx a.length 0 a.length) = (hi : Int) + 1 ∧
      hi < a.length := by
    cases upper with
    | none => exact ⟨none, a.length - 1, rfl, by simp only [Option.elim]; omega, by simp only [Option.elim]; omega, by omega⟩
    | some v =>
      obtain ⟨hi, h2, h3⟩ := stop_hi a ha v (hon v (Or.inr rfl))
      obtain ⟨x, hx, -⟩ := h3.1
      have hlt := (List.getElem?_eq_some_iff.mp hx).1
      refine ⟨some ((hi : Int) + 1), hi, h2, h3, ?_, hlt⟩
      simp only [Option.elim, clampIdx]
      rw [if_neg (by omega)]; omega
  obtain ⟨s0, s, lo, h1, h2, h3, h4, h5⟩ := hS
  obtain ⟨t, hi, k2, k3, k4, k5⟩ := hT
  have hle : lo ≤ hi := by
    cases lower with
    | none => simp only [Option.elim] at h3; omega
    | some v =>
      cases upper with
      | none => simp only [Option.elim] at k3; omega
      | some w => exact last_le_first a ha v w lo hi h3 k3 (hlu v w rfl rfl)
  have hidx : pyIndices a.length s t 1 = (List.range' lo (hi + 1 - lo)).map fun i : Nat => (i : Int) := by
    unfold pyIndices
    rw [if_pos (by decide), h4, k4, Crds.pyRange_one, range'_cast]
    congr 1
    omega
  refine ⟨⟨s, t, some 1⟩, lo, hi, ?_, ⟨hle, k5, h3, k3⟩, rfl, hidx⟩
  unfold selInterior
  rw [if_neg (fun h => hne h.1)]
  simp only [hu, h1, valOf_ofVal]
  unfold interiorize
  simp only [hu, h2, k2]
  rw [verify_ok a ha s t 1 (by decide) lower upper lower upper lo hi ⟨hle, k5, h3, k3⟩ hlu (Or.inl ⟨rfl, rfl⟩) hon (Or.inl hidx)]

/-- C125: and a backward slice, whose start is the upper value, the same points in reverse. -/
theorem C125_backward_partial (a : List ℚ) (ha : a.Pairwise (· < ·)) (hne : a ≠ []) (lower upper : Option ℚ)
    (hon : ∀ x, lower = some x ∨ upper = some x → On a x) (hlu : ∀ x y, lower = some x → upper = some y → x ≤ y) :
    ∃ (r : Slc) (lo hi : Nat), selInterior a (ofVal upper) (ofVal lower) (some (-1)) = .ok r ∧ Enclose a lower upper lo hi ∧
      r.step = some (-1) ∧
      pyIndices a.length r.start r.stop (-1) = (List.range' lo (hi + 1 - lo)).reverse.map fun i : Nat => (i : Int) := by
  have hpos : 0 < a.length := List.length_pos_of_ne_nil hne
  have hS : ∃ (s0 s : Option Int) (hi : Nat), startIdx a (-1) (ofVal upper) = some s0 ∧ adjStart a (-1) upper s0 = .ok s ∧
      (upper.elim (hi + 1 = a.length) fun v => FirstFrom a v hi) ∧
      s.elim ((a.length : Int) - 1) (clampIdx a.length (-1) ((a.length : Int) - 1)) = (hi : Int) ∧ hi < a.length := by
    cases upper with
    | none => exact ⟨none, none, a.length - 1, rfl, rfl, by simp only [Option.elim]; omega, by simp only [Option.elim]; omega, by omega⟩
    | some v =>
      obtain ⟨s0, hi, h1, h2, h3⟩ := start_hi a ha v (hon v (Or.inr rfl))
      obtain ⟨x, hx, -⟩ := h3.1
      have hlt := (List.getElem?_eq_some_iff.mp hx).1
      refine ⟨s0, some hi, hi, h1, h2, h3, ?_, hlt⟩
      simp only [Option.elim, clampIdx]
      rw [if_neg (by omega)]; omega
  have hT : ∃ (t : Option Int) (lo : Nat), adjStop a (-1) lower (stopIdx a true (-1) (ofVal lower)) = .ok t ∧
      (lower.elim (lo = 0) fun v => LastUpTo a v lo) ∧
      t.elim (-1) (clampIdx a.length (-1) ((a.length : Int) - 1)) = (lo : Int) - 1 := by
    cases lower with
    | none => exact ⟨none, 0, rfl, rfl, rfl⟩
    | some v =>
      obtain ⟨lo, h2, h3⟩ := stop_lo a ha v (hon v (Or.inl rfl))
      obtain ⟨x, hx, -⟩ := h3.1
      have hlt := (List.getElem?_eq_some_iff.mp hx).1
      refine ⟨_, lo, h2, h3, ?_⟩
      split
      · subst lo; rfl
      · simp only [Option.elim, clampIdx]
        rw [if_neg (by omega)]; omega
  obtain ⟨s0, s, hi, h1, h2, k3, h4, k5⟩ := hS
  obtain ⟨t, lo, k2, h3, k4⟩ := hT
  have hle : lo ≤ hi := by
    cases lower with
    | none => simp only [Option.elim] at h3; omega
    | some v =>
      cases upper with
      | none =>
        simp only [Option.elim] at k3
        obtain ⟨x, hx, -⟩ := h3.1
        have := (List.getElem?_eq_some_iff.mp hx).1
        omega
      | some w => exact last_le_first a ha v w lo hi h3 k3 (hlu v w rfl rfl)
  have hidx : pyIndices a.length s t (-1) = (List.range' lo (hi + 1 - lo)).reverse.map fun i : Nat => (i : Int) := by
    unfold pyIndices
    rw [if_neg (by decide), h4, k4, range'_reverse_cast]
    unfold pyRange rangeLen
    rw [if_neg (by decide), if_pos (by omega)]
    first
      | (rw [show (lo : Int) + ((hi + 1 - lo : Nat) : Int) - 1 = hi by omega]; congr 1; omega)
      | (rw [show (lo : Int) + ((hi + 1 - lo : Nat) : Int) - 1 = hi by omega]; congr 1; simp; omega)
  refine ⟨⟨s, t, some (-1)⟩, lo, hi, ?_, ⟨hle, k5, h3, k3⟩, rfl, hidx⟩
  unfold selInterior
  rw [if_neg (fun h => hne h.1)]
  simp only [Option.getD_some, h1, valOf_ofVal]
  unfold interiorize
  simp only [Option.getD_some, h2, k2]
  rw [verify_ok a ha s t (-1) (by decide) upper lower lower upper lo hi ⟨hle, k5, h3, k3⟩ hlu (Or.inr ⟨rfl, rfl⟩) hon (Or.inr hidx)]

/-- points 1 to 4 of this axis have 3/2 and 7/2 between them -/
example : On [0, 1, 2, 3, 4, 5] (3 / 2) ∧ On [0, 1, 2, 3, 4, 5] (7 / 2) :=
  ⟨⟨⟨0, 0, rfl, by norm_num⟩, 5, 5, rfl, by norm_num⟩, ⟨0, 0, rfl, by norm_num⟩, 5, 5, rfl, by norm_num⟩

example : selInterior [0, 1, 2, 3, 4, 5] (.val (3 / 2)) (.val (7 / 2)) none = .ok ⟨some 1, some 5, some 1⟩ := by decide +kernel

/-- C125: with larger steps, and with values off the axis, the slice that encloses the values may exist and yet the selection raises:
    RuntimeError for a step of two over four points, and below the axis; IndexError above it. -/
theorem C125_step_violated :
    selInterior [0, 1, 2, 3, 4, 5] (.val (3 / 2)) (.val (7 / 2)) (some 2) = .error .runtime ∧
      selInterior [0, 1, 2, 3, 4, 5] (.val (-1)) (.val (7 / 2)) none = .error .runtime ∧
      selInterior [0, 1, 2, 3, 4, 5] (.val 6) (.val 7) none = .error .index := by decide +kernel

/-! ### C126 -/

/-- C126: the ends of a slice of values are those values, and open ends are the ends of the axis in the direction of the slice. -/
theorem C126_values_partial (a : List ℚ) (x y : ℚ) (hx : a.head? = some x) (hy : a.getLast? = some y) (v w : ℚ) (u : Int) :
    (∀ (arr : Option (List ℚ)) step, sel2values arr (.val v) (.val w) step = .ok (.val v, .val w)) ∧
    (0 < u → sel2values (some a) .none .none (some u) = .ok (.val x, .val y) ∧
      sel2values (some a) (.val v) .none (some u) = .ok (.val v, .val y) ∧
      sel2values (some a) .none (.val w) (some u) = .ok (.val x, .val w)) ∧
    (u < 0 → sel2values (some a) .none .none (some u) = .ok (.val y, .val x) ∧
      sel2values (some a) (.val v) .none (some u) = .ok (.val v, .val x) ∧
      sel2values (some a) .none (.val w) (some u) = .ok (.val y, .val w)) ∧
    (0 < u → sel2values none .none .none (some u) = .ok (.ninf, .pinf)) ∧
    (u < 0 → sel2values none .none .none (some u) = .ok (.pinf, .ninf)) := by
  have h0 : pyGet a 0 = .ok x := pyGet_nat a 0 x (by rw [← hx, List.head?_eq_getElem?])
  have h1 : pyGet a (-1) = .ok y := by
    have hne : a ≠ [] := by rintro rfl; simp at hx
    have hpos := List.length_pos_of_ne_nil hne
    unfold pyGet
    rw [if_pos (by decide), show ((-1 : Int) + a.length).toNat = a.length - 1 by omega]
    rw [List.getLast?_eq_getElem?] at hy
    rw [hy]
    simp only
    rw [if_neg (by omega)]
  refine ⟨fun arr step => rfl, ?_, ?_, ?_, ?_⟩
  · intro hu
    have hd : decide (u > 0) = true := by simpa using hu
    simp [sel2values, endOf, hu, h0, h1, Except.map]
  · intro hu
    have hn : ¬ 0 < u := by omega
    simp [sel2values, endOf, hn, h0, h1, Except.map]
  · intro hu
    simp [sel2values, endOf, hu]
  · intro hu
    have hn : ¬ 0 < u := by omega
    simp [sel2values, endOf, hu, hn]

/-- C126: a single value is both ends; a single index its coordinate; no selection everything. -/
theorem C126_single_partial (a : List ℚ) (arr : Option (List ℚ)) (v x : ℚ) (i : Nat) (h : a[i]? = some x) :
    sel2valuesOne arr (.val v) = .ok (.val v, .val v) ∧ sel2valuesOne (some a) (.idx i) = .ok (.val x, .val x) ∧
      sel2valuesOne arr .none = .ok (.ninf, .pinf) := by
  refine ⟨rfl, ?_, rfl⟩
  simp [sel2valuesOne, pyGet_nat a i x h, Except.map]

example : sel2values (some [1, 2, 4]) .none (.val 3) (some (-1)) = .ok (.val 4, .val 3) ∧
    sel2valuesOne (some [1, 2, 4]) (.idx 1) = .ok (.val 2, .val 2) := by decide +kernel

/-- C126: an open end without a step raises TypeError; the end of a slice up to an index is the coordinate after its last point, and up to
    the length of the axis raises IndexError. -/
theorem C126_ends_violated :
    (∀ arr stop, sel2values arr .none stop none = .error .type) ∧
    (∀ (a : List ℚ) (x : ℚ) (n : Nat), a[n]? = some x → 0 < a.length →
      ∃ y, sel2values (some a) .none (.idx n) (some 1) = .ok (y, .val x) ∧ (n : Int) ∉ pyIndices a.length none (some n) 1) ∧
    ∀ (a : List ℚ), sel2values (some a) .none (.idx a.length) (some 1) = .error .index := by
  refine ⟨fun arr stop => rfl, ?_, ?_⟩
  · intro a x n hx hpos
    obtain ⟨z, hz⟩ : ∃ z, a[0]? = some z := ⟨_, List.getElem?_eq_getElem hpos⟩
    refine ⟨.val z, ?_, ?_⟩
    · have h0 : pyGet a 0 = .ok z := pyGet_nat a 0 z hz
      simp [sel2values, endOf, h0, pyGet_nat a n x hx, Except.map]
    · have hlt := (List.getElem?_eq_some_iff.mp hx).1
      unfold pyIndices
      rw [if_pos (by decide)]
      simp only [Option.elim, clampIdx]
      rw [if_neg (by omega), Crds.pyRange_one]
      unfold ap
      intro hm
      rw [List.mem_map] at hm
      obtain ⟨k, hk, he⟩ := hm
      rw [List.mem_range] at hk
      omega
  · intro a
    cases a with
    | nil => rfl
    | cons x a =>
      have h0 : pyGet (x :: a) 0 = .ok x := pyGet_nat _ 0 x rfl
      have h1 : pyGet (x :: a) ((x :: a).length : Int) = .error .index := by
        unfold pyGet
        rw [if_neg (by omega), Int.toNat_natCast, List.getElem?_eq_none (by omega)]
      simp only [sel2values, endOf, h1]
      simp [h0, Except.map]

end Viscid.Props
