import Verif.Lemmas.Select
import Mathlib.Tactic.NormNum
/-!
# C15: selecting by value
-/
namespace Viscid.Select
open Viscid.Spec.Slice Viscid.Spec.Select Viscid.FwdSlice

/-- C15, single value: the selected point is the first one nearest to `v` (any axis, sorted or not). -/
theorem C15_nearest (a : List ℚ) (v : ℚ) (ha : a ≠ []) :
    ∃ (i : Nat) (x : ℚ), selValue a v = .ok i ∧ a[i]? = some x ∧
      ∀ (j : Nat) (y : ℚ), a[j]? = some y → |x - v| ≤ |y - v| ∧ (j < i → |x - v| < |y - v|) := by
  unfold selValue
  rw [if_neg ha]
  unfold maskedArgmin
  cases h : argminKeep (fun _ => true) (a.map fun x => x - v) with
  | none =>
    exfalso
    obtain ⟨x, xs, rfl⟩ := List.exists_cons_of_ne_nil ha
    have := argminKeep_none h 0 (x - v) (by simp)
    cases this
  | some p =>
    obtain ⟨j, m⟩ := p
    obtain ⟨⟨x0, hx0, _, hm0⟩, hmin⟩ := argminKeep_some h
    simp only [List.getElem?_map, Option.map_eq_some_iff] at hx0
    obtain ⟨x, hx, rfl⟩ := hx0
    refine ⟨j, x, rfl, hx, ?_⟩
    intro i y hy
    rw [hm0]
    exact hmin i (y - v) (by simp [hy]) rfl

theorem C15_nearest_empty (v : ℚ) : selValue [] v = .error .indexError := rfl

example : selValue [0, 1, 3] (9 / 4) = .ok 2 := by decide +kernel

/-- The points a slice by value is about: between `lo` and `hi` (where given). -/
def between (a : List ℚ) (lo hi : Option ℚ) : List Nat := positions a fun x => above lo x ∧ below hi x

/-- C15, forward slices: on an increasing axis, `start:stop:step` by value selects, in order, every
step-th point with start - tol <= x <= stop + tol (without val_endpoint the last of these points is
dropped first).  Excluded: a stop value below the first coordinate by no more than tol. -/
theorem C15_forward_partial (a : List ℚ) (ha : a.Pairwise (· < ·)) (hne : a ≠ []) (ve : Bool)
    (start stop : Option ℚ) (step : Option Int) (hs : step.getD 1 > 0)
    (hgap : ∀ v, stop = some v → a.headD 0 ≤ v ∨ v + tolOf a < a.headD 0) :
    ∃ slc, selSlice a ve (ofVal start) (ofVal stop) step = .ok slc ∧ slc.step = step ∧
      pyIndices a.length slc.start slc.stop (step.getD 1) =
        (stride (step.getD 1).toNat
          (let pts := between a (start.map (· - tolOf a)) (stop.map (· + tolOf a))
           if ve ∨ stop = none then pts else pts.dropLast)).map (fun i : Nat => (i : Int)) := by
  obtain ⟨lo, st, hlo, hst, hst', hlo'⟩ := start_fwd' a (incr_of_pairwise ha) _ hs start
  obtain ⟨hi, hhi, hstop, hhi'⟩ := stop_fwd' a (incr_of_pairwise ha) _ hs stop ve (tolOf_pos a ha) hne hgap
  refine ⟨⟨st, stopIdx a ve (step.getD 1) (ofVal stop), step⟩, ?_, rfl, ?_⟩
  · unfold selSlice
    rw [if_neg (fun h => hne h.1)]
    simp only [hst]
  · have hp : between a (start.map (· - tolOf a)) (stop.map (· + tolOf a)) = List.range' lo (hi - lo) := by
      unfold between
      rw [positions_interval a _ lo hi ?_, Nat.min_eq_left hhi]
      intro i x hx
      rw [hlo' i x hx, hhi' i x hx]
    unfold pyIndices
    rw [if_pos hs]
    simp only [hst', hstop, hp, dropLast_range']
    have e : ((step.getD 1).toNat : Int) = step.getD 1 := by omega
    have key := stride_fwd (step.getD 1).toNat (by omega) lo
    rw [e] at key
    by_cases hc : ve = true ∨ stop = none
    · rw [if_pos hc, if_pos hc, key]
    · rw [if_neg hc, if_neg hc]
      have : hi - lo - 1 = (hi - 1) - lo := by omega
      rw [this, key]

/-- C15, backward slices: on an increasing axis, `start:stop:-step` by value selects, in decreasing
order, every step-th point with stop - tol <= x <= start + tol.  Excluded: a stop value above the
last coordinate by no more than tol. -/
theorem C15_backward_partial (a : List ℚ) (ha : a.Pairwise (· < ·)) (hne : a ≠ []) (ve : Bool)
    (start stop : Option ℚ) (step : Option Int) (hs : step.getD 1 < 0)
    (hgap : ∀ v, stop = some v → v ≤ a.getLastD 0 ∨ a.getLastD 0 < v - tolOf a) :
    ∃ slc, selSlice a ve (ofVal start) (ofVal stop) step = .ok slc ∧ slc.step.getD 1 = step.getD 1 ∧
      pyIndices a.length slc.start slc.stop (step.getD 1) =
        (stride (-(step.getD 1)).toNat
          (let pts := between a (stop.map (· - tolOf a)) (start.map (· + tolOf a))
           if ve ∨ stop = none then pts.reverse else (pts.drop 1).reverse)).map (fun i : Nat => (i : Int)) := by
  have e : ((-(step.getD 1)).toNat : Int) = -(step.getD 1) := by omega
  have hsn : (-(step.getD 1)).toNat > 0 := by omega
  rcases start_bwd' a (incr_of_pairwise ha) _ hs start with ⟨hnone, hno⟩ | ⟨hi, st, hhi, hst, hst', hhi'⟩
  · refine ⟨⟨some 0, some 0, some (step.getD 1)⟩, ?_, rfl, ?_⟩
    · unfold selSlice
      rw [if_neg (fun h => hne h.1)]
      simp only [hnone]
    · have hp : between a (stop.map (· - tolOf a)) (start.map (· + tolOf a)) = [] := by
        unfold between
        rw [positions_interval a _ 0 0 ?_]
        · simp
        · intro i x hx
          have := hno i x hx
          constructor
          · intro h; exact absurd h.2 this
          · intro h; omega
      have h0 : pyIndices a.length (some 0) (some 0) (step.getD 1) = [] := by
        unfold pyIndices
        rw [if_neg (by omega)]
        simp only [Option.elim]
        unfold pyRange rangeLen
        rw [if_neg (by omega), if_neg (by omega)]
        rfl
      simp only [h0, hp]
      unfold stride
      simp
  · obtain ⟨lo, hlo, hstop, hlo'⟩ :=
      stop_bwd' a (incr_of_pairwise ha) _ hs stop ve (tolOf_pos a ha) hne hgap
    refine ⟨⟨st, stopIdx a ve (step.getD 1) (ofVal stop), step⟩, ?_, rfl, ?_⟩
    · unfold selSlice
      rw [if_neg (fun h => hne h.1)]
      simp only [hst]
    · have hp : between a (stop.map (· - tolOf a)) (start.map (· + tolOf a)) = List.range' lo (hi - lo) := by
        unfold between
        rw [positions_interval a _ lo hi ?_, Nat.min_eq_left hhi]
        intro i x hx
        rw [hlo' i x hx, hhi' i x hx]
      unfold pyIndices
      rw [if_neg (by omega)]
      simp only [hst', hp, drop_range']
      have key := fun lo => stride_bwd (-(step.getD 1)).toNat hsn lo hi
      simp only [e, Int.neg_neg] at key
      by_cases hc : ve = true ∨ stop = none
      · rw [if_pos hc] at hstop
        rw [if_pos hc, key]
        rcases hstop with h | ⟨h1, h2⟩
        · rw [h]
        · rw [h1]
          unfold pyRange rangeLen
          rw [if_neg (by omega), if_neg (by omega), if_neg (by omega), if_neg (by omega)]
      · rw [if_neg hc] at hstop
        rw [if_neg hc]
        have : hi - lo - 1 = hi - (lo + 1) := by omega
        rw [this, key]
        rcases hstop with h | ⟨h1, h2⟩
        · rw [h]; congr 1; omega
        · rw [h1]
          unfold pyRange rangeLen
          rw [if_neg (by omega), if_neg (by omega), if_neg (by omega), if_neg (by omega)]

/-- C15, without exceptions: a unit-step forward slice by value (val_endpoint) never selects a point
outside [start - tol, stop + tol] and always selects every point of [start, stop]. -/
theorem C15_forward_guarantee (a : List ℚ) (ha : a.Pairwise (· < ·)) (hne : a ≠ []) (start stop : Option ℚ) :
    ∃ slc, selSlice a true (ofVal start) (ofVal stop) none = .ok slc ∧
      ∃ sel : List Nat, pyIndices a.length slc.start slc.stop 1 = sel.map (fun i : Nat => (i : Int)) ∧
        sel.Pairwise (· < ·) ∧
        (∀ i ∈ sel, ∃ x, a[i]? = some x ∧ above (start.map (· - tolOf a)) x ∧ below (stop.map (· + tolOf a)) x) ∧
        (∀ (i : Nat) (x : ℚ), a[i]? = some x → above start x → below stop x → i ∈ sel) := by
  have ht := tolOf_pos a ha
  by_cases hgap : ∀ v, stop = some v → a.headD 0 ≤ v ∨ v + tolOf a < a.headD 0
  · obtain ⟨slc, h1, _, h3⟩ := C15_forward_partial a ha hne true start stop none (by decide) hgap
    refine ⟨slc, h1, between a (start.map (· - tolOf a)) (stop.map (· + tolOf a)), ?_, ?_, ?_, ?_⟩
    · rw [Option.getD_none] at h3
      rw [h3]
      simp only [true_or, if_true]
      rw [show (1 : Int).toNat = 1 from rfl, stride_one]
    · unfold between positions
      exact List.Pairwise.filter _ List.pairwise_lt_range
    · intro i hi
      unfold between positions at hi
      simp only [List.mem_filter, decide_eq_true_eq] at hi
      obtain ⟨_, x, hx, hp⟩ := hi
      exact ⟨x, hx, hp⟩
    · intro i x hx h1 h2
      unfold between positions
      simp only [List.mem_filter, decide_eq_true_eq, List.mem_range]
      refine ⟨(List.getElem?_eq_some_iff.mp hx).1, x, hx, ?_, ?_⟩
      · intro v hv
        cases hst : start with
        | none => rw [hst] at hv; cases hv
        | some w =>
          rw [hst] at hv; simp only [Option.map_some, Option.some.injEq] at hv
          have := h1 w hst
          linarith
      · intro v hv
        cases hst : stop with
        | none => rw [hst] at hv; cases hv
        | some w =>
          rw [hst] at hv; simp only [Option.map_some, Option.some.injEq] at hv
          have := h2 w hst
          linarith
  · simp only [not_forall, not_or, not_le, not_lt] at hgap
    obtain ⟨v, rfl, hv1, hv2⟩ := hgap
    obtain ⟨lo, st, hlo, hst, hst', hlo'⟩ := start_fwd' a (incr_of_pairwise ha) 1 (by decide) start
    refine ⟨⟨st, some 0, none⟩, ?_, [], ?_, List.Pairwise.nil, by simp, ?_⟩
    · unfold selSlice
      rw [if_neg (fun h => hne h.1)]
      have : stopIdx a true 1 (ofVal (some v)) = some 0 := by
        simp only [ofVal, stopIdx]
        rw [if_pos (by decide), if_pos hv1]
      simp only [Option.getD_none, hst, this]
    · unfold pyIndices
      rw [if_pos (by decide)]
      have : (some (0 : Int)).elim (a.length : Int) (clampIdx a.length 0 a.length) = 0 := by
        simp only [Option.elim]; unfold clampIdx; rw [if_neg (by omega)]; omega
      simp only [hst', this, List.map_nil]
      unfold pyRange rangeLen
      rw [if_pos (by decide), if_neg (by omega)]
      rfl
    · intro i x hx _ h2
      exfalso
      have h2 := h2 v rfl
      have h0 := headD_getElem? a hne
      rcases Nat.eq_zero_or_pos i with rfl | hi
      · rw [h0] at hx; cases hx; linarith
      · have := incr_of_pairwise ha 0 i _ x h0 hx hi
        linarith

/-- Non-vacuity: points 1, 2, 3 of five are between 1/2 and 3. -/
example : selSlice [0, 1, 2, 3, 5] true (.val (1/2)) (.val 3) none = .ok ⟨some 1, some 4, none⟩ ∧
    between [0, 1, 2, 3, 5] (some (1/2 - tolOf [0, 1, 2, 3, 5])) (some (3 + tolOf [0, 1, 2, 3, 5])) = [1, 2, 3] ∧
    [(0 : ℚ), 1, 2, 3, 5].Pairwise (· < ·) := by decide +kernel
/-- Backward, every second point of 4, ..., 1. -/
example : selSlice [0, 1, 2, 3, 5] true (.val 6) (.val 1) (some (-2)) = .ok ⟨some 4, some 0, some (-2)⟩ ∧
    pyIndices 5 (some 4) (some 0) (-2) = [4, 2] := by decide +kernel

/-- C15's "exactly" fails at the lower edge: a stop value half a tolerance below the first coordinate
selects nothing although that coordinate is within tolerance (a start value equally far above the
last coordinate does select it). -/
theorem C15_edge_violated :
    ∃ (a : List ℚ) (v w : ℚ), a.Pairwise (· < ·) ∧
      a.headD 0 ≤ v + tolOf a ∧ selSlice a true .none (.val v) none = .ok ⟨none, some 0, none⟩ ∧
      w - tolOf a ≤ a.getLastD 0 ∧ w > a.getLastD 0 ∧
      selSlice a true (.val w) .none none = .ok ⟨some 2, none, none⟩ :=
  ⟨[0, 1, 2], -1/20000, 2 + 1/20000, by decide +kernel⟩

/-- On a one-point axis the tolerance is 1, whatever the units: the documented rule "never include an
element whose value is < start" fails there. -/
theorem C15_single_point_violated :
    selSlice [5] true (.val (59/10)) .none none = .ok ⟨some 0, none, none⟩ := by decide +kernel

end Viscid.Select
