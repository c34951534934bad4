import Verif.Lemmas.FwdSlice
/-!
# C14: forward-only slicing is equivalent to the requested slice
-/
namespace Viscid.FwdSlice
open Viscid.Spec.Slice

/-- Positions selected by `a[first][second]`, `second` being `[::-1]` if `flip`, else `[::1]`. -/
def selected (L : Int) (first : Slc) (flip : Bool) : List Int :=
  let l := pyIndices L first.start first.stop (first.step.getD 1)
  if flip then l.reverse else l

/-- Positions (in `a`) selected by `a[slc]`, or by `a[::-1][slc]` if `rev`. -/
def requested (L : Int) (slc : Slc) (rev : Bool) : List Int :=
  let l := pyIndices L slc.start slc.stop (slc.step.getD 1)
  if rev then l.map (fun i => L - 1 - i) else l

/-- The full statement of C14: every slice with bounds in [-L, L] and nonzero step is accepted and
the two slices select the requested elements, the first one going forward. -/
def C14Statement : Prop :=
  ∀ (L : Int) (slc : Slc) (rev : Bool), 0 ≤ L → slc.step ≠ some 0 →
    (∀ v, slc.start = some v → -L ≤ v ∧ v ≤ L) → (∀ v, slc.stop = some v → -L ≤ v ∧ v ≤ L) →
    ∃ first flip, makeFwd L slc rev = .ok (first, flip) ∧ first.step.getD 1 > 0 ∧
      selected L first flip = requested L slc rev

/-- C14, soundness: whenever make_fwd_slice returns, its two slices select exactly the requested
elements in the requested order and the first slice goes forward; the only exception is a
non-reversed slice with explicit start == L and step <= -2. -/
theorem C14_sound_partial (L : Int) (hL : 0 ≤ L) (slc : Slc) (rev : Bool) (first : Slc) (flip : Bool)
    (h : makeFwd L slc rev = .ok (first, flip))
    (hbad : ¬ (rev = false ∧ slc.start = some L ∧ slc.step.getD 1 ≤ -2)) :
    first.step.getD 1 > 0 ∧ selected L first flip = requested L slc rev := by
  obtain ⟨h1, h2, start, stop, step', flip', hf, hfin⟩ := makeFwd_ok L slc rev first flip h
  obtain ⟨rfl, rfl, g1, g2, g3⟩ := finish_ok _ _ _ _ _ _ _ hfin
  refine ⟨g3, ?_⟩
  unfold selected requested
  simp only [Option.getD_some]
  have hA := elim_start_pos L slc.start hL h1 h2
  have hB := elim_stop_pos L slc.stop hL h1 h2
  have hA' := elim_start_neg L slc.start hL h1 h2
  have hB' := elim_stop_neg L slc.stop hL h1 h2
  have hSL : slc.start.isNone = false → norm L (slc.start.getD 0) = L → slc.start = some L := by
    cases slc.start with
    | none => simp
    | some v => simp only [Option.getD_some, norm]; intro _; split <;> intro h <;> first | (congr 1; done) | (exfalso; omega) | (subst h; rfl)
  generalize norm L (slc.start.getD 0) = a at *
  generalize norm L (slc.stop.getD L) = b at *
  generalize slc.step.getD 1 = step at *
  cases rev with
  | true =>
    by_cases hs : step < 0
    · -- both reversals cancel
      simp only [flipMath, if_true, hs] at hf
      generalize ha' : (if slc.start.isNone = true then L - 1 else a) = a' at *
      unfold pyIndices
      simp only [if_true]
      rw [if_neg (show ¬ step > 0 by omega), hA']
      by_cases hn : slc.stop.isNone = true
      · simp only [hn, if_true, Except.ok.injEq, Prod.mk.injEq] at hf
        obtain ⟨rfl, rfl, rfl, rfl⟩ := hf
        rw [hB'.1 hn, if_pos g3]
        simp only [Option.elim, Bool.false_eq_true, if_false]
        unfold clampIdx pyRange
        rw [ap_map_sub, if_neg (by omega), Int.min_eq_left (by omega), Int.min_eq_left (by omega)]
        congr 1
        unfold rangeLen
        rw [if_pos g3, if_neg (show ¬ step > 0 by omega)]
        by_cases h0 : L - 1 - a' < L
        · rw [if_pos h0, if_pos (by omega)]; congr 3; omega
        · rw [if_neg h0, if_neg (by omega)]
      · have hn' : slc.stop.isNone = false := Bool.eq_false_iff.mpr hn
        simp only [hn', Bool.false_eq_true, if_false, Except.ok.injEq, Prod.mk.injEq] at hf
        obtain ⟨rfl, rfl, rfl, rfl⟩ := hf
        simp only [Option.isNone_some, Bool.false_eq_true, false_or, Option.some.injEq,
          Option.getD_some] at g2
        rw [hB'.2 hn', if_pos g3]
        simp only [Option.elim, Bool.false_eq_true, if_false]
        unfold clampIdx pyRange
        rw [ap_map_sub, if_neg (by omega), if_neg (by omega), Int.min_eq_left (by omega),
          Int.min_eq_left (by omega), Int.min_eq_left (by omega), Int.min_eq_left (by omega)]
        congr 1
        unfold rangeLen
        rw [if_pos g3, if_neg (show ¬ step > 0 by omega)]
        by_cases h0 : L - 1 - a' < L - 1 - b
        · rw [if_pos h0, if_pos (by omega)]; congr 3; omega
        · rw [if_neg h0, if_neg (by omega)]
    · by_cases hs0 : step = 0
      · simp [flipMath, hs0] at hf
      · have hsp : step > 0 := by omega
        simp only [flipMath, if_true, hs, hs0, if_false, Except.ok.injEq, Prod.mk.injEq] at hf
        obtain ⟨rfl, rfl, rfl, rfl⟩ := hf
        simp only [Option.isNone_some, Bool.false_eq_true, false_or, Option.some.injEq,
          Option.getD_some] at g2
        unfold pyIndices
        rw [if_pos hsp, if_pos hsp, hA, hB]
        simp only [Option.elim, if_true]
        have hm := Int.emod_nonneg (L - a - 1 - (L - b)) (show step ≠ 0 by omega)
        unfold clampIdx
        rw [if_neg (by omega), if_neg (by omega), Int.min_eq_left (by omega), Int.min_eq_left (by omega)]
        rw [pyRange_reverse (L - b) (L - a) step hsp _ rfl (by omega)]
        unfold pyRange
        rw [ap_map_sub]
        have e1 : L - a - 1 = L - 1 - a := by omega
        rw [e1]
        congr 1
        unfold rangeLen
        rw [if_neg (by omega), if_pos hsp]
        by_cases h0 : a < b
        · rw [if_pos (by omega), if_pos h0]
          have : L - 1 - a - (L - b - 1) - 1 = b - a - 1 := by omega
          rw [this, Int.neg_neg]
        · rw [if_neg (by omega), if_neg h0]
  | false =>
    by_cases hs : step < 0
    · simp only [flipMath, if_true, hs, Bool.false_eq_true, if_false] at hf
      have hlast : ∀ a', (if slc.start.isNone = true then L - 1 else a) = a' →
          a' ≤ L - 1 ∨ (a' = L ∧ step = -1) := by
        intro a' e
        split at e
        · left; omega
        · rename_i hn
          by_cases haL : a = L
          · right
            refine ⟨by omega, ?_⟩
            have := hSL (Bool.eq_false_iff.mpr hn) haL
            by_cases h2 : step ≤ -2
            · exact absurd ⟨rfl, this, h2⟩ hbad
            · omega
          · left; omega
      generalize (if slc.start.isNone = true then L - 1 else a) = a' at *
      have ha2 := hlast a' rfl
      unfold pyIndices
      rw [if_neg (show ¬ step > 0 by omega), hA', if_pos g3]
      simp only [Bool.false_eq_true, if_false]
      by_cases hn : slc.stop.isNone = true
      · simp only [hn, if_true, Except.ok.injEq, Prod.mk.injEq] at hf
        obtain ⟨rfl, rfl, rfl, rfl⟩ := hf
        rw [hB'.1 hn]
        simp only [if_true, Option.elim]
        simp only [Option.isNone_some, Bool.false_eq_true, false_or, Option.some.injEq,
          Option.getD_some] at g2
        have := fwd_back L a' 0 step hs (by omega) (by omega) ha2
          (by rw [Int.zero_add]; omega) (by rw [Int.zero_add]; omega)
        rw [Int.zero_add] at this
        rw [this]
        rfl
      · have hn' : slc.stop.isNone = false := Bool.eq_false_iff.mpr hn
        simp only [hn', Bool.false_eq_true, if_false, Except.ok.injEq, Prod.mk.injEq] at hf
        obtain ⟨rfl, rfl, rfl, rfl⟩ := hf
        rw [hB'.2 hn']
        simp only [if_true, Option.elim]
        simp only [Option.isNone_some, Bool.false_eq_true, false_or, Option.some.injEq,
          Option.getD_some] at g2
        rw [fwd_back L a' (b + 1) step hs (by omega) (by omega) ha2 (by omega) (by omega)]
        by_cases hbL : b ≤ L - 1
        · rw [Int.min_eq_left hbL]; congr 1; omega
        · have : b = L := by omega
          subst this
          unfold pyRange rangeLen
          rw [if_neg (by omega), if_neg (by omega), if_neg (by omega), if_neg (by omega)]
    · simp only [flipMath, hs, Bool.false_eq_true, if_false, Except.ok.injEq, Prod.mk.injEq] at hf
      obtain ⟨rfl, rfl, rfl, rfl⟩ := hf
      unfold pyIndices
      rw [if_pos g3, if_pos g3, hA, hB]
      simp only [Option.elim, Bool.false_eq_true, if_false]
      unfold clampIdx
      rw [if_neg (by omega), if_neg (by omega), Int.min_eq_left (by omega), Int.min_eq_left (by omega)]

/-- C14, acceptance: a slice with bounds in [-L, L] and nonzero step that selects at least one
element is accepted, except reversed with negative step and explicit start == L. -/
theorem C14_accepts_partial (L : Int) (hL : 0 ≤ L) (slc : Slc) (rev : Bool) (hstep : slc.step ≠ some 0)
    (hstart : ∀ v, slc.start = some v → -L ≤ v ∧ v ≤ L)
    (hstop : ∀ v, slc.stop = some v → -L ≤ v ∧ v ≤ L)
    (hne : requested L slc rev ≠ [])
    (hbad : ¬ (rev = true ∧ slc.start = some L ∧ slc.step.getD 1 < 0)) :
    ∃ first flip, makeFwd L slc rev = .ok (first, flip) := by
  have h1 : ¬ (norm L (slc.start.getD 0) < 0 ∨ norm L (slc.stop.getD L) < 0) := by
    unfold norm
    have : -L ≤ slc.start.getD 0 := by
      cases h : slc.start with
      | none => simp only [Option.getD_none]; omega
      | some v => exact (hstart v h).1
    have : -L ≤ slc.stop.getD L := by
      cases h : slc.stop with
      | none => simp only [Option.getD_none]; omega
      | some v => exact (hstop v h).1
    split <;> split <;> omega
  have h2 : ¬ (norm L (slc.start.getD 0) > L ∨ norm L (slc.stop.getD L) > L) := by
    unfold norm
    have : slc.start.getD 0 ≤ L := by
      cases h : slc.start with
      | none => simp only [Option.getD_none]; omega
      | some v => exact (hstart v h).2
    have : slc.stop.getD L ≤ L := by
      cases h : slc.stop with
      | none => simp only [Option.getD_none]; omega
      | some v => exact (hstop v h).2
    split <;> split <;> omega
  have hstep' : slc.step.getD 1 ≠ 0 := by
    cases h : slc.step with
    | none => simp
    | some v => rw [h] at hstep; simpa using hstep
  unfold makeFwd
  simp only [h1, h2, if_false]
  have hA := elim_start_pos L slc.start hL h1 h2
  have hB := elim_stop_pos L slc.stop hL h1 h2
  have hA' := elim_start_neg L slc.start hL h1 h2
  have hB' := elim_stop_neg L slc.stop hL h1 h2
  have hSL : slc.start.isNone = false → norm L (slc.start.getD 0) = L → slc.start = some L := by
    cases slc.start with
    | none => simp
    | some v => simp only [Option.getD_some, norm]; intro _; split <;> intro h <;> first | (congr 1; done) | (exfalso; omega) | (subst h; rfl)
  generalize norm L (slc.start.getD 0) = a at *
  generalize norm L (slc.stop.getD L) = b at *
  -- emptiness, by sign of the step
  have hne' : pyIndices L slc.start slc.stop (slc.step.getD 1) ≠ [] := by
    intro e; apply hne; unfold requested; simp only [e]; split <;> rfl
  clear hne hstep
  unfold pyIndices at hne'
  generalize slc.step.getD 1 = step at *
  by_cases hs : step < 0
  · rw [if_neg (by omega), hA'] at hne'
    have hlt := pyRange_ne_nil_neg _ _ _ hs hne'
    have hrev : rev = true → slc.start.isNone = false → a ≠ L := by
      intro hr hn ha
      exact hbad ⟨hr, hSL hn ha, hs⟩
    have hmb : ∀ x y : Int, 0 ≤ y → 0 ≤ y % (-step) ∧ y % (-step) ≤ y := by
      intro _ y hy
      refine ⟨Int.emod_nonneg _ (by omega), emod_le_self _ _ hy (by omega)⟩
    have ha' : 0 ≤ (if slc.start.isNone = true then L - 1 else a) ∨ L = 0 := by split <;> omega
    have hr2 : rev = true → (if slc.start.isNone = true then L - 1 else a) ≤ L - 1 := by
      intro hr
      split
      · omega
      · rename_i hn; have := hrev hr (Bool.eq_false_iff.mpr hn); omega
    have haL : (if slc.start.isNone = true then L - 1 else a) ≤ L := by split <;> omega
    unfold flipMath
    simp only [hs, if_true]
    generalize (if slc.start.isNone = true then L - 1 else a) = a' at *
    by_cases hn : slc.stop.isNone = true
    · rw [hB'.1 hn] at hlt
      simp only [hn, if_true]
      cases rev with
      | true =>
        have := hr2 rfl
        simp only [if_true]
        unfold finish
        rw [if_neg (by omega), if_neg (by simp), if_neg (by omega)]
        exact ⟨_, _, rfl⟩
      | false =>
        simp only [Bool.false_eq_true, if_false]
        unfold finish
        have e : a' + 1 - 1 - 0 = a' := by omega
        rw [e]
        have := hmb 0 a' (by omega)
        rw [if_neg (by omega), if_neg (by simp only [Option.isNone_some, Bool.false_eq_true, false_or, Option.some.injEq, Option.getD_some]; omega), if_neg (by omega)]
        exact ⟨_, _, rfl⟩
    · have hn' : slc.stop.isNone = false := Bool.eq_false_iff.mpr hn
      rw [hB'.2 hn'] at hlt
      simp only [hn', Bool.false_eq_true, if_false]
      cases rev with
      | true =>
        have := hr2 rfl
        simp only [if_true]
        unfold finish
        rw [if_neg (by omega), if_neg (by simp only [Option.isNone_some, Bool.false_eq_true, false_or, Option.some.injEq, Option.getD_some]; omega), if_neg (by omega)]
        exact ⟨_, _, rfl⟩
      | false =>
        simp only [Bool.false_eq_true, if_false]
        unfold finish
        have e : a' + 1 - 1 - (b + 1) = a' - b - 1 := by omega
        rw [e]
        have := hmb 0 (a' - b - 1) (by omega)
        rw [if_neg (by omega), if_neg (by simp only [Option.isNone_some, Bool.false_eq_true, false_or, Option.some.injEq, Option.getD_some]; omega), if_neg (by omega)]
        exact ⟨_, _, rfl⟩
  · have hsp : step > 0 := by omega
    rw [if_pos hsp, hA, hB] at hne'
    have hlt := pyRange_ne_nil_pos _ _ _ hsp hne'
    unfold flipMath
    simp only [hs, hstep', if_false]
    cases rev with
    | true =>
      simp only [if_true]
      unfold finish
      have e : L - a - 1 - (L - b) = b - a - 1 := by omega
      rw [e]
      have m1 := Int.emod_nonneg (b - a - 1) hstep'
      have m2 : (b - a - 1) % step ≤ b - a - 1 := emod_le_self _ _ (by omega) (by omega)
      rw [if_neg (by omega), if_neg (by simp only [Option.isNone_some, Bool.false_eq_true, false_or, Option.some.injEq, Option.getD_some]; omega), if_neg (by omega)]
      exact ⟨_, _, rfl⟩
    | false =>
      simp only [Bool.false_eq_true, if_false]
      unfold finish
      rw [if_neg (by omega), if_neg (by simp only [Option.isNone_some, Bool.false_eq_true, false_or, Option.some.injEq, Option.getD_some]; omega), if_neg (by omega)]
      exact ⟨_, _, rfl⟩

/-- Non-vacuity: `a[::-1][-4:-1:2]` on 6 elements, and `a[5:1:-3]` on 7. -/
example : makeFwd 6 ⟨some (-4), some (-1), some 2⟩ true = .ok (⟨some 1, some 4, some 2⟩, true) ∧
    requested 6 ⟨some (-4), some (-1), some 2⟩ true = [3, 1] ∧
    selected 6 ⟨some 1, some 4, some 2⟩ true = [3, 1] := by decide
example : makeFwd 7 ⟨some 5, some 1, some (-3)⟩ false = .ok (⟨some 2, some 6, some 3⟩, true) ∧
    requested 7 ⟨some 5, some 1, some (-3)⟩ false = [5, 2] := by decide

/-- C14 fails: on four elements, `a[4::-2]` is positions 3, 1, but make_fwd_slice selects 2, 0. -/
theorem C14_start_at_length_violated :
    ∃ (L : Int) (slc : Slc) (first : Slc) (flip : Bool),
      makeFwd L slc false = .ok (first, flip) ∧ requested L slc false = [3, 1] ∧
      selected L first flip = [2, 0] :=
  ⟨4, ⟨some 4, none, some (-2)⟩, ⟨some 0, some 5, some 2⟩, true, by decide⟩

/-- C14 fails: a nonempty reversed selection `a[::-1][4::-1]` and the empty `a[2:2]`, both within
the documented bounds, raise AssertionError. -/
theorem C14_rejects_violated :
    requested 4 ⟨some 4, none, some (-1)⟩ true = [0, 1, 2, 3] ∧
    makeFwd 4 ⟨some 4, none, some (-1)⟩ true = .error .assertionError ∧
    makeFwd 4 ⟨some 2, some 2, none⟩ false = .error .assertionError := by decide

/-- C14 as stated is therefore false. -/
theorem C14_statement_violated : ¬ C14Statement := by
  intro h
  obtain ⟨f, b, hk, _⟩ := h 4 ⟨some 2, some 2, none⟩ false (by decide) (by decide)
    (by intro v hv; cases hv; decide) (by intro v hv; cases hv; decide)
  have : makeFwd 4 ⟨some 2, some 2, none⟩ false = .error .assertionError := by decide
  rw [this] at hk
  cases hk

/-- The integer branch: in-range non-negative indices of a reversed dimension select the element
`a[::-1][i]`. -/
theorem C14_int_partial (L i : Int) (h : 0 ≤ i ∧ i < L) :
    0 ≤ fwdInt L i true ∧ fwdInt L i true < L ∧ fwdInt L i true = L - 1 - i := by
  unfold fwdInt; simp only [if_true, and_true]; omega

/-- A negative index of a reversed dimension (`a[::-1][-1]`, element 0) becomes `a[L]`: out of range. -/
theorem C14_int_negative_violated (L : Int) : ¬ fwdInt L (-1) true < L := by
  unfold fwdInt; simp only [if_true]; omega

end Viscid.FwdSlice
