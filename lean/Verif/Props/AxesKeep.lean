import Verif.Model.AxesKeep
import Verif.Spec.AxesKeep
import Mathlib.Tactic.Linarith
/-!
# C247: the keeping of axes
-/
namespace Viscid.Props
open Viscid.AxesKeep Viscid.Spec.AxesKeep

namespace AK

theorem within_iff (lim : ℚ × ℚ) (t : ℚ) : Within lim t ↔ min lim.1 lim.2 ≤ t ∧ t ≤ max lim.1 lim.2 := by
  unfold Within
  rcases le_total lim.1 lim.2 with h | h
  · rw [min_eq_left h, max_eq_right h]
    constructor
    · rintro (⟨a, b⟩ | ⟨a, b⟩)
      · exact ⟨a, b⟩
      · exact ⟨by linarith, by linarith⟩
    · exact fun h => .inl h
  · rw [min_eq_right h, max_eq_left h]
    constructor
    · rintro (⟨a, b⟩ | ⟨a, b⟩)
      · exact ⟨by linarith, by linarith⟩
      · exact ⟨a, b⟩
    · exact fun h => .inr h

/-- the first of a sorted list with a property that goes upward is the least -/
theorem head_least : ∀ (l : List ℚ) (p : ℚ → Bool) (a : ℚ), l.Pairwise (· ≤ ·) → (l.filter p).head? = some a → a ∈ l ∧ p a = true ∧ ∀ t ∈ l, p t = true → a ≤ t
  | l, p, a, hs, h => by
    have hm : a ∈ l.filter p := List.mem_of_head? h
    obtain ⟨h1, h2⟩ := List.mem_filter.1 hm
    refine ⟨h1, h2, fun t ht hp => ?_⟩
    have ht' : t ∈ l.filter p := List.mem_filter.2 ⟨ht, hp⟩
    have hs' := hs.filter p
    cases e : l.filter p with
    | nil => rw [e] at ht'; cases ht'
    | cons b r =>
      rw [e] at h ht' hs'
      simp only [List.head?_cons, Option.some.injEq] at h
      subst h
      rcases List.mem_cons.1 ht' with rfl | hr
      · exact le_refl _
      · exact (List.pairwise_cons.1 hs').1 t hr

theorem last_greatest (l : List ℚ) (p : ℚ → Bool) (b : ℚ) (hs : l.Pairwise (· ≤ ·)) (h : (l.filter p).getLast? = some b) : b ∈ l ∧ p b = true ∧ ∀ t ∈ l, p t = true → t ≤ b := by
  have hm : b ∈ l.filter p := List.mem_of_getLast? h
  obtain ⟨h1, h2⟩ := List.mem_filter.1 hm
  refine ⟨h1, h2, fun t ht hp => ?_⟩
  have ht' : t ∈ l.filter p := List.mem_filter.2 ⟨ht, hp⟩
  obtain ⟨ys, hys⟩ := List.getLast?_eq_some_iff.1 h
  have hs' := hs.filter p
  rw [hys] at hs' ht'
  rcases List.mem_append.1 ht' with h | h
  · exact (List.pairwise_append.1 hs').2.2 t h b (by simp)
  · simp only [List.mem_singleton] at h
    exact h.le

theorem setLim_get (group : List ℕ) (i : ℕ) (v : ℚ × ℚ) (lims : List (ℚ × ℚ)) (j : ℕ) :
    (setLim group i v lims)[j]? = (lims[j]?).map fun l => if group[j]? = group[i]? then v else l := by
  unfold setLim
  rw [List.getElem?_mapIdx]

theorem setLim_length (group : List ℕ) (i : ℕ) (v : ℚ × ℚ) (lims : List (ℚ × ℚ)) : (setLim group i v lims).length = lims.length := by
  unfold setLim; rw [List.length_mapIdx]

/-- each of those gone through, and of those shared with it, has what it had -/
theorem restore_spec (group : List ℕ) (pre : List (ℚ × ℚ)) (hs : Shared group pre) : ∀ (vs : List (ℚ × ℚ)) (i : ℕ) (lims : List (ℚ × ℚ)), lims.length = pre.length →
    pre.drop i = vs → (∀ j, j < i → j < pre.length → lims[j]? = pre[j]?) → restore group i vs lims = pre
  | [], i, lims, hl, hd, hi => by
    have hle : pre.length ≤ i := List.drop_eq_nil_iff.1 hd
    rw [restore]
    apply List.ext_getElem?
    intro j
    by_cases hj : j < pre.length
    · exact hi j (by omega) hj
    · rw [List.getElem?_eq_none (by omega), List.getElem?_eq_none (by omega)]
  | v :: vs, i, lims, hl, hd, hi => by
    have hlt : i < pre.length := by
      by_contra hc
      rw [List.drop_eq_nil_iff.2 (by omega)] at hd
      cases hd
    have hv : pre[i]? = some v := by
      have := congrArg (fun l => l[0]?) hd
      simpa using this
    rw [restore]
    refine restore_spec group pre hs vs (i + 1) _ (by rw [setLim_length, hl]) ?_ ?_
    · rw [← List.drop_drop, hd, List.drop_one, List.tail_cons]
    · intro j hj hjp
      rw [setLim_get]
      by_cases hg : group[j]? = group[i]?
      · simp only [hg, if_true]
        rw [hs.2 j i hjp hlt hg, hv, List.getElem?_eq_getElem (by omega : j < lims.length)]
        rfl
      · simp only [hg, if_false]
        have : j ≠ i := fun e => hg (by rw [e])
        rw [hi j (by omega) hjp]
        simp

end AK

/-- C247: `despine` shows exactly the spines whose removal is not asked for, each moved outward by the offset for its side, if there is one, and 0 for sides that the dict does not name. -/
theorem C247_spines (g : Gone) (off : Option Offset) (t : Bool) (ax ax' : Axes) (h : despine g off t ax = .ok ax') (s : Side) :
    ((ax'.spines s).visible = true ↔ (match s with | .top => g.top | .right => g.right | .left => g.left | .bottom => g.bottom) = false) ∧
    (ax'.spines s).outward = (match off with
      | none => (ax.spines s).outward
      | some o => if (ax'.spines s).visible then (match o with | .number v => v | .dict d => (d.lookup s).getD 0) else (ax.spines s).outward) ∧
    ax'.xlim = ax.xlim ∧ ax'.ylim = ax.ylim := by
  have hl : ∀ d : List (Side × ℚ), ((d.find? fun p => p.1 = s).map Prod.snd) = d.lookup s := by
    intro d
    induction d with
    | nil => rfl
    | cons p d ih =>
      rw [List.find?_cons, List.lookup_cons]
      by_cases e : p.1 = s
      · subst e; simp
      · rw [show (decide (p.1 = s)) = false by simp [e], show (s == p.1) = false by simp [Ne.symm e]]
        exact ih
  have base : ∀ sp : Spine, ((toggle (g.at' s) off s sp).visible = true ↔ g.at' s = false) ∧
      (toggle (g.at' s) off s sp).outward = (match off with
      | none => sp.outward
      | some o => if (toggle (g.at' s) off s sp).visible then (match o with | .number v => v | .dict d => (d.lookup s).getD 0) else sp.outward) := by
    intro sp
    unfold toggle
    cases off with
    | none => simp
    | some o =>
      cases hg : g.at' s
      · cases o with
        | number v => simp [Offset.get]
        | dict d => simp [Offset.get, hl]
      · simp
  have hb : ∀ (sp : Side → Spine) a b v, (setBounds sp a b v s).visible = (sp s).visible ∧ (setBounds sp a b v s).outward = (sp s).outward := by
    intro sp a b v
    unfold setBounds
    split <;> exact ⟨rfl, rfl⟩
  have key : (ax'.spines s).visible = (toggle (g.at' s) off s (ax.spines s)).visible ∧ (ax'.spines s).outward = (toggle (g.at' s) off s (ax.spines s)).outward ∧ ax'.xlim = ax.xlim ∧ ax'.ylim = ax.ylim := by
    unfold despine at h
    cases t with
    | false =>
      simp only [Bool.false_eq_true, if_false] at h
      cases h
      exact ⟨rfl, rfl, rfl, rfl⟩
    | true =>
      simp only [if_true] at h
      cases hx : trim ax.xticks ax.xlim with
      | error e => rw [hx] at h; cases h
      | ok x =>
        rw [hx] at h
        cases x with
        | none =>
          cases hy : trim ax.yticks ax.ylim with
          | error e => simp only [bind, Except.bind, pure, Except.pure, hy] at h; cases h
          | ok y =>
            simp only [bind, Except.bind, pure, Except.pure, hy] at h
            cases y with
            | none => cases h; exact ⟨rfl, rfl, rfl, rfl⟩
            | some y => cases h; exact ⟨(hb _ _ _ _).1, (hb _ _ _ _).2, rfl, rfl⟩
        | some x =>
          cases hy : trim ax.yticks ax.ylim with
          | error e => simp only [bind, Except.bind, pure, Except.pure, hy] at h; cases h
          | ok y =>
            simp only [bind, Except.bind, pure, Except.pure, hy] at h
            cases y with
            | none => cases h; exact ⟨(hb _ _ _ _).1, (hb _ _ _ _).2, rfl, rfl⟩
            | some y =>
              cases h
              exact ⟨((hb _ _ _ _).1).trans (hb _ _ _ _).1, ((hb _ _ _ _).2).trans (hb _ _ _ _).2, rfl, rfl⟩
  obtain ⟨k1, k2, k3, k4⟩ := key
  refine ⟨?_, ?_, k3, k4⟩
  · rw [k1, (base _).1]
    cases s <;> rfl
  · rw [k1, k2, (base _).2]

/-- C247: ticks are on the side that is kept, where exactly one of two is. -/
theorem C247_side (g : Gone) (off : Option Offset) (ax ax' : Axes) (h : despine g off false ax = .ok ax') :
    (g.top ≠ g.bottom → (g.top = true → ax'.xside = .bottom) ∧ (g.bottom = true → ax'.xside = .top)) ∧
    (g.left ≠ g.right → (g.right = true → ax'.yside = .left) ∧ (g.left = true → ax'.yside = .right)) := by
  unfold despine at h
  simp only [Bool.false_eq_true, if_false] at h
  cases h
  simp only [sideX, sideY]
  rcases g with ⟨t, r, l, b⟩
  cases t <;> cases r <;> cases l <;> cases b <;> simp

/-- C247, full statement: trimming limits spines to the least and greatest tick within the limits and keeps exactly the ticks within them.
Proved for ticks in ascending order of which one is within; missing: other orders, see below, and no tick within. -/
theorem C247_trim_partial (ticks : List ℚ) (lim : ℚ × ℚ) (hs : ticks.Pairwise (· ≤ ·)) (hin : ∃ t ∈ ticks, Within lim t) :
    ∃ a b kept, trim ticks lim = .ok (some ((a, b), kept)) ∧ a ∈ ticks ∧ Within lim a ∧ b ∈ ticks ∧ Within lim b ∧ (∀ t ∈ ticks, Within lim t → a ≤ t ∧ t ≤ b) ∧
      kept.Sublist ticks ∧ ∀ t, t ∈ kept ↔ t ∈ ticks ∧ Within lim t := by
  obtain ⟨t0, h0, hw⟩ := hin
  have hw' := (AK.within_iff lim t0).1 hw
  have hne : ticks ≠ [] := List.ne_nil_of_mem h0
  have hemp : ticks.isEmpty = false := by cases ticks with | nil => exact absurd rfl hne | cons _ _ => rfl
  cases ea : (ticks.filter fun t => min lim.1 lim.2 ≤ t).head? with
  | none =>
    rw [List.head?_eq_none_iff, List.filter_eq_nil_iff] at ea
    exact absurd hw'.1 (by simpa using ea t0 h0)
  | some a =>
    cases eb : (ticks.filter fun t => t ≤ max lim.1 lim.2).getLast? with
    | none =>
      rw [List.getLast?_eq_none_iff, List.filter_eq_nil_iff] at eb
      exact absurd hw'.2 (by simpa using eb t0 h0)
    | some b =>
      obtain ⟨a1, a2, a3⟩ := AK.head_least _ _ _ hs ea
      obtain ⟨b1, b2, b3⟩ := AK.last_greatest _ _ _ hs eb
      simp only [decide_eq_true_eq] at a2 a3 b2 b3
      have hat := a3 t0 h0 hw'.1
      have htb := b3 t0 h0 hw'.2
      refine ⟨a, b, _, by unfold trim; rw [hemp, ea, eb]; rfl, a1, (AK.within_iff _ _).2 ⟨a2, by linarith [hw'.2]⟩, b1, (AK.within_iff _ _).2 ⟨by linarith [hw'.1], b2⟩, ?_, ?_, ?_⟩
      · intro t ht hwt
        have := (AK.within_iff _ _).1 hwt
        exact ⟨a3 t ht this.1, b3 t ht this.2⟩
      · exact (List.filter_sublist).trans List.filter_sublist
      · intro t
        simp only [List.mem_filter, decide_eq_true_eq, AK.within_iff]
        constructor
        · rintro ⟨⟨h1, h2⟩, h3⟩
          exact ⟨h1, by linarith, by linarith⟩
        · rintro ⟨h1, h2, h3⟩
          exact ⟨⟨h1, b3 t h1 h3⟩, a3 t h1 h2⟩

/-- C247 is violated: with ticks in descending order, two of them within the limits, trimming leaves no tick but those equal to both ends, that is none, and reversed bounds. -/
theorem C247_descending_violated (ticks : List ℚ) (lim : ℚ × ℚ) (hs : ticks.Pairwise (· > ·)) (hin : ∀ t ∈ ticks, Within lim t) (h2 : 2 ≤ ticks.length) :
    ∃ a b, trim ticks lim = .ok (some ((a, b), [])) ∧ b < a := by
  have fa : (ticks.filter fun t => min lim.1 lim.2 ≤ t) = ticks := List.filter_eq_self.2 fun t ht => by simpa using ((AK.within_iff _ _).1 (hin t ht)).1
  have fb : (ticks.filter fun t => t ≤ max lim.1 lim.2) = ticks := List.filter_eq_self.2 fun t ht => by simpa using ((AK.within_iff _ _).1 (hin t ht)).2
  match ticks, h2 with
  | a :: b0 :: r, _ =>
    have hl : (a :: b0 :: r).getLast? = some ((b0 :: r).getLast (by simp)) := by rw [List.getLast?_cons_cons, List.getLast?_eq_some_getLast (by simp)]
    refine ⟨a, (b0 :: r).getLast (by simp), ?_, ?_⟩
    · unfold trim
      rw [fa, fb, hl]
      simp only [List.isEmpty_cons, Bool.false_eq_true, if_false, List.head?_cons]
      congr 3
      rw [List.filter_filter, List.filter_eq_nil_iff]
      intro t ht
      simp only [Bool.and_eq_true, decide_eq_true_eq, not_and, not_le]
      intro h3
      rcases List.mem_cons.1 ht with rfl | h4
      · exact (List.pairwise_cons.1 hs).1 _ (List.getLast_mem _)
      · have := (List.pairwise_cons.1 hs).1 t h4
        linarith
    · exact (List.pairwise_cons.1 hs).1 _ (List.getLast_mem _)

/-- C247 is violated: with ticks that are all beyond one of the limits trimming is an IndexError. -/
theorem C247_no_tick_violated (ticks : List ℚ) (lim : ℚ × ℚ) (hne : ticks ≠ []) (h : (∀ t ∈ ticks, t < min lim.1 lim.2) ∨ ∀ t ∈ ticks, max lim.1 lim.2 < t) :
    trim ticks lim = .error .index := by
  have hemp : ticks.isEmpty = false := by cases ticks with | nil => exact absurd rfl hne | cons _ _ => rfl
  unfold trim
  rw [hemp]
  rcases h with h | h
  · have : (ticks.filter fun t => min lim.1 lim.2 ≤ t) = [] := List.filter_eq_nil_iff.2 fun t ht => by simpa using h t ht
    rw [this]; rfl
  · have : (ticks.filter fun t => t ≤ max lim.1 lim.2) = [] := List.filter_eq_nil_iff.2 fun t ht => by simpa using h t ht
    rw [this]
    simp only [Bool.false_eq_true, if_false, List.getLast?_nil]
    split
    · rename_i h; cases h
    · rfl

/-- C247: after `auto_adjust_subplots` all axes of the figure have the limits they had before, also those that are shared, whatever a tight layout does to them;
the parameters given are those of the figure and of the result. -/
theorem C247_limits (tight : Fig → Fig) (w w' : World) (fig : Option ℕ) (t : Bool) (args : Option ParamArgs) (r : Params) (f : Fig)
    (h : autoAdjust tight w fig t args = .ok (w', r)) (hf : w.figs[fig.getD w.current]? = some f)
    (hx : Shared f.xgroup f.xlim) (hy : Shared f.ygroup f.ylim)
    (ht : ∀ g, (tight g).xgroup = g.xgroup ∧ (tight g).ygroup = g.ygroup ∧ (tight g).xlim.length = g.xlim.length ∧ (tight g).ylim.length = g.ylim.length) :
    ∃ f', w'.figs[fig.getD w.current]? = some f' ∧ f'.xlim = f.xlim ∧ f'.ylim = f.ylim ∧ f'.pars = r ∧
      (∀ a, args = some a → (∀ v, a.left = some v → r.left = v) ∧ (∀ v, a.right = some v → r.right = v) ∧ (∀ v, a.top = some v → r.top = v) ∧ (∀ v, a.bottom = some v → r.bottom = v) ∧
        (∀ v, a.hspace = some v → r.hspace = v) ∧ (∀ v, a.wspace = some v → r.wspace = v) ∧ r.left < r.right ∧ r.bottom < r.top) := by
  unfold autoAdjust at h
  simp only [hf] at h
  generalize hi : fig.getD w.current = i at h hf ⊢
  have hW : ∃ f2, (if t = true then tighten tight w else w).figs[i]? = some f2 ∧ f2.xgroup = f.xgroup ∧ f2.ygroup = f.ygroup ∧ f2.xlim.length = f.xlim.length ∧ f2.ylim.length = f.ylim.length := by
    cases t with
    | false => exact ⟨f, by simpa using hf, rfl, rfl, rfl, rfl⟩
    | true =>
      simp only [if_true, tighten]
      rw [List.getElem?_modify, hf]
      by_cases hc : w.current = i
      · exact ⟨tight f, by simp [hc], (ht f).1, (ht f).2.1, (ht f).2.2.1, (ht f).2.2.2⟩
      · exact ⟨f, by simp [hc], rfl, rfl, rfl, rfl⟩
  generalize (if t = true then tighten tight w else w) = w1 at h hW
  obtain ⟨f2, hf2, gx, gy, lx, ly⟩ := hW
  simp only [hf2] at h
  have hlen : i < w1.figs.length := by
    by_contra hc
    rw [List.getElem?_eq_none (by omega)] at hf2
    cases hf2
  cases args with
  | none =>
    simp only [Except.ok.injEq, Prod.mk.injEq] at h
    obtain ⟨rfl, rfl⟩ := h
    refine ⟨_, List.getElem?_set_self hlen, ?_, ?_, rfl, by simp⟩
    · simp only [gx]; exact AK.restore_spec _ _ hx _ 0 _ lx rfl (by simp)
    · simp only [gy]; exact AK.restore_spec _ _ hy _ 0 _ ly rfl (by simp)
  | some a =>
    simp only at h
    cases ha : adjust a f2.pars with
    | error e => rw [ha] at h; cases h
    | ok p =>
      rw [ha] at h
      simp only [Except.ok.injEq, Prod.mk.injEq] at h
      obtain ⟨rfl, rfl⟩ := h
      refine ⟨_, List.getElem?_set_self hlen, ?_, ?_, rfl, ?_⟩
      · simp only [gx]; exact AK.restore_spec _ _ hx _ 0 _ lx rfl (by simp)
      · simp only [gy]; exact AK.restore_spec _ _ hy _ 0 _ ly rfl (by simp)
      · intro b hb
        cases hb
        unfold adjust at ha
        simp only at ha
        split at ha
        · cases ha
        · rename_i hc
          simp only [not_or, not_le] at hc
          cases ha
          refine ⟨?_, ?_, ?_, ?_, ?_, ?_, hc.1, hc.2⟩ <;> (intro v hv; simp [hv])

/-- C247 is violated: a tight layout of a figure that is not the current one leaves that figure's layout as it is, and changes the current one instead, whose limits are not restored. -/
theorem C247_current_violated (tight : Fig → Fig) (w : World) (i : ℕ) (f c : Fig) (hi : i ≠ w.current) (hf : w.figs[i]? = some f) (hc : w.figs[w.current]? = some c) :
    ∃ w', autoAdjust tight w (some i) true none = .ok (w', f.pars) ∧ w'.figs[w.current]? = some (tight c) := by
  unfold autoAdjust
  have h1 : (tighten tight w).figs[i]? = some f := by
    simp only [tighten]; rw [List.getElem?_modify, hf]; simp [Ne.symm hi]
  simp only [Option.getD_some, hf, if_true, h1]
  refine ⟨_, rfl, ?_⟩
  simp only [tighten]
  rw [List.getElem?_set_ne hi, List.getElem?_modify, hc]
  simp

/-- C247: axes over the rows r0 to r1 and columns c0 to c1 of a grid are at the bottom if they reach its last row, and at the left if they begin in its first column. -/
theorem C247_edge (nrows ncols r0 r1 c0 c1 : ℕ) (hr : r0 ≤ r1 ∧ r1 < nrows) (hc : c0 ≤ c1 ∧ c1 < ncols) :
    onEdge ⟨nrows, ncols, cell ncols r0 c0, some (cell ncols r1 c1)⟩ = (decide (r1 = nrows - 1), decide (c0 = 0)) ∧
    onEdge ⟨nrows, ncols, cell ncols r0 c0, none⟩ = (decide (r0 = nrows - 1), decide (c0 = 0)) := by
  have d : ∀ r c, c < ncols → cell ncols r c / ncols = r ∧ cell ncols r c % ncols = c := by
    intro r c h
    unfold cell
    constructor
    · rw [Nat.mul_comm, Nat.mul_add_div (by omega), Nat.div_eq_of_lt h, Nat.add_zero]
    · rw [Nat.mul_comm, Nat.mul_add_mod, Nat.mod_eq_of_lt h]
  unfold onEdge
  simp only [(d r0 c0 (by omega)).1, (d r0 c0 (by omega)).2, Prod.mk.injEq]
  have e1 := (d r1 c1 (by omega)).1
  refine ⟨⟨decide_eq_decide.2 (by rw [e1]; omega), ?_⟩, decide_eq_decide.2 (by omega), ?_⟩ <;> simp [Bool.beq_eq_decide_eq]

/-- The hypotheses of C247 are met by ticks beyond limits in reverse order, by ticks in descending order, and by two figures of axes that share x. -/
example : ([0, 1, 2, 3, 4] : List ℚ).Pairwise (· ≤ ·) ∧ Within (3.5, 0.5) 2 ∧ trim [0, 1, 2, 3, 4] (3.5, 0.5) = .ok (some ((1, 3), [1, 2, 3])) ∧
    trim [3, 2, 1] (0, 4) = .ok (some ((3, 1), [])) ∧ Shared [0, 0, 1] [(0, 1), (0, 1), (2, 3)] := by
  refine ⟨by decide +kernel, .inr (by norm_num), by decide +kernel, by decide +kernel, rfl, ?_⟩
  intro i j hi hj h
  match i, hi, j, hj with
  | 0, _, 0, _ => rfl
  | 0, _, 1, _ => rfl
  | 0, _, 2, _ => simp at h
  | 1, _, 0, _ => rfl
  | 1, _, 1, _ => rfl
  | 1, _, 2, _ => simp at h
  | 2, _, 0, _ => simp at h
  | 2, _, 1, _ => simp at h
  | 2, _, 2, _ => rfl

end Viscid.Props
