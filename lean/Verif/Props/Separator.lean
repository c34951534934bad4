import Verif.Lemmas.Separator
import Mathlib.Tactic.Tauto
/-!
# C97 to C102: finding separators
-/
namespace Viscid.Props
open Viscid.Separator Viscid.Spec.Separator
open Viscid.Cluster (Per findClusters)

/-- C97: each returned point lies in a rectangle of the uv map around which the topologies were found to pass the check (a
walk with every corner once, `uv_shape // 2` points on each side), of the requested depth or, if the search got stuck, of a
depth above `min_depth`. Its sides shrink at least by 0.65 per level. The rectangles of different points share no more
than sides. For every map of topologies and every check. -/
theorem C97_sound (c : Cfg) (fuel : Nat) (pts : List (ℚ × ℚ)) (hx : c.ext.xl ≤ c.ext.xh) (hy : c.ext.yl ≤ c.ext.yh)
    (h : getSepPtsBisect c fuel = .ok (.points pts)) :
    ∃ Rs : List Box, Rs.Pairwise Apart ∧
      List.Forall₂ (fun p R => Inside p R ∧ Within R ⟨c.ext.xl, c.ext.xh, c.ext.yl, c.ext.yh⟩ ∧
        c.check ((walk R (c.nx / 2) (c.ny / 2)).map c.topo) = true ∧
        ∃ d : Nat, ((d : Int) = c.maxDepth ∨ c.minDepth < d) ∧
          R.r - R.l ≤ (13 / 20) ^ d * (c.ext.xh - c.ext.xl) ∧ R.t - R.b ≤ (13 / 20) ^ d * (c.ext.yh - c.ext.yl)) pts Rs := by
  have he : Ordered c.ext := ⟨hx, hy⟩
  replace ⟨_, _, _, _, h⟩ := getSep_ok h
  obtain ⟨hmax, ret, hret, hpts⟩ := outer_ok h
  obtain ⟨hfound, hapart⟩ := bisect_sound c he fuel [] _ ret (mask_cases _) hret
  refine ⟨ret.map fun q => box (limits q c.ext), List.pairwise_map.mpr hapart, ?_⟩
  have : ∀ q ∈ ret, q ≠ [] → c.Ok (box (limits q c.ext)) := by
    intro q hq hne
    rcases (hfound q hq).ok with h | h
    · exact absurd h hne
    · exact h
  clear hret hapart h
  induction hpts with
  | nil => exact .nil
  | @cons q p ret pts hqp _ ih =>
    rw [List.map_cons]
    have hne : q ≠ [] := by rintro rfl; simp [center] at hqp
    have hsh := limits_shrinks he q
    exact .cons ⟨center_inside he hqp, hsh.within, this q (by simp) hne, q.length, (hfound q (by simp)).depth, hsh.width, hsh.height⟩
      (ih (fun r hr => hfound r (by simp [hr])) (fun r hr => this r (by simp [hr])))

theorem testBit_foldl_or (b : Nat) : ∀ (l : List Nat) (x : Nat), (l.foldl (· ||| ·) x).testBit b = true ↔
    x.testBit b = true ∨ ∃ v ∈ l, v.testBit b = true := by
  intro l
  induction l with
  | nil => intro x; simp
  | cons a l ih =>
    intro x
    rw [List.foldl_cons, ih]
    simp only [Nat.testBit_or, Bool.or_eq_true, List.mem_cons, exists_eq_or_imp]
    tauto

/-- C97, for the check of `get_sep_pts_bisect` and the topologies of a magnetosphere (closed 1, open north 2, open south 4,
solar wind 8): all four of them occur on the walk around the rectangle. -/
theorem C97_four_topologies (topo : ℚ × ℚ → Nat) (ht : ∀ p, topo p = 1 ∨ topo p = 2 ∨ topo p = 4 ∨ topo p = 8)
    (w : List (ℚ × ℚ)) : bitwiseOr (w.map topo) = true ↔ ∀ v, v = 1 ∨ v = 2 ∨ v = 4 ∨ v = 8 → ∃ p ∈ w, topo p = v := by
  unfold bitwiseOr
  rw [beq_iff_eq]
  have key : ∀ b, ((w.map topo).foldl (· ||| ·) 0).testBit b = true ↔ ∃ p ∈ w, (topo p).testBit b = true := by
    intro b
    rw [testBit_foldl_or]
    simp
  have bits : ∀ p b, (topo p).testBit b = true → (b < 4 ∧ topo p = 2 ^ b) := by
    intro p b h
    have hlt : b < 4 := by
      by_contra hb
      have : topo p < 2 ^ b := by
        have : 2 ^ 4 ≤ 2 ^ b := Nat.pow_le_pow_right (by omega) (by omega)
        rcases ht p with h | h | h | h <;> omega
      rw [Nat.testBit_lt_two_pow this] at h
      cases h
    refine ⟨hlt, ?_⟩
    have : b = 0 ∨ b = 1 ∨ b = 2 ∨ b = 3 := by omega
    rcases this with rfl | rfl | rfl | rfl <;> rcases ht p with e | e | e | e <;> rw [e] at h ⊢ <;> revert h <;> decide
  constructor
  · intro h v hv
    have : ∃ b, b < 4 ∧ v = 2 ^ b := by
      rcases hv with rfl | rfl | rfl | rfl
      · exact ⟨0, by omega, rfl⟩
      · exact ⟨1, by omega, rfl⟩
      · exact ⟨2, by omega, rfl⟩
      · exact ⟨3, by omega, rfl⟩
    obtain ⟨b, hb, rfl⟩ := this
    obtain ⟨p, hp, hbit⟩ := (key b).mp (by
      rw [h]
      have : b = 0 ∨ b = 1 ∨ b = 2 ∨ b = 3 := by omega
      rcases this with rfl | rfl | rfl | rfl <;> decide)
    exact ⟨p, hp, (bits p b hbit).2⟩
  · intro h
    refine Nat.eq_of_testBit_eq fun b => ?_
    rw [Bool.eq_iff_iff, key]
    constructor
    · rintro ⟨p, _, hb⟩
      have := (bits p b hb).1
      have : b = 0 ∨ b = 1 ∨ b = 2 ∨ b = 3 := by omega
      rcases this with rfl | rfl | rfl | rfl <;> decide
    · intro hb
      have hlt : b < 4 := by
        by_contra hge
        have : msSeparator < 2 ^ b := by
          have : 2 ^ 4 ≤ 2 ^ b := Nat.pow_le_pow_right (by omega) (by omega)
          have : msSeparator = 15 := rfl
          omega
        rw [Nat.testBit_lt_two_pow this] at hb
        cases hb
      obtain ⟨p, hp, e⟩ := h (2 ^ b) (by
        have : b = 0 ∨ b = 1 ∨ b = 2 ∨ b = 3 := by omega
        rcases this with rfl | rfl | rfl | rfl <;> simp)
      exact ⟨p, hp, by rw [e]; simp⟩

example := C97_four_topologies (fun p => if p.1 < 0 then (if p.2 < 0 then 1 else 2) else if p.2 < 0 then 4 else 8)
  (fun p => by split <;> split <;> simp) [(-1, -1), (-1, 1), (1, -1), (1, 1)]

/-- C97 fails for `max_depth=0`: the result is a list with an empty string instead of an array of points. -/
theorem C97_max_depth_zero_violated (c : Cfg) (fuel : Nat) (hx : c.ext.xl ≤ c.ext.xh) (hy : c.ext.yl ≤ c.ext.yh)
    (hf : 6 ≤ fuel) (h : c.maxDepth = 0) : getSepPtsBisect c fuel = .ok (.strings [[]]) := by
  obtain ⟨e, h1⟩ := outer_ends { c with minDepth := 0, maxDepth := 2 } 2 fuel false rfl (by omega) (le_refl _) ⟨hx, hy⟩ hf
  obtain ⟨u, h2⟩ := outer_ends { c with minDepth := 0, maxDepth := 2 } 2 fuel true rfl (by omega) (le_refl _) ⟨hx, hy⟩ hf
  have h3 : ∀ b, outer c fuel b = .ok (.strings [[]]) := fun b => by unfold outer; rw [if_pos h]
  simp only [getSepPtsBisect, h1, h2, bind, Except.bind, Out.count, h3]

/-- C98: a rectangle of the depth `max_depth` that can be reached through rectangles that all pass the check is found, and
its middle returned. The first split is even, or uneven if a search of depth 2 finds more points that way; all others
are even. -/
theorem C98_found (c : Cfg) (fuel d : Nat) (pts : List (ℚ × ℚ)) (hd : c.maxDepth = ((d + 2 : Nat) : Int))
    (h : getSepPtsBisect c fuel = .ok (.points pts)) :
    ∃ f : ℚ, (f = 1 / 2 ∨ (f = 13 / 20 ∧ ∃ e u, e.length < u.length ∧
        outer { c with minDepth := 0, maxDepth := 2 } fuel false = .ok (.points e) ∧
        outer { c with minDepth := 0, maxDepth := 2 } fuel true = .ok (.points u))) ∧
      ∀ S ∈ parts f ⟨c.ext.xl, c.ext.xh, c.ext.yl, c.ext.yh⟩,
        c.check ((walk S (c.nx / 2) (c.ny / 2)).map c.topo) = true →
        ∀ T, Chain (fun R => c.check ((walk R (c.nx / 2) (c.ny / 2)).map c.topo) = true) S (d + 1) T → middle T ∈ pts := by
  replace ⟨e, u, he, hu, h⟩ := getSep_ok h
  obtain ⟨hmax, ret, hret, hpts⟩ := outer_ok h
  generalize hm : (if decide (e.length < u.length) = true then unevenMask else 0) = mask at hret
  have hmask : mask = 0 ∨ mask = 8 := hm ▸ mask_cases _
  refine ⟨midpt mask, ?_, ?_⟩
  · by_cases g : e.length < u.length
    · rw [if_pos (by simpa using g)] at hm
      subst hm
      exact .inr ⟨by simp [midpt, unevenMask], e, u, g, he, hu⟩
    · rw [if_neg (by simpa using g)] at hm
      subst hm
      exact .inl (by simp [midpt, unevenMask])
  · intro S hS hok T hT
    obtain ⟨i, hi, rfl⟩ := parts_sub mask hmask c.ext hS
    have hlim : limits ([] ++ [i ||| mask]) c.ext = sub c.ext (i ||| mask) := by simp [limits]
    rw [← hlim] at hok hT
    cases fuel with
    | zero => simp [bisect] at hret
    | succ fuel =>
      have hrec : ∀ r, bisect c fuel ([] ++ [i ||| mask]) 0 = some r →
          ∃ q ∈ r, box (limits q c.ext) = T ∧ ∃ s, q = ([] ++ [i ||| mask]) ++ s ∧ s.length = d + 1 ∧ ∀ x ∈ s, x < 4 :=
        fun r hr => bisect_chain c (d + 1) fuel _ r T (by rw [hd]; simp; omega) hr hT
      obtain ⟨r, hr, hsub⟩ := branch_mem hmask (by rw [hd]; simp; omega) hret i hi hok (by
        rintro r hr rfl
        obtain ⟨q, hq, _⟩ := hrec [] hr
        cases hq)
      obtain ⟨q, hq, rfl, s, rfl, hl, hall⟩ := hrec r hr
      have hq' := hsub _ hq
      have hs : s ≠ [] := by rintro rfl; simp at hl
      have hc := center_middle (ext := c.ext) (q := ([] ++ [i ||| mask]) ++ s) (s := ([] ++ [i ||| mask]) ++ s.dropLast)
        (d := s.getLast hs) (by rw [List.append_assoc _ s.dropLast, List.dropLast_append_getLast]) (hall _ (List.getLast_mem hs))
      clear hrec hr hsub hret hq h he hu
      induction hpts with
      | nil => cases hq'
      | cons hqp _ ih =>
        rcases List.mem_cons.mp hq' with rfl | hq'
        · rw [hc] at hqp
          rw [Except.ok.inj hqp]
          simp
        · exact List.mem_cons_of_mem _ (ih hq')

/-- C98: the search always ends, with points, for every map of topologies and every check, if `max_depth` is positive and
`min_depth` not negative. The number of nested calls is bounded by the depth. -/
theorem C98_ends_partial (c : Cfg) (d fuel : Nat) (hd : c.maxDepth = d) (hpos : 0 < d) (hmin : 0 ≤ c.minDepth)
    (hx : c.ext.xl ≤ c.ext.xh) (hy : c.ext.yl ≤ c.ext.yh) (hf : 2 * d + 2 ≤ fuel) (hf' : 6 ≤ fuel) :
    ∃ pts, getSepPtsBisect c fuel = .ok (.points pts) := by
  have he : Ordered c.ext := ⟨hx, hy⟩
  obtain ⟨e, h1⟩ := outer_ends { c with minDepth := 0, maxDepth := 2 } 2 fuel false rfl (by omega) (le_refl _) he (by omega)
  obtain ⟨u, h2⟩ := outer_ends { c with minDepth := 0, maxDepth := 2 } 2 fuel true rfl (by omega) (le_refl _) he (by omega)
  obtain ⟨pts, h3⟩ := outer_ends c d fuel (if u.length > e.length then true else false) hd hpos hmin he hf
  refine ⟨pts, ?_⟩
  simp only [getSepPtsBisect, h1, h2, bind, Except.bind, Out.count, h3]

/-- C98 fails for a negative `max_depth`: if every check succeeds the search never ends. -/
theorem C98_negative_depth_violated (c : Cfg) (hc : ∀ l, c.check l = true) (h : c.maxDepth < 0) (fuel : Nat)
    (hx : c.ext.xl ≤ c.ext.xh) (hy : c.ext.yl ≤ c.ext.yh) (hf : 6 ≤ fuel) :
    getSepPtsBisect c fuel = .error .recursionError := by
  have never : ∀ fuel base mask, bisect c fuel base mask = none := by
    intro fuel
    induction fuel with
    | zero => intro base mask; rfl
    | succ fuel ih =>
      intro base mask
      rw [bisect_succ c fuel base mask (by omega)]
      have : branch c fuel base mask 0 = none := by
        unfold branch
        rw [if_pos (hc _), ih]
      rw [this]
  have ho : ∀ u, outer c fuel u = .error .recursionError := by
    intro u
    unfold outer
    rw [if_neg (by omega), never]
  obtain ⟨e, h1⟩ := outer_ends { c with minDepth := 0, maxDepth := 2 } 2 fuel false rfl (by omega) (le_refl _) ⟨hx, hy⟩ hf
  obtain ⟨u, h2⟩ := outer_ends { c with minDepth := 0, maxDepth := 2 } 2 fuel true rfl (by omega) (le_refl _) ⟨hx, hy⟩ hf
  simp only [getSepPtsBisect, h1, h2, bind, Except.bind, Out.count, ho]

/-- A map of topologies with four regions that meet at `(x, y)` -/
def cross (x y : ℚ) (p : ℚ × ℚ) : Nat := if p.1 < x then (if p.2 < y then 1 else 2) else if p.2 < y then 4 else 8

/-- A concrete search: `C97_sound`, `C98_found` and `C98_ends_partial` apply to it. The separator is at (2/5, 3/5); the
point found is the middle of the square with sides of length 1/8 around it. -/
def exSep : Cfg := ⟨cross (2 / 5) (3 / 5), bitwiseOr, 8, 8, ⟨0, 1, 0, 1⟩, 1, 3⟩

example : getSepPtsBisect exSep 8 = .ok (.points [(7 / 16, 9 / 16)]) := by decide +kernel

example : exSep.maxDepth = ((1 + 2 : Nat) : Int) ∧ 0 ≤ exSep.minDepth ∧ exSep.ext.xl ≤ exSep.ext.xh := by decide +kernel

/-- Four regions that meet at (3/10, 3/10), of which three are small -/
def small (p : ℚ × ℚ) : Nat :=
  if 29 / 100 < p.1 ∧ p.1 < 31 / 100 ∧ 29 / 100 < p.2 ∧ p.2 < 31 / 100 then cross (3 / 10) (3 / 10) p else 8

/-- C98 fails in general: four topologies meet at (3/10, 3/10), in every neighbourhood of which all of them occur, but
nothing is found, as the walks around the rectangles do not meet the small regions. -/
theorem C98_missed_violated :
    (∀ ε : ℚ, 0 < ε → ∀ v, v = 1 ∨ v = 2 ∨ v = 4 ∨ v = 8 → ∃ p : ℚ × ℚ, |p.1 - 3 / 10| < ε ∧ |p.2 - 3 / 10| < ε ∧ small p = v) ∧
    getSepPtsBisect ⟨small, bitwiseOr, 20, 20, ⟨0, 1, 0, 1⟩, 3, 7⟩ 16 = .ok (.points []) := by
  refine ⟨?_, by decide +kernel⟩
  intro ε hε v hv
  obtain ⟨δ, h0, h1, h2⟩ : ∃ δ : ℚ, 0 < δ ∧ δ < ε ∧ δ < 1 / 100 := by
    refine ⟨min (ε / 2) (1 / 200), by positivity, ?_, ?_⟩
    · exact lt_of_le_of_lt (min_le_left _ _) (by linarith)
    · exact lt_of_le_of_lt (min_le_right _ _) (by norm_num)
  have inner : ∀ a b : ℚ, |a| ≤ δ → |b| ≤ δ → small (3 / 10 + a, 3 / 10 + b) = cross (3 / 10) (3 / 10) (3 / 10 + a, 3 / 10 + b) := by
    intro a b ha hb
    obtain ⟨a1, a2⟩ := abs_le.mp ha
    obtain ⟨b1, b2⟩ := abs_le.mp hb
    unfold small
    rw [if_pos ⟨by dsimp only; linarith, by dsimp only; linarith, by dsimp only; linarith, by dsimp only; linarith⟩]
  have pos : |δ| ≤ δ := by rw [abs_of_pos h0]
  have neg : |-δ| ≤ δ := by rw [abs_neg, abs_of_pos h0]
  have n1 : 3 / 10 + -δ < 3 / 10 := by linarith
  have n2 : ¬ 3 / 10 + δ < 3 / 10 := by linarith
  have e1 : |3 / 10 + δ - 3 / 10| < ε := by rw [add_sub_cancel_left, abs_of_pos h0]; exact h1
  have e2 : |3 / 10 + -δ - 3 / 10| < ε := by rw [add_sub_cancel_left, abs_neg, abs_of_pos h0]; exact h1
  rcases hv with rfl | rfl | rfl | rfl
  · exact ⟨(3 / 10 + -δ, 3 / 10 + -δ), e2, e2, by rw [inner _ _ neg neg]; simp [cross, h0]⟩
  · exact ⟨(3 / 10 + -δ, 3 / 10 + δ), e2, e1, by rw [inner _ _ neg pos]; simp [cross, h0, h0.le, not_lt]⟩
  · exact ⟨(3 / 10 + δ, 3 / 10 + -δ), e1, e2, by rw [inner _ _ pos neg]; simp [cross, h0, h0.le, not_lt]⟩
  · exact ⟨(3 / 10 + δ, 3 / 10 + δ), e1, e1, by rw [inner _ _ pos pos]; simp [cross, not_lt_of_gt h0]⟩

/-- The topologies as they are compared: masked, unless the mask is 0 -/
def masked (a : Grid) (maskLimit : Nat) (i j : Nat) : Nat := if maskLimit ≠ 0 then a.get i j &&& maskLimit else a.get i j

/-- C99: on a grid without periodic axes or point boundaries, the result is the clusters of the windows of `k + 1` by
`k + 1` points of which the topologies together make up `sep_val`, for the least `k ≥ 1`, `k ≥ min_depth` for which there is
such a window, or `k = max_depth` if there is none. The windows are located at their middle on evenly spaced
coordinates, and within their extent on all increasing ones. (What the clusters are is the matter of C35.) -/
theorem C99_windows (a : Grid) (x y : List ℚ) (minDepth maxDepth : Nat) (multiple : Bool) (sepVal maskLimit : Nat)
    (hmax : 0 < maxDepth) :
    ∃ k ind xk yk, 1 ≤ k ∧ k ≤ maxDepth ∧ (k = maxDepth ∨ (minDepth ≤ k ∧ ind ≠ [])) ∧
      (∀ k', 1 ≤ k' → k' < k → minDepth ≤ k' → ∀ i j, i + k' < a.n → j + k' < a.m → ¬ Union (masked a maskLimit) k' i j sepVal) ∧
      ind.Nodup ∧ (∀ i j, (i, j) ∈ ind ↔ i + k < a.n ∧ j + k < a.m ∧ Union (masked a maskLimit) k i j sepVal) ∧
      (∀ c ck, (c = x ∧ ck = xk) ∨ (c = y ∧ ck = yk) → ck.length = c.length - k ∧
        ((∃ c0 h, ∀ i, i < c.length → c.getD i 0 = c0 + i * h) →
          ∀ i, i + k < c.length → ck.getD i 0 = (c.getD i 0 + c.getD (i + k) 0) / 2) ∧
        ((∀ i j, i ≤ j → j < c.length → c.getD i 0 ≤ c.getD j 0) →
          ∀ i, i + k < c.length → c.getD i 0 ≤ ck.getD i 0 ∧ ck.getD i 0 ≤ c.getD (i + k) 0)) ∧
      bitorClusters a x y minDepth maxDepth multiple sepVal maskLimit (some (.off, .off)) false =
        (match findClusters ind xk yk multiple (.off, .off) true with
          | some pts => .ok pts
          | none => .error .other) := by
  have h0 : After (masked a maskLimit) a.n a.m x y 0
      ((if maskLimit ≠ 0 then { a with get := fun i j => a.get i j &&& maskLimit } else a), x, y) := by
    refine ⟨?_, ?_, ?_, rfl, rfl⟩
    · split <;> rfl
    · split <;> rfl
    · intro i j
      have := union_zero (masked a maskLimit) i j
      unfold masked at this ⊢
      split <;> simp_all
  obtain ⟨k, s, h1, h2, h3, h4, h5, h6⟩ := loop_off _ _ _ x y minDepth sepVal maxDepth 0 _ h0 hmax
  refine ⟨k, whereEq s.1 sepVal, mids^[k] x, mids^[k] y, h1, by omega, by simpa using h4,
    fun k' a1 a2 => h5 k' a1 a2, whereEq_nodup _ _, ?_, ?_, ?_⟩
  · intro i j
    rw [mem_whereEq, h3.rows, h3.cols]
    constructor
    · rintro ⟨e1, e2, e3⟩
      exact ⟨by omega, by omega, e3 ▸ h3.union i j⟩
    · rintro ⟨e1, e2, e3⟩
      exact ⟨by omega, by omega, union_unique (h3.union i j) e3⟩
  · intro c ck hc
    have : ck = mids^[k] c := by rcases hc with ⟨rfl, rfl⟩ | ⟨rfl, rfl⟩ <;> rfl
    subst this
    exact ⟨mids_iter_length k c, fun ⟨c0, h, hu⟩ => mids_iter_uniform k c c0 h hu, mids_iter_between k c⟩
  · unfold bitorClusters
    rw [if_neg (by omega)]
    simp only [h6, bind, Except.bind, h3.xs, h3.ys]
    cases findClusters (whereEq s.1 sepVal) (mids^[k] x) (mids^[k] y) multiple (.off, .off) true <;> rfl

/-- C99 is not void: topologies on 4 by 4 points with the corners of four regions in the middle. -/
def exTopo : Grid := ⟨4, 4, fun i j => if i < 2 then (if j < 2 then 1 else 2) else if j < 2 then 4 else 8⟩

example : bitorClusters exTopo [0, 1, 2, 3] [0, 2, 4, 6] 1 10 true 15 15 (some (.off, .off)) false =
    .ok [(some (3 / 2), some 3)] := by decide +kernel

/-- Four topologies in the corners of a square of 4 by 4 points -/
def exFar : Grid := ⟨6, 6, fun i j => if i = 0 then (if j = 0 then 1 else 2) else if i = 3 ∧ j = 0 then 4 else 8⟩

/-- C99 fails: "the resolution of each iteration is reduced by a factor of two, ie, worst case 2**(max_depth)". With a depth
of 2 the windows have 3 by 3 points, not 4 by 4: all topologies occur in the 4 by 4 points at the lower left corner, but
nothing is found. -/
theorem C99_resolution_violated :
    (∀ v, v = 1 ∨ v = 2 ∨ v = 4 ∨ v = 8 → ∃ i j, i < 2 ^ 2 ∧ j < 2 ^ 2 ∧ exFar.get i j = v) ∧
    bitorClusters exFar [0, 1, 2, 3, 4, 5] [0, 1, 2, 3, 4, 5] 1 2 true 15 15 (some (.off, .off)) false = .ok [] := by
  refine ⟨?_, by decide +kernel⟩
  rintro v (rfl | rfl | rfl | rfl)
  · exact ⟨0, 0, by decide, by decide, rfl⟩
  · exact ⟨0, 1, by decide, by decide, rfl⟩
  · exact ⟨3, 0, by decide, by decide, rfl⟩
  · exact ⟨1, 1, by decide, by decide, rfl⟩

/-- C99 fails for `max_depth=0`: an exception for every field. -/
theorem C99_max_depth_zero_violated (a : Grid) (x y : List ℚ) (minDepth : Nat) (multiple : Bool) (sepVal maskLimit : Nat)
    (per : Option (Per × Per)) (b : Bool) :
    bitorClusters a x y minDepth 0 multiple sepVal maskLimit per b = .error .nameError := rfl

/-- C100 fails: for a sphere that reaches a pole, and for one that does not go all around, whatever the topologies,
`get_sep_pts_bitor` raises an exception. -/
theorem C100_sphere_violated (pole0 pole1 spansPhi thetaPhi : Bool) (h : pole0 = true ∨ pole1 = true ∨ spansPhi = false)
    (a : Grid) (x y : List ℚ) (hn : a.n ≠ 0) (hm : a.m ≠ 0) :
    getSepPtsBitor (sphereInfo pole0 pole1 spansPhi thetaPhi) a x y =
      .error (if spansPhi then .typeError else .indexError) := by
  unfold getSepPtsBitor bitorClusters sphereInfo
  rw [if_neg (by simp)]
  cases spansPhi with
  | false => rfl
  | true =>
    have hb : (pole0 || pole1) = true := by rcases h with h | h | h <;> simp_all
    simp only [if_true, hb]
    rw [loop_ptBnds]
    · rfl
    · exact hn
    · exact hm

/-- C100, what holds: for seeds without point boundaries, such as planes, or bands around a sphere that do not reach the
poles, with at least 11 points in each direction the result is an array of points. -/
theorem C100_other_seeds_partial (s : SeedInfo) (hs : s.ptBnds = false) (hp : ∃ per, s.periodic = some per ∧ per.1 ≠ .plus ∧ per.2 ≠ .plus)
    (a : Grid) (x y : List ℚ) (hn : 10 < a.n) (hm : 10 < a.m) (hx : x.length = a.n) (hy : y.length = a.m) :
    ∃ pts, getSepPtsBitor s a x y = .ok pts := by
  obtain ⟨per, hper, p1, p2⟩ := hp
  unfold getSepPtsBitor bitorClusters
  rw [if_neg (by simp), hper, hs]
  simp only [ne_eq, OfNat.ofNat_ne_zero, not_false_eq_true, if_true]
  obtain ⟨s', h1, h2, h3, h4, h5⟩ := loop_sized 1 msSeparator per 10 0 ({ a with get := fun i j => a.get i j &&& 15 }, x, y) hn hm hx hy
  simp only [h1, bind, Except.bind]
  have axis : ∀ (c : List ℚ) (p : Per), 0 < c.length → p ≠ .plus → ∃ D, Cluster.domainAxis c p = some D := by
    intro c p hc hp
    have hne : c ≠ [] := by rintro rfl; simp at hc
    unfold Cluster.domainAxis
    rw [List.getLast?_eq_some_getLast hne, List.head?_eq_some_head hne]
    cases p with
    | off => exact ⟨_, rfl⟩
    | on => exact ⟨_, rfl⟩
    | plus => exact absurd rfl hp
  obtain ⟨D1, hD1⟩ := axis s'.2.1 per.1 (by omega) p1
  obtain ⟨D2, hD2⟩ := axis s'.2.2 per.2 (by omega) p2
  have : ∃ D, Cluster.domain s'.2.1 s'.2.2 per true = some D := by
    unfold Cluster.domain
    rw [hD1, hD2]
    exact ⟨_, rfl⟩
  obtain ⟨D, hD⟩ := this
  unfold findClusters
  rw [hD]
  simp only [if_true]
  rw [if_pos]
  · exact ⟨_, rfl⟩
  · rintro ⟨i, j⟩ hp
    have := (mem_whereEq _ _ _ _).mp hp
    exact ⟨by rw [h4]; exact this.1, by rw [h5]; exact this.2.1⟩

example : plainInfo.ptBnds = false ∧ ∃ per, plainInfo.periodic = some per ∧ per.1 ≠ .plus ∧ per.2 ≠ .plus :=
  ⟨rfl, _, rfl, by decide, by decide⟩

example : (sphereInfo false false true true).ptBnds = false ∧
    ∃ per, (sphereInfo false false true true).periodic = some per ∧ per.1 ≠ .plus ∧ per.2 ≠ .plus :=
  ⟨rfl, _, rfl, by decide, by decide⟩

/-- C101: the lines of `trace_separator`. They start at the null with the least y, at a separator point around it, or at a
point of another line, where the search ahead gave more than one point. Every further point is the first one found
ahead of the line. A line ends where nothing is found ahead or where the next point is close to another null. -/
theorem C101_lines_partial (t : Tracer) (fuel : Nat) (nulls : List Pt) (seps : List (List Pt))
    (h : trace t fuel nulls = some (.ok seps)) :
    ∃ p0 ∈ nulls, (∀ n ∈ nulls, p0.2.1 ≤ n.2.1) ∧ ∀ l ∈ seps,
      Follows (fun a b => (t.ahead a b).head?) l ∧
      (∃ a b, [a, b] <+: l ∧ ((a = p0 ∧ b ∈ t.around p0) ∨ ∃ l' ∈ seps, ∃ u, [u, a] <:+: l' ∧ b ∈ (t.ahead u a).tail)) ∧
      (∃ u v, [u, v] <:+ l ∧ (t.ahead u v = [] ∨ ∃ p, (t.ahead u v).head? = some p ∧ ∃ n ∈ nulls, t.close n p = true)) := by
  cases nulls with
  | nil => simp [trace] at h
  | cons p ps =>
    unfold trace at h
    simp only at h
    have hlt := argmin_lt ((p :: ps).map fun n => n.2.1) (by simp)
    rw [List.length_map] at hlt
    generalize hk : argmin ((p :: ps).map fun n => n.2.1) = k at h hlt
    have hp0 : (p :: ps).getD k p ∈ p :: ps := by rw [List.getD_eq_getElem _ _ hlt]; exact List.getElem_mem hlt
    refine ⟨(p :: ps).getD k p, hp0, ?_, ?_⟩
    · intro n hn
      have := argmin_le ((p :: ps).map fun n => n.2.1) n.2.1 (List.mem_map.mpr ⟨n, hn, rfl⟩)
      rw [hk, List.getD_eq_getElem _ _ (by rwa [List.length_map]), List.getElem_map] at this
      rw [List.getD_eq_getElem _ _ hlt]
      exact this
    · split at h
      · rename_i lines hd
        obtain rfl : lines.map List.reverse = seps := by simpa using h
        have hok := drain_ok t _ ((p :: ps).getD k p) fuel _ [] lines (by
          intro s hs
          obtain ⟨q, hq, rfl⟩ := List.mem_map.mp hs
          exact .inl ⟨q, hq, rfl⟩) (by simp) hd
        intro l hl
        obtain ⟨r, hr, rfl⟩ := List.mem_map.mp hl
        obtain ⟨h1, h2, s, hs, ho⟩ := hok r hr
        refine ⟨h1, ?_, ?_⟩
        · have rev : ∀ {a b : Pt}, [b, a] <:+ r → [a, b] <+: r.reverse := by
            intro a b hab
            have := List.reverse_prefix.mpr hab
            simpa using this
          rcases ho with ⟨q, hq, rfl⟩ | ⟨l', hl', u, v, q, rfl, hi, hq⟩
          · exact ⟨_, q, rev hs, .inl ⟨rfl, hq⟩⟩
          · refine ⟨v, q, rev hs, .inr ⟨l'.reverse, List.mem_map.mpr ⟨l', hl', rfl⟩, u, ?_, hq⟩⟩
            have := List.reverse_infix.mpr hi
            simpa using this
        · match r, h2 with
          | v :: u :: rest, h2 =>
            refine ⟨u, v, ⟨rest.reverse, by simp⟩, ?_⟩
            rcases h2 with h2 | ⟨p', h3, n, hn, hc⟩
            · exact .inl h2
            · exact .inr ⟨p', h3, n, List.mem_of_mem_eraseIdx hn, hc⟩
      · rename_i r hr
        exact absurd h (hr seps)

/-- A tracer that finds the next separator point one step ahead in y, with two points around the null at the origin -/
def exTracer : Tracer where
  around _ := [(0, 1, 0), (0, 0, 1)]
  ahead a b := if b.2.1 < 3 then (if a = (0, 1, 0) then [(0, b.2.1 + 1, 0), (5, 3, 5)] else [(0, b.2.1 + 1, 0)]) else []
  close a b := a = b

example : trace exTracer 10 [(0, 5, 0), (0, 0, 0)] = some (.ok
    [[(0, 0, 0), (0, 1, 0), (0, 2, 0), (0, 3, 0)], [(0, 2, 0), (5, 3, 5)], [(0, 0, 0), (0, 0, 1), (0, 1, 0), (0, 2, 0), (0, 3, 0)],
     [(0, 2, 0), (5, 3, 5)]]) := by decide +kernel

/-- C101 fails if there is only one null: as soon as something is found ahead of a line, the distance to the other nulls is
a minimum over nothing, which is an exception. -/
theorem C101_one_null_violated (t : Tracer) (fuel : Nat) (p q : Pt) (qs : List Pt) (ha : t.around p = q :: qs)
    (hb : t.ahead p q ≠ []) : trace t (fuel + 1) [p] = some (.error .other) := by
  simp only [trace, argmin, List.map_cons, List.map_nil, List.getD_cons_zero, List.eraseIdx_zero, List.tail_cons, ha]
  rw [drain]
  have : follow t [] (fuel + 1) [q, p] (qs.map fun q => [q, p]) = some (.error .other) := by
    rw [follow]
    split
    · rename_i h; exact absurd h hb
    · rfl
  rw [this]

/-- C101 fails: `trace_separator` need not end, as nothing bounds the length of a line: here each point found is one step
ahead, away from all nulls. -/
theorem C101_ends_violated : ∃ (t : Tracer) (nulls : List Pt), (∀ a b, t.ahead a b ≠ [] → (t.ahead a b).length = 1) ∧
    ∀ fuel, trace t fuel nulls = none := by
  refine ⟨⟨fun _ => [(0, 0, 1)], fun _ b => [(b.1, b.2.1, b.2.2 + 1)], fun _ _ => false⟩, [(0, 0, 0), (0, 1, 0)], by simp, ?_⟩
  intro fuel
  have hf : ∀ fuel sep stubs, 2 ≤ sep.length →
      follow ⟨fun _ => [(0, 0, 1)], fun _ b => [(b.1, b.2.1, b.2.2 + 1)], fun _ _ => false⟩ [(0, 1, 0)] fuel sep stubs = none := by
    intro fuel
    induction fuel with
    | zero => intro sep stubs _; rfl
    | succ fuel ih =>
      intro sep stubs h
      match sep, h with
      | last :: prev :: rest, _ =>
        rw [follow]
        simp only [reduceCtorEq, if_false, List.any_cons, List.any_nil, Bool.or_false, Bool.false_eq_true]
        exact ih _ _ (by simp)
  have hk : argmin [0, 1] = 0 := by decide +kernel
  unfold trace
  simp only [List.map_cons, List.map_nil, hk, List.getD_cons_zero, List.eraseIdx_zero, List.tail_cons]
  cases fuel with
  | zero => rfl
  | succ fuel =>
    rw [drain, hf _ _ _ (by simp)]

/-- A history of calls: what each returned, and the files at the end -/
def calls {A N R : Type} [DecidableEq N] (name : A → N) (compute : A → R) : List (N × R) → List (Cache × A) → List R
  | _, [] => []
  | files, (c, a) :: rest => (cached name compute files c a).1 :: calls name compute (cached name compute files c a).2 rest

/-- C102, what holds: if calls that share a cache file agree on the result to compute, then every call of every history
returns what it would compute. -/
theorem C102_history_partial (compute : Args → R) (h : List (Cache × Args))
    (hn : ∀ x ∈ h, ∀ y ∈ h, fileName x.2 = fileName y.2 → compute x.2 = compute y.2) :
    calls fileName compute [] h = h.map fun x => compute x.2 := by
  suffices gen : ∀ files : List ((String × String × Int) × R), (∀ x ∈ h, ∀ r, (files.find? fun p => p.1 = fileName x.2).map (·.2) = some r → r = compute x.2) →
      calls fileName compute files h = h.map fun x => compute x.2 from gen [] (by simp)
  induction h with
  | nil => intro files _; rfl
  | cons x h ih =>
    obtain ⟨c, a⟩ := x
    intro files hf
    have hres : (cached fileName compute files c a).1 = compute a := by
      unfold cached
      split
      · rename_i r hr
        split at hr
        · cases hr
        · exact hf (c, a) (by simp) r hr
      · rfl
    have hfiles : ∀ x ∈ h, ∀ r,
        ((cached fileName compute files c a).2.find? fun p => p.1 = fileName x.2).map (·.2) = some r → r = compute x.2 := by
      intro x hx r hr
      unfold cached at hr
      split at hr
      · exact hf x (by simp [hx]) r hr
      · dsimp only at hr
        split at hr
        · exact hf x (by simp [hx]) r hr
        · rw [List.find?_cons] at hr
          split at hr
          · rename_i he
            rw [← Option.some.inj hr]
            exact hn (c, a) (by simp) x (by simp [hx]) (by simpa using he)
          · exact hf x (by simp [hx]) r hr
    rw [calls, hres, ih (fun x hx y hy => hn x (by simp [hx]) y (by simp [hy])) _ hfiles]
    rfl

example : ∃ h : List (Cache × Args), 2 ≤ h.length ∧
    ∀ x ∈ h, ∀ y ∈ h, fileName x.2 = fileName y.2 → (fun a : Args => (a.time, a.r)) x.2 = (fun a : Args => (a.time, a.r)) y.2 :=
  ⟨[(.yes, ⟨".", "run", 1, "", 1⟩), (.force, ⟨".", "run", 2, "", 1⟩), (.no, ⟨".", "run", 1, "", 1⟩)], by decide, by decide +kernel⟩

/-- C102 fails: the file is found again with another step size, slice, or trace option, also if the caller turned the cache off. -/
theorem C102_arguments_violated (compute : Args → R) (a : Args) (r : ℚ) (slc : String) (c : Cache) (hc : c ≠ .force) :
    calls fileName compute [] [(.yes, a), (c, { a with r := r, slc := slc })] = [compute a, compute a] := by
  cases c with
  | force => exact absurd rfl hc
  | yes => simp [calls, cached, fileName]
  | no => simp [calls, cached, fileName]

/-- C102 fails: two times that round to the same integer share a file. -/
theorem C102_time_violated (compute : Args → R) :
    calls fileName compute [] [(.yes, ⟨".", "run", 6 / 5, "", 1⟩), (.yes, ⟨".", "run", 7 / 5, "", 1⟩)] =
      [compute ⟨".", "run", 6 / 5, "", 1⟩, compute ⟨".", "run", 6 / 5, "", 1⟩] := by
  have h : fileName ⟨".", "run", 7 / 5, "", 1⟩ = fileName ⟨".", "run", 6 / 5, "", 1⟩ := by decide +kernel
  simp [calls, cached, h]

end Viscid.Props
