import Verif.Lemmas.Streamline
import Mathlib.Tactic.NormNum
/-!
# C23, C24, C27, C28, C29, C57: streamlines
-/
namespace Viscid.Streamline
open Viscid.Spec.Streamline
set_option linter.unusedSectionVars false
variable {K σ : Type} [Field K] [LinearOrder K] [IsStrictOrderedRing K]

theorem dir_bits {d : Nat} (h : d ∈ [1, 2, 3]) : (d &&& 2 ≠ 0 ↔ d = 2 ∨ d = 3) ∧ (d &&& 1 ≠ 0 ↔ d = 1 ∨ d = 3) := by
  simp only [List.mem_cons, List.not_mem_nil, or_false] at h
  rcases h with rfl | rfl | rfl <;> decide

/-! ## Concrete runs used as witnesses -/

/-- Unit speed along x: what every integrator does on the constant field (1, 0, 0) (see C26). -/
def unitX : Integ Unit ℚ := fun _ p ds dt => ⟨0, ⟨p.x + ds, p.y, p.z⟩, ds, dt + ds, ()⟩

/-- A box [-3, 3]³ with an inner boundary of radius 1, at most 10 steps of 1/2 each way. -/
def exCfg : Cfg ℚ := ⟨10, 1/2, 1, ⟨-3, -3, -3⟩, ⟨3, 3, 3⟩, 0, 100, 0, 3, true⟩

/-- The x coordinates of the lines and the end flags. -/
def summary (r : Except Err (Glob Unit ℚ × List (Line ℚ))) : Option (List (List (Option ℚ) × Nat)) :=
  match r with
  | .ok (_, ls) => some (ls.map fun l => (l.pts.map fun p => p.map (·.x), l.flags))
  | .error _ => none

/-! ## C23 -/

/-- C23: for every integrator behaviour, direction and limit, every write is inside the buffer, and the
line of each seed is the backward points reversed, the seed, the forward points, each direction having
at most maxit points that follow the integrator. -/
theorem C23_line (c : Cfg K) (integ : Integ σ K) (junk : K) (st : σ) (seeds : List (P3 K))
    (hdir : c.streamDir ∈ [1, 2, 3]) :
    ∃ g ls, pyStreamline c integ junk st seeds = .ok (g, ls) ∧ ls.length = seeds.length ∧
      ∀ (i : Nat) (x0 : P3 K), seeds[i]? = some x0 → ∃ (back fwd : List (P3 K)) (f0 f1 : Nat),
        ls[i]? = some ⟨if c.lines then (back.reverse ++ [x0] ++ fwd).map some else [], f0 ||| f1⟩ ∧
        (if c.streamDir = 2 ∨ c.streamDir = 3 then Direction c integ x0 (-c.ds0) back f0 else back = [] ∧ f0 = 0) ∧
        (if c.streamDir = 1 ∨ c.streamDir = 3 then Direction c integ x0 c.ds0 fwd f1 else fwd = [] ∧ f1 = 0) := by
  obtain ⟨b2, b1⟩ := dir_bits hdir
  obtain ⟨g, ls, h1, h2, _, h4⟩ := runLines_spec c integ c.maxit le_rfl seeds
    ⟨if c.lines then List.replicate (2 * c.maxit + 1) none else [], junk, st, 0⟩
    ⟨by intro h; simp [h], by intro h; simp [h]⟩
  refine ⟨g, ls, h1, h2, fun i x0 hi => ?_⟩
  obtain ⟨st', absDt, h⟩ := h4 i x0 hi
  dsimp only at h
  obtain ⟨b, hb'⟩ : ∃ b, b = part c integ (c.streamDir &&& 2 ≠ 0) (-1) x0 absDt st' := ⟨_, rfl⟩
  rw [← hb'] at h
  obtain ⟨f, hf'⟩ : ∃ f, f = part c integ (c.streamDir &&& 1 ≠ 0) 1 x0 b.a.absDt b.a.st := ⟨_, rfl⟩
  rw [← hf'] at h
  refine ⟨b.pts, f.pts, b.flag, f.flag, ?_, ?_, ?_⟩
  · rw [h, List.append_assoc, List.singleton_append]
  · by_cases hd : c.streamDir &&& 2 ≠ 0
    · rw [if_pos (b2.mp hd)]
      have := part_direction c integ (c.streamDir &&& 2 ≠ 0) (-1) x0 absDt st' hd
      rw [← hb'] at this
      simpa using this
    · rw [if_neg (fun hh => hd (b2.mpr hh)), hb']
      unfold part
      simp only [hd, if_false]
      exact ⟨trivial, trivial⟩
  · by_cases hd : c.streamDir &&& 1 ≠ 0
    · rw [if_pos (b1.mp hd)]
      have := part_direction c integ (c.streamDir &&& 1 ≠ 0) 1 x0 b.a.absDt b.a.st hd
      rw [← hf'] at this
      simpa using this
    · rw [if_neg (fun hh => hd (b1.mpr hh)), hf']
      unfold part
      simp only [hd, if_false]
      exact ⟨trivial, trivial⟩

/-- C23 (size): a returned line has between 1 and 2 * maxit + 1 vertices, all of them written. -/
theorem C23_size (c : Cfg K) (integ : Integ σ K) (junk : K) (st : σ) (seeds : List (P3 K))
    (hdir : c.streamDir ∈ [1, 2, 3]) (hl : c.lines = true) :
    ∃ g ls, pyStreamline c integ junk st seeds = .ok (g, ls) ∧ ls.length = seeds.length ∧
      ∀ l ∈ ls, 1 ≤ l.pts.length ∧ l.pts.length ≤ 2 * c.maxit + 1 ∧ ∀ v ∈ l.pts, v.isSome := by
  obtain ⟨g, ls, h1, h2, h3⟩ := C23_line c integ junk st seeds hdir
  refine ⟨g, ls, h1, h2, fun l hl' => ?_⟩
  obtain ⟨i, hi, rfl⟩ := List.getElem_of_mem hl'
  obtain ⟨back, fwd, f0, f1, e, d0, d1⟩ := h3 i seeds[i] (List.getElem?_eq_getElem (by omega))
  rw [List.getElem?_eq_getElem hi, Option.some.injEq, if_pos hl] at e
  rw [e]
  have hb : back.length ≤ c.maxit := by
    split at d0
    · exact d0.short
    · simp [d0.1]
  have hf : fwd.length ≤ c.maxit := by
    split at d1
    · exact d1.short
    · simp [d1.1]
  refine ⟨by simp; omega, ?_, ?_⟩
  · simp only [List.length_map, List.length_append, List.length_singleton, List.length_reverse]
    omega
  · intro v hv
    simp only [List.mem_map] at hv
    obtain ⟨_, _, rfl⟩ := hv
    rfl

/-- Two seeds sharing the buffer, both directions: the second line does not contain stale points. -/
example : summary (pyStreamline exCfg unitX 7 () [⟨2, 0, 0⟩, ⟨-5/2, 0, 2⟩]) =
    some [([some (1/2), some 1, some (3/2), some 2, some (5/2), some 3, some (7/2)], 3 ||| 40),
          ([some (-7/2), some (-3), some (-5/2), some (-2), some (-3/2), some (-1), some (-1/2), some 0, some (1/2),
            some 1, some (3/2), some 2, some (5/2)], 24 ||| 12288)] := by
  decide +kernel

/-! ## C24 -/

/-- C24 (steps): the loop of each direction ends by itself after at most maxit integrator calls; nrSegs
counts all calls of all lines. -/
theorem C24_bounded_steps (c : Cfg K) (integ : Integ σ K) (junk : K) (st : σ) (seeds : List (P3 K)) :
    ∃ g ls, pyStreamline c integ junk st seeds = .ok (g, ls) ∧ g.nrSegs ≤ 2 * c.maxit * seeds.length := by
  obtain ⟨g, ls, h1, _, h3, _⟩ := runLines_spec c integ c.maxit le_rfl seeds
    ⟨if c.lines then List.replicate (2 * c.maxit + 1) none else [], junk, st, 0⟩
    ⟨by intro h; simp [h], by intro h; simp [h]⟩
  exact ⟨g, ls, h1, by simpa using h3⟩

example : (match pyStreamline exCfg unitX 7 () [⟨2, 0, 0⟩, ⟨-5/2, 0, 2⟩] with
    | .ok (g, _) => g.nrSegs | .error _ => 0) = 18 := by decide +kernel

/-! ## C28 -/

/-- C28: the code is 0 exactly when the point is inside all bounds and no limit is reached; any other
code states a true reason, and no reason of higher priority applies. -/
theorem C28_classify (c : Cfg K) (p : P3 K) (len t : K) :
    (classify c p len t = 0 ↔
      Inside c p ∧ ¬ (0 < c.maxLength ∧ c.maxLength ≤ len) ∧ ¬ (0 < c.maxT ∧ c.maxT ≤ t)) ∧
    (classify c p len t ≠ 0 → classify c p len t ∈ priority ∧ Reason c p len t (classify c p len t) ∧
      ∀ k ∈ priority.takeWhile (fun k => k != classify c p len t), ¬ Reason c p len t k) := by
  have hrs : p.x ^ 2 + p.y ^ 2 + p.z ^ 2 = r2 p := by unfold r2; ring
  refine ⟨⟨fun h => ?_, fun h => ?_⟩, fun h => ?_⟩
  · rcases classify_spec c p len t with h' | h'
    · exact h'.2
    · exact absurd h h'.1
  · rcases classify_spec c p len t with h' | h'
    · exact h'.1
    · exfalso
      obtain ⟨⟨i1, i2, i3, i4, i5⟩, hl, ht⟩ := h
      rcases h'.2 with r | r | r | r | r | r | r | r | r | r | r
      · exact absurd r.2.1 (not_lt.mpr i1)
      · exact absurd r.2.1 (not_lt.mpr i1)
      · rcases i2 with i2 | i2
        · exact r.2.1 i2
        · exact absurd r.2.2 (not_lt.mpr i2)
      · exact absurd r.2 (not_lt.mpr i3.1)
      · exact absurd r.2 (not_lt.mpr i4.1)
      · exact absurd r.2 (not_lt.mpr i5.1)
      · exact absurd r.2 (not_lt.mpr i3.2)
      · exact absurd r.2 (not_lt.mpr i4.2)
      · exact absurd r.2 (not_lt.mpr i5.2)
      · exact hl r.2
      · exact ht r.2
  · have hre := (classify_spec c p len t).resolve_left (fun hh => h hh.1)
    refine ⟨?_, hre.2, ?_⟩
    · rcases hre.2 with r | r | r | r | r | r | r | r | r | r | r <;> rw [r.1] <;> decide
    · clear hre h
      unfold classify
      simp only [hrs]
      simp only [pow_two]
      have t3 : priority.takeWhile (fun k => k != END_IBOUND_NORTH) = [] := by decide
      have t5 : priority.takeWhile (fun k => k != END_IBOUND_SOUTH) = [3] := by decide
      have tr : priority.takeWhile (fun k => k != END_OBOUND_R) = [3, 5] := by decide
      have txl : priority.takeWhile (fun k => k != END_OBOUND_XL) = [3, 5, 1032] := by decide
      have tyl : priority.takeWhile (fun k => k != END_OBOUND_YL) = [3, 5, 1032, 24] := by decide
      have tzl : priority.takeWhile (fun k => k != END_OBOUND_ZL) = [3, 5, 1032, 24, 72] := by decide
      have txh : priority.takeWhile (fun k => k != END_OBOUND_XH) = [3, 5, 1032, 24, 72, 264] := by decide
      have tyh : priority.takeWhile (fun k => k != END_OBOUND_YH) = [3, 5, 1032, 24, 72, 264, 40] := by decide
      have tzh : priority.takeWhile (fun k => k != END_OBOUND_ZH) = [3, 5, 1032, 24, 72, 264, 40, 136] := by decide
      have tl : priority.takeWhile (fun k => k != END_MAX_LENGTH) = [3, 5, 1032, 24, 72, 264, 40, 136, 520] := by decide
      have tt : priority.takeWhile (fun k => k != END_MAX_T) = [3, 5, 1032, 24, 72, 264, 40, 136, 520, 20480] := by decide
      have t0 : priority.takeWhile (fun k => k != END_NONE) = priority := by decide
      have R3 : Reason c p len t 3 ↔ r2 p < c.ibound * c.ibound ∧ 0 ≤ p.z := by simp [Reason]
      have R5 : Reason c p len t 5 ↔ r2 p < c.ibound * c.ibound ∧ p.z < 0 := by simp [Reason]
      have R1032 : Reason c p len t 1032 ↔ c.oboundR ≠ 0 ∧ c.oboundR * c.oboundR < r2 p := by simp [Reason]
      have R24 : Reason c p len t 24 ↔ p.x < c.lo.x := by simp [Reason]
      have R72 : Reason c p len t 72 ↔ p.y < c.lo.y := by simp [Reason]
      have R264 : Reason c p len t 264 ↔ p.z < c.lo.z := by simp [Reason]
      have R40 : Reason c p len t 40 ↔ c.hi.x < p.x := by simp [Reason]
      have R136 : Reason c p len t 136 ↔ c.hi.y < p.y := by simp [Reason]
      have R520 : Reason c p len t 520 ↔ c.hi.z < p.z := by simp [Reason]
      have Rl : Reason c p len t 20480 ↔ 0 < c.maxLength ∧ c.maxLength ≤ len := by simp [Reason]
      have Rt : Reason c p len t 36864 ↔ 0 < c.maxT ∧ c.maxT ≤ t := by simp [Reason]
      by_cases h0 : r2 p < c.ibound * c.ibound
      · rw [if_pos h0]
        by_cases hz : p.z ≥ 0
        · rw [if_pos hz, t3]; simp
        · rw [if_neg hz, t5]; simp only [List.forall_mem_cons]; exact ⟨fun r => hz (R3.mp r).2, by simp⟩
      rw [if_neg h0]
      have n3 : ¬ Reason c p len t 3 := fun r => h0 (R3.mp r).1
      have n5 : ¬ Reason c p len t 5 := fun r => h0 (R5.mp r).1
      by_cases h1 : c.oboundR ≠ 0 ∧ r2 p > c.oboundR * c.oboundR
      · rw [if_pos h1]; rw [tr]; simp only [List.forall_mem_cons]; exact ⟨n3, n5, by simp⟩
      rw [if_neg h1]
      have n1032 : ¬ Reason c p len t 1032 := fun r => h1 (R1032.mp r)
      by_cases h2 : p.x < c.lo.x
      · rw [if_pos h2]; rw [txl]; simp only [List.forall_mem_cons]; exact ⟨n3, n5, n1032, by simp⟩
      rw [if_neg h2]
      have n24 : ¬ Reason c p len t 24 := fun r => h2 (R24.mp r)
      by_cases h3 : p.y < c.lo.y
      · rw [if_pos h3]; rw [tyl]; simp only [List.forall_mem_cons]; exact ⟨n3, n5, n1032, n24, by simp⟩
      rw [if_neg h3]
      have n72 : ¬ Reason c p len t 72 := fun r => h3 (R72.mp r)
      by_cases h4 : p.z < c.lo.z
      · rw [if_pos h4]; rw [tzl]; simp only [List.forall_mem_cons]; exact ⟨n3, n5, n1032, n24, n72, by simp⟩
      rw [if_neg h4]
      have n264 : ¬ Reason c p len t 264 := fun r => h4 (R264.mp r)
      by_cases h5 : p.x > c.hi.x
      · rw [if_pos h5]; rw [txh]; simp only [List.forall_mem_cons]; exact ⟨n3, n5, n1032, n24, n72, n264, by simp⟩
      rw [if_neg h5]
      have n40 : ¬ Reason c p len t 40 := fun r => h5 (R40.mp r)
      by_cases h6 : p.y > c.hi.y
      · rw [if_pos h6]; rw [tyh]; simp only [List.forall_mem_cons]; exact ⟨n3, n5, n1032, n24, n72, n264, n40, by simp⟩
      rw [if_neg h6]
      have n136 : ¬ Reason c p len t 136 := fun r => h6 (R136.mp r)
      by_cases h7 : p.z > c.hi.z
      · rw [if_pos h7]; rw [tzh]; simp only [List.forall_mem_cons]; exact ⟨n3, n5, n1032, n24, n72, n264, n40, n136, by simp⟩
      rw [if_neg h7]
      have n520 : ¬ Reason c p len t 520 := fun r => h7 (R520.mp r)
      by_cases h8 : c.maxLength > 0 ∧ len ≥ c.maxLength
      · rw [if_pos h8]; rw [tl]; simp only [List.forall_mem_cons]; exact ⟨n3, n5, n1032, n24, n72, n264, n40, n136, n520, by simp⟩
      rw [if_neg h8]
      have nl : ¬ Reason c p len t 20480 := fun r => h8 (Rl.mp r)
      by_cases h9 : c.maxT > 0 ∧ t ≥ c.maxT
      · rw [if_pos h9]; rw [tt]; simp only [List.forall_mem_cons]; exact ⟨n3, n5, n1032, n24, n72, n264, n40, n136, n520, nl, by simp⟩
      rw [if_neg h9]
      have nt : ¬ Reason c p len t 36864 := fun r => h9 (Rt.mp r)
      rw [t0, priority]; simp only [List.forall_mem_cons]; exact ⟨n3, n5, n1032, n24, n72, n264, n40, n136, n520, nl, nt, by simp⟩

/-- Points for which several reasons apply at once. -/
example : classify exCfg ⟨1/2, 0, -1/4⟩ 200 0 = 5 ∧ Reason exCfg ⟨1/2, 0, -1/4⟩ 200 0 20480 ∧
    classify exCfg ⟨4, -5, 0⟩ 0 0 = 72 ∧ Reason exCfg ⟨4, -5, 0⟩ 0 0 40 ∧ classify exCfg ⟨3, 0, 0⟩ 99 5 = 0 := by
  refine ⟨by decide +kernel, ?_, by decide +kernel, ?_, by decide +kernel⟩ <;> norm_num [Reason, exCfg]

/-! ## C29 -/

/-- Every code a traced direction can end with. -/
def endCodes : List Nat := priority ++ [12288, 69632]

theorem direction_code {c : Cfg K} {integ : Integ σ K} {x0 : P3 K} {ds : K} {pts : List (P3 K)} {f : Nat}
    (h : Direction c integ x0 ds pts f) : f ∈ endCodes := by
  rcases h.reason with ⟨rfl, _⟩ | ⟨rfl, _⟩ | ⟨p, len, t, _, hre⟩
  · decide
  · decide
  · rcases hre with r | r | r | r | r | r | r | r | r | r | r <;> rw [r.1] <;> decide

/-- C29 (both directions traced): the topology of a line is determined by where its two ends went, and
lines with an end that reached no boundary keep their flags, which no topology code can equal. -/
theorem C29_topology_partial (c : Cfg K) (integ : Integ σ K) (junk : K) (st : σ) (seeds : List (P3 K)) (hdir : c.streamDir = 3) :
    ∃ g ls, pyStreamline c integ junk st seeds = .ok (g, ls) ∧ ls.length = seeds.length ∧
      ∀ (i : Nat) (x0 : P3 K), seeds[i]? = some x0 → ∃ (back fwd : List (P3 K)) (f0 f1 : Nat) (l : Line K),
        ls[i]? = some l ∧ Direction c integ x0 (-c.ds0) back f0 ∧ Direction c integ x0 c.ds0 fwd f1 ∧
        topologyMsphere l.flags = (topology (kind f0) (kind f1)).getD l.flags ∧
        (topology (kind f0) (kind f1) = none → 4096 ≤ l.flags) := by
  obtain ⟨g, ls, h1, h2, h3⟩ := C23_line c integ junk st seeds (by rw [hdir]; decide)
  refine ⟨g, ls, h1, h2, fun i x0 hi => ?_⟩
  obtain ⟨back, fwd, f0, f1, e, d0, d1⟩ := h3 i x0 hi
  rw [if_pos (Or.inr hdir)] at d0 d1
  refine ⟨back, fwd, f0, f1, _, e, d0, d1, ?_⟩
  have table : ∀ a ∈ endCodes, ∀ b ∈ endCodes,
      topologyMsphere (a ||| b) = (topology (kind a) (kind b)).getD (a ||| b) ∧
      (topology (kind a) (kind b) = none → 4096 ≤ a ||| b) := by decide +kernel
  exact table f0 (direction_code d0) f1 (direction_code d1)

/-- All four classes occur. -/
example : topology (kind 3) (kind 5) = some 1 ∧ topology (kind 3) (kind 24) = some 2 ∧
    topology (kind 520) (kind 5) = some 4 ∧ topology (kind 24) (kind 1032) = some 8 ∧
    topology (kind 3) (kind 12288) = none ∧
    (pyStreamline exCfg unitX 0 () [⟨2, 0, 0⟩]).map (fun r => r.2.map fun l => topologyMsphere l.flags) = .ok [2] := by
  decide +kernel

/-- C29 fails when only one direction is traced: a line that was followed from its seed to the inner
boundary, with the other end unknown, is reported as closed. -/
theorem C29_one_direction_violated :
    (pyStreamline { exCfg with streamDir := 2 } unitX 0 () [⟨2, 0, 0⟩]).map (fun r => r.2.map fun l => topologyMsphere l.flags)
      = .ok [1] ∧
    (pyStreamline exCfg unitX 0 () [⟨2, 0, 0⟩]).map (fun r => r.2.map fun l => topologyMsphere l.flags) = .ok [2] := by
  decide +kernel

/-- C29 (colours): the four classes have four different colours, none of them the default colour of
invalid values, and every other value gets the colour for invalid values. -/
theorem C29_colors (bad : Option Rgb) (topo : List Nat) (i t : Nat) (hi : topo[i]? = some t) :
    (topology2color none bad topo).length = topo.length ∧
    (topology2color none bad topo)[i]? = some
      (if t = 1 then (0, 8, 0) else if t = 2 then (0, 0, 7) else if t = 4 then (7, 0, 0) else if t = 8 then (7, 7, 7)
       else bad.getD (0, 0, 0)) := by
  unfold topology2color
  refine ⟨by simp, ?_⟩
  rw [List.getElem?_map, hi]
  simp only [Option.map_some, Option.some.injEq, Option.getD_none, colorMapMsphere, TOPOLOGY_MS_CLOSED,
    TOPOLOGY_MS_OPEN_NORTH, TOPOLOGY_MS_OPEN_SOUTH, TOPOLOGY_MS_SW, List.lookup_cons, List.lookup_nil]
  by_cases h1 : t = 1
  · subst h1; rfl
  by_cases h2 : t = 2
  · subst h2; rfl
  by_cases h4 : t = 4
  · subst h4; rfl
  by_cases h8 : t = 8
  · subst h8; rfl
  have e1 : (t == 1) = false := by simpa using h1
  have e2 : (t == 2) = false := by simpa using h2
  have e4 : (t == 4) = false := by simpa using h4
  have e8 : (t == 8) = false := by simpa using h8
  simp [e1, e2, e4, e8, h1, h2, h4, h8]

example : topology2color none none [1, 2, 4, 8, 12291] = [(0, 8, 0), (0, 0, 7), (7, 0, 0), (7, 7, 7), (0, 0, 0)] := by decide

/-! ## C27 -/

/-- C27 (length, fixed-step integrators, no time limit): each direction makes whole steps of length |ds0|
while they fit into max_length and cuts the last one to the remaining length; it ends because of
max_length exactly when the length is used up. -/
theorem C27_max_length_partial (c : Cfg K) (integ : Integ σ K) (junk : K) (st : σ) (seeds : List (P3 K))
    (hfix : ∀ st p ds dt, (integ st p ds dt).ds = ds) (hT : c.maxT ≤ 0) (hL : 0 < c.maxLength) (hds : c.ds0 ≠ 0)
    (hdir : c.streamDir = 3) :
    ∃ g ls, pyStreamline c integ junk st seeds = .ok (g, ls) ∧ ls.length = seeds.length ∧
      ∀ (i : Nat) (x0 : P3 K), seeds[i]? = some x0 → ∃ (back fwd : List (P3 K)) (f0 f1 : Nat) (st0 st1 : σ),
        ls[i]? = some ⟨if c.lines then (back.reverse ++ [x0] ++ fwd).map some else [], f0 ||| f1⟩ ∧
        FollowsLen integ |c.ds0| c.maxLength st0 x0 (-c.ds0) back ∧
        FollowsLen integ |c.ds0| c.maxLength st1 x0 c.ds0 fwd ∧
        (f0 = 20480 → c.maxLength ≤ back.length * |c.ds0|) ∧ (f1 = 20480 → c.maxLength ≤ fwd.length * |c.ds0|) ∧
        (f0 = 12288 ∨ f0 = 69632 → back.length * |c.ds0| < c.maxLength) ∧
        (f1 = 12288 ∨ f1 = 69632 → fwd.length * |c.ds0| < c.maxLength) := by
  obtain ⟨g, ls, h1, h2, _, h4⟩ := runLines_spec c integ c.maxit le_rfl seeds
    ⟨if c.lines then List.replicate (2 * c.maxit + 1) none else [], junk, st, 0⟩
    ⟨by intro h; simp [h], by intro h; simp [h]⟩
  refine ⟨g, ls, h1, h2, fun i x0 hi => ?_⟩
  obtain ⟨st', absDt, h⟩ := h4 i x0 hi
  dsimp only at h
  obtain ⟨b, hb'⟩ : ∃ b, b = part c integ (c.streamDir &&& 2 ≠ 0) (-1) x0 absDt st' := ⟨_, rfl⟩
  rw [← hb'] at h
  obtain ⟨f, hf'⟩ : ∃ f, f = part c integ (c.streamDir &&& 1 ≠ 0) 1 x0 b.a.absDt b.a.st := ⟨_, rfl⟩
  rw [← hf'] at h
  have key : ∀ (d : Int) (hd : d = 1 ∨ d = -1) (on : Prop) [Decidable on] (hon : on) (q : K) (s : σ),
      FollowsLen integ |c.ds0| c.maxLength s x0 (d * c.ds0) (part c integ on d x0 q s).pts ∧
      ((part c integ on d x0 q s).flag = 20480 → c.maxLength ≤ (part c integ on d x0 q s).pts.length * |c.ds0|) ∧
      ((part c integ on d x0 q s).flag = 12288 ∨ (part c integ on d x0 q s).flag = 69632 →
        (part c integ on d x0 q s).pts.length * |c.ds0| < c.maxLength) := by
    intro d hd on _ hon q s
    have habs : |(start c d x0 q s).ds| = |c.ds0| := by
      rcases hd with rfl | rfl <;> simp [start]
    obtain ⟨w1, w2, w3⟩ := walk_fixed c integ hfix hT hL c.maxit (start c d x0 q s) (start_inv c d x0 q s)
      (by rw [habs]; exact abs_pos.mpr hds) rfl
    rw [habs] at w1 w2 w3
    rw [show c.maxLength - (start c d x0 q s).len = c.maxLength from sub_zero _] at w1
    rw [show (start c d x0 q s).len = 0 from rfl] at w2 w3
    simp only [zero_add] at w2 w3
    obtain ⟨_, _, r⟩ := walk_spec c integ c.maxit (start c d x0 q s) (start_inv c d x0 q s)
    unfold part
    rw [if_pos hon]
    dsimp only
    refine ⟨w1, ?_, ?_⟩
    · intro hh
      split at hh
      · simp at hh
      · exact w2 hh
    · intro hh
      apply w3
      split at hh
      · left; assumption
      · rcases hh with hh | hh
        · exfalso
          rw [hh] at r
          simp [Reason] at r
        · right; exact hh
  have kb := key (-1) (Or.inr rfl) (c.streamDir &&& 2 ≠ 0) (by rw [hdir]; decide) absDt st'
  have kf := key 1 (Or.inl rfl) (c.streamDir &&& 1 ≠ 0) (by rw [hdir]; decide) b.a.absDt b.a.st
  rw [← hb'] at kb
  rw [← hf'] at kf
  refine ⟨b.pts, f.pts, b.flag, f.flag, st', b.a.st, ?_, ?_, ?_, kb.2.1, kf.2.1, kb.2.2, kf.2.2⟩
  · rw [h, List.append_assoc, List.singleton_append]
  · simpa using kb.1
  · simpa using kf.1

/-- 5/4 units of length at steps of 1/2: two whole steps and one half step each way. -/
example : summary (pyStreamline { exCfg with maxLength := 5/4, ibound := 0 } unitX 0 () [⟨0, 0, 0⟩]) =
    some [([some (-5/4), some (-1), some (-1/2), some 0, some (1/2), some 1, some (5/4)], 20480)] := by decide +kernel

/-- C27 (time, never late): when time only runs one way along a direction, every vertex but the last is
reached before max_t. -/
theorem C27_max_t_never_late_partial (c : Cfg K) (integ : Integ σ K) (junk : K) (st : σ) (seeds : List (P3 K))
    (hb : OneWay integ (-1)) (hf : OneWay integ 1) (hT : 0 < c.maxT) (hds : 0 ≤ c.ds0) (hdir : c.streamDir = 3) :
    ∃ g ls, pyStreamline c integ junk st seeds = .ok (g, ls) ∧ ls.length = seeds.length ∧
      ∀ (i : Nat) (x0 : P3 K), seeds[i]? = some x0 → ∃ (back fwd : List (P3 K)) (f : Nat) (st0 st1 : σ),
        ls[i]? = some ⟨if c.lines then (back.reverse ++ [x0] ++ fwd).map some else [], f⟩ ∧
        (∀ k, k + 1 < back.length → -elapsed integ (k + 1) st0 x0 (-c.ds0) 0 < c.maxT) ∧
        (∀ k, k + 1 < fwd.length → elapsed integ (k + 1) st1 x0 c.ds0 0 < c.maxT) := by
  obtain ⟨g, ls, h1, h2, _, h4⟩ := runLines_spec c integ c.maxit le_rfl seeds
    ⟨if c.lines then List.replicate (2 * c.maxit + 1) none else [], junk, st, 0⟩
    ⟨by intro h; simp [h], by intro h; simp [h]⟩
  refine ⟨g, ls, h1, h2, fun i x0 hi => ?_⟩
  obtain ⟨st', absDt, h⟩ := h4 i x0 hi
  dsimp only at h
  obtain ⟨b, hb'⟩ : ∃ b, b = part c integ (c.streamDir &&& 2 ≠ 0) (-1) x0 absDt st' := ⟨_, rfl⟩
  rw [← hb'] at h
  obtain ⟨f, hf'⟩ : ∃ f, f = part c integ (c.streamDir &&& 1 ≠ 0) 1 x0 b.a.absDt b.a.st := ⟨_, rfl⟩
  rw [← hf'] at h
  refine ⟨b.pts, f.pts, b.flag ||| f.flag, st', b.a.st, ?_, ?_, ?_⟩
  · rw [h, List.append_assoc, List.singleton_append]
  · intro k hk
    rw [hb'] at hk
    unfold part at hk
    rw [if_pos (by rw [hdir]; decide)] at hk
    have := walk_time c integ (-1) (Or.inr rfl) hb hT c.maxit (start c (-1) x0 absDt st') (start_inv _ _ _ _ _)
      (by simpa [start] using hds) (by simp [start]) (by simp [start]) k hk
    simpa [start] using this
  · intro k hk
    rw [hf'] at hk
    unfold part at hk
    rw [if_pos (by rw [hdir]; decide)] at hk
    have := walk_time c integ 1 (Or.inl rfl) hf hT c.maxit (start c 1 x0 b.a.absDt b.a.st) (start_inv _ _ _ _ _)
      (by simpa [start] using hds) (by simp [start]) (by simp [start]) k hk
    simpa [start] using this

example : OneWay unitX 1 ∧ OneWay unitX (-1) := by
  constructor <;> intro st p ds dt h <;> refine ⟨h, ?_⟩ <;> simpa [unitX] using h

/-- C27 fails for max_t: `*dt` is the time since the seed, and the loop adds it again at every step.  On
a flow of speed 1 with max_t = 10 and steps of 1 the forward line ends after 4 units of time. -/
theorem C27_max_t_violated :
    summary (pyStreamline ⟨100, 1, 0, ⟨-1000, -1000, -1000⟩, ⟨1000, 1000, 1000⟩, 0, 1000, 10, 1, true⟩ unitX 0 () [⟨0, 0, 0⟩]) =
      some [([some 0, some 1, some 2, some 3, some 4], 36864)] ∧
    elapsed unitX 4 () ⟨0, 0, 0⟩ 1 0 = 4 := by
  decide +kernel

/-! ## C57 -/

/-- C57 (no failure while tracing): as long as no call fails inside the tracing function, every call with
good arguments succeeds, whatever failed argument checks came before it. -/
theorem C57_lock_free_partial (cs : List Call) (h : ∀ c ∈ cs, c.failsBefore = true ∨ c.failsInside = false) :
    calls false cs = cs.map fun c => if c.failsBefore then .argError else .ok := by
  induction cs with
  | nil => rfl
  | cons c cs ih =>
    have hc := h c (by simp)
    have e : (calcStreamlines false c).1 = false := by
      rcases hc with h1 | h1 <;> cases h2 : c.failsBefore <;> simp_all [calcStreamlines]
    simp only [calls, List.map_cons, e]
    rw [ih fun c hc => h c (by simp [hc])]
    congr 1
    rcases hc with h1 | h1 <;> cases h2 : c.failsBefore <;> simp_all [calcStreamlines]

example : calls false [⟨true, false⟩, ⟨false, false⟩, ⟨true, true⟩, ⟨false, false⟩] = [.argError, .ok, .argError, .ok] := by decide

/-- C57 fails: after one call that raised while tracing, no later call can ever succeed. -/
theorem C57_poisoned_violated (bad : Call) (hbad : bad.failsBefore = false ∧ bad.failsInside = true) (cs : List Call) :
    calls false (bad :: cs) = .innerError :: cs.map fun c => if c.failsBefore then .argError else .locked := by
  have e : calcStreamlines false bad = (true, .innerError) := by simp [calcStreamlines, hbad]
  simp only [calls, e]
  congr 1
  induction cs with
  | nil => rfl
  | cons c cs ih =>
    have e : (calcStreamlines true c).1 = true := by cases h2 : c.failsBefore <;> simp [calcStreamlines, h2]
    simp only [calls, List.map_cons, e]
    rw [ih]
    congr 1
    cases h2 : c.failsBefore <;> simp [calcStreamlines, h2]

example : calls false [⟨false, false⟩, ⟨false, true⟩, ⟨false, false⟩] = [.ok, .innerError, .locked] := by decide

end Viscid.Streamline
