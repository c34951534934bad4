import Verif.Lemmas.Integrate
import Verif.Props.Streamline
/-!
# C24 (retries), C25, C26, C27 (arc length of real integrators)
-/
namespace Viscid.Integrate
open Viscid.Streamline Viscid.Spec.Streamline Viscid.Spec.Integrate

/-! ## C24 -/

/-- C24 (retries): with a positive smallest step the retry loop of an adaptive step ends, and the number
of passes it needs depends only on the step and the floor, not on the field or the error estimates. -/
theorem C24_retries_finite (C : Ctrl) (he : 0 < C.maxErr) (hs : 0 < C.smallest) (hsl : C.smallest ≤ C.largest)
    (ds : ℝ) (hds : ds ≠ 0) :
    ∃ N : Nat, ∀ (att : ℝ → Option Attempt) (n : Nat), N ≤ n → retry C att n ds ≠ none := by
  obtain ⟨m, hm⟩ := pow_small ds C.smallest hs
  exact ⟨m + 1, fun att n hn => retry_done C he hs hsl att m ds hds hm n hn⟩

/-- The hypotheses are those of the default options: floor ds0/100, ceiling 100 ds0. -/
example : (0:ℝ) < 4e-2 ∧ (0:ℝ) < 1e-2 * (1/2) ∧ (1e-2 * (1/2) : ℝ) ≤ 1e2 * (1/2) := by norm_num

/-! ## C25 -/

/-- C25: the controller keeps the sign of the step, does not exceed the largest step, asks for a retry
only with a strictly smaller step that is at least the smallest, and after a step whose error is too
large never returns less than the smallest step. -/
theorem C25_controller (ds err maxErr smallest largest : ℝ) (hds : ds ≠ 0) (he : 0 < maxErr) (hs : 0 < smallest)
    (hsl : smallest ≤ largest) :
    (0 < (tsCtrl ds err maxErr smallest largest).1 ↔ 0 < ds) ∧ (tsCtrl ds err maxErr smallest largest).1 ≠ 0 ∧
    (|ds| ≤ largest → |(tsCtrl ds err maxErr smallest largest).1| ≤ largest) ∧
    ((tsCtrl ds err maxErr smallest largest).2 = true →
      |(tsCtrl ds err maxErr smallest largest).1| < |ds| ∧ smallest ≤ |(tsCtrl ds err maxErr smallest largest).1|) ∧
    (maxErr ≤ |err| → smallest ≤ |(tsCtrl ds err maxErr smallest largest).1|) := by
  obtain ⟨h1, h2, h3, h4⟩ := tsCtrl_spec ds err maxErr smallest largest hds he hs hsl
  refine ⟨⟨fun h => ?_, fun h => ?_⟩, ?_, h2, fun h => ⟨(h3 h).2.2.1, (h3 h).2.1⟩, h4⟩
  · rcases mul_pos_iff.mp h1 with h' | h'
    · exact h'.2
    · exact absurd h (not_lt.mpr h'.1.le)
  · rcases mul_pos_iff.mp h1 with h' | h'
    · exact h'.1
    · exact absurd h (not_lt.mpr h'.2.le)
  · intro h0; rw [h0, zero_mul] at h1; exact lt_irrefl _ h1

theorem rpow_fifth : (((10/11 : ℝ)) ^ 5) ^ (-0.2 : ℝ) = 11/10 := by
  rw [← Real.rpow_natCast, ← Real.rpow_mul (by norm_num)]
  norm_num [Real.rpow_neg_one]

theorem tsCtrl_shrink (ds : ℝ) (h0 : 0 < ds) (h1 : ds < 100) :
    tsCtrl ds ((10/11) ^ 5) 1 1 100 = (0.99 * ds, false) := by
  unfold tsCtrl
  dsimp only
  have e : |((10/11 : ℝ)) ^ 5| / 1 = (10/11) ^ 5 := by rw [div_one, abs_of_pos (by positivity)]
  rw [e, if_neg (by positivity), if_neg (by norm_num), abs_of_pos h0, if_neg (not_le.mpr h1), rpow_fifth]
  rw [show 0.9 * ds * (11/10) = 0.99 * ds by ring]
  rw [if_neg]
  rw [abs_of_pos (by positivity)]
  linarith

/-- C25 fails for the floor: an accepted step whose error is close to the limit shrinks the step by up to
ten per cent without looking at the smallest step, and repeating it goes below every bound. -/
theorem C25_floor_violated :
    tsCtrl 1 ((10/11) ^ 5) 1 1 100 = (0.99, false) ∧
    ∀ ε > 0, ∃ n : Nat, |(fun ds => (tsCtrl ds ((10/11) ^ 5) 1 1 100).1)^[n] 1| < ε := by
  refine ⟨by rw [tsCtrl_shrink 1 (by norm_num) (by norm_num), mul_one], fun ε hε => ?_⟩
  have hit : ∀ n : Nat, (fun ds => (tsCtrl ds ((10/11) ^ 5) 1 1 100).1)^[n] (1:ℝ) = 0.99 ^ n := by
    intro n
    induction n with
    | zero => simp
    | succ n ih =>
      rw [Function.iterate_succ_apply', ih]
      have hp : (0:ℝ) < 0.99 ^ n := by positivity
      have hp1 : (0.99:ℝ) ^ n ≤ 1 := pow_le_one₀ (by norm_num) (by norm_num)
      rw [tsCtrl_shrink _ hp (by linarith)]
      ring
  obtain ⟨n, hn⟩ := exists_pow_lt_of_lt_one hε (show (0.99:ℝ) < 1 by norm_num)
  refine ⟨n, ?_⟩
  rw [hit n, abs_of_pos (by positivity)]
  exact hn

/-! ## C26 -/

/-- C26 (orders): every rooted-tree order condition up to the advertised order holds for the coefficients
of every method: Euler 1, rk2 2, rk4 4; rk12 keeps an order 1 solution and compares with order 2; rk45
keeps order 4 and compares with order 5. -/
theorem C26_orders :
    HasOrder euler1.c euler1.u 1 ∧ HasOrder rk2.c rk2.u 2 ∧ HasOrder rk4.c rk4.u 4 ∧
    HasOrder euler1a.c euler1a.u 1 ∧ HasOrder rk12.c rk12.u 1 ∧ HasOrder rk12.c rk12.w 2 ∧
    HasOrder rk45.c rk45.u 4 ∧ HasOrder rk45.c rk45.w 5 := by
  refine ⟨?_, ?_, ?_, ?_, ?_, ?_, ?_, ?_⟩ <;> apply hasOrder_of_forests <;> decide +kernel

/-- The orders are not larger: the embedded pair of rk45 really has different orders. -/
example : ¬ HasOrder rk45.c rk45.u 5 := by
  intro h
  have := h (.node [.node [], .node [], .node [], .node []]) (by decide)
  revert this
  decide +kernel

theorem consistent_all : Consistent euler1 ∧ Consistent rk2 ∧ Consistent rk4 ∧ Consistent euler1a ∧ Consistent rk12 ∧
    Consistent rk45 := by
  refine ⟨⟨?_, ?_, ?_, ?_, ?_, ?_⟩, ⟨?_, ?_, ?_, ?_, ?_, ?_⟩, ⟨?_, ?_, ?_, ?_, ?_, ?_⟩, ⟨?_, ?_, ?_, ?_, ?_, ?_⟩,
    ⟨?_, ?_, ?_, ?_, ?_, ?_⟩, ⟨?_, ?_, ?_, ?_, ?_, ?_⟩⟩ <;> decide +kernel

/-- C26 (constant field): on a constant field V every method moves exactly ds along V / |V|, advances the
time by ds / |V| and keeps its step, the adaptive ones in one pass. -/
theorem C26_constant_field (V x : P3 ℝ) (ds dt : ℝ) (hV : len3 V ≠ 0) :
    (∀ T, T = euler1 ∨ T = rk2 ∨ T = rk4 →
      fixed T (fun _ => V) () x ds dt =
        ⟨0, ⟨x.x + ds * (V.x / len3 V), x.y + ds * (V.y / len3 V), x.z + ds * (V.z / len3 V)⟩, ds, dt + ds / len3 V, ()⟩) ∧
    (∀ T, T = euler1a ∨ T = rk12 ∨ T = rk45 → ∀ (C : Ctrl) (n : Nat), 0 < n →
      adaptive T C (fun _ => V) n x ds dt =
        some ⟨0, ⟨x.x + ds * (V.x / len3 V), x.y + ds * (V.y / len3 V), x.z + ds * (V.z / len3 V)⟩, ds, dt + ds / len3 V, ()⟩) := by
  obtain ⟨c1, c2, c3, c4, c5, c6⟩ := consistent_all
  rw [← mag_eq] at hV ⊢
  have key : ∀ T, Consistent T → attempt T (fun _ => V) x ds =
      some ⟨⟨x.x + ds * (V.x / mag V), x.y + ds * (V.y / mag V), x.z + ds * (V.z / mag V)⟩, 0, ds / mag V⟩ := by
    intro T hT
    rw [attempt_const T hT V x ds hV]
    congr 4 <;> ring
  constructor
  · intro T hT
    have hc : Consistent T := by rcases hT with rfl | rfl | rfl <;> assumption
    unfold fixed
    rw [key T hc]
  · intro T hT C n hn
    have hc : Consistent T := by rcases hT with rfl | rfl | rfl <;> assumption
    obtain ⟨n, rfl⟩ : ∃ k, n = k + 1 := ⟨n - 1, by omega⟩
    unfold adaptive retry
    rw [key T hc]
    simp only [tsCtrl_zero]
    simp

/-- The constant field (1, 0, 0) gives the integrator used in the examples of Props/Streamline.lean. -/
example (x : P3 ℝ) (ds dt : ℝ) : fixed rk4 (fun _ => ⟨1, 0, 0⟩) () x ds dt = ⟨0, ⟨x.x + ds, x.y, x.z⟩, ds, dt + ds, ()⟩ := by
  have h1 : len3 ⟨1, 0, 0⟩ = 1 := by simp [len3]
  rw [(C26_constant_field ⟨1, 0, 0⟩ x ds dt (by rw [h1]; norm_num)).1 rk4 (by simp), h1]
  simp

/-- C26 (zero field): where the field vanishes every method reports it and leaves the point, the step and
the time alone. -/
theorem C26_zero_field (v : P3 ℝ → P3 ℝ) (x : P3 ℝ) (ds dt : ℝ) (h : v x = ⟨0, 0, 0⟩) :
    (∀ T, T = euler1 ∨ T = rk2 ∨ T = rk4 → fixed T v () x ds dt = ⟨1, x, ds, dt, ()⟩) ∧
    (∀ T, T = euler1a ∨ T = rk12 ∨ T = rk45 → ∀ (C : Ctrl) (n : Nat), 0 < n → adaptive T C v n x ds dt = some ⟨1, x, ds, dt, ()⟩) := by
  have key : ∀ T : Table, (∃ rows, T.c = [] :: rows) → attempt T v x ds = none := by
    rintro T ⟨rows, hT⟩
    unfold attempt
    rw [hT]
    unfold stages
    have : v (shift x (comb [] [])) = ⟨0, 0, 0⟩ := by simpa [shift, comb] using h
    rw [this]
    simp [mag]
  constructor
  · intro T hT
    unfold fixed
    rw [key T (by rcases hT with rfl | rfl | rfl <;> exact ⟨_, rfl⟩)]
  · intro T hT C n hn
    obtain ⟨n, rfl⟩ : ∃ k, n = k + 1 := ⟨n - 1, by omega⟩
    unfold adaptive retry
    rw [key T (by rcases hT with rfl | rfl | rfl <;> exact ⟨_, rfl⟩)]

example : ∃ v : P3 ℝ → P3 ℝ, v ⟨1, 2, 3⟩ = ⟨0, 0, 0⟩ ∧ v ⟨0, 0, 0⟩ ≠ ⟨0, 0, 0⟩ := by
  refine ⟨fun p => ⟨p.x - 1, p.y - 2, p.z - 3⟩, by norm_num, ?_⟩
  intro h
  have := congrArg P3.x h
  norm_num at this

/-! ## C27 -/

theorem dist_between (p q : P3 ℝ) (τ : ℝ) (hτ : 0 ≤ τ) : dist3 p (between p q τ) = τ * dist3 p q := by
  unfold dist3 len3 between
  dsimp only
  have : (p.x + τ * (q.x - p.x) - p.x) * (p.x + τ * (q.x - p.x) - p.x) +
      (p.y + τ * (q.y - p.y) - p.y) * (p.y + τ * (q.y - p.y) - p.y) +
      (p.z + τ * (q.z - p.z) - p.z) * (p.z + τ * (q.z - p.z) - p.z) =
      τ ^ 2 * ((q.x - p.x) * (q.x - p.x) + (q.y - p.y) * (q.y - p.y) + (q.z - p.z) * (q.z - p.z)) := by ring
  rw [this, Real.sqrt_mul (by positivity), Real.sqrt_sq hτ]

theorem arc_of_followsLen (integ : Integ Unit ℝ) (h : ℝ) (hh : 0 < h)
    (hstep : ∀ st p ds, |ds| = h → (integ st p ds 0).ret = 0 → dist3 p (integ st p ds 0).x = h)
    {rem : ℝ} {st : Unit} {p : P3 ℝ} {ds : ℝ} {pts : List (P3 ℝ)} (hf : FollowsLen integ h rem st p ds pts)
    (hds : |ds| = h) (hrem : 0 ≤ rem) : arc p pts = min (pts.length * h) rem := by
  induction hf with
  | nil => simp [arc, hrem]
  | step rem st p ds rest hr hp hle _ ih =>
    simp only [arc]
    rw [ih hds (by linarith), hstep st p ds hds hr, List.length_cons]
    push_cast
    rw [← min_add_add_left]
    congr 1 <;> ring
  | cut rem st p ds hr hp hlt =>
    simp only [arc, List.length_singleton]
    rw [dist_between _ _ _ (div_nonneg hp.le hh.le), hstep st p ds hds hr, div_mul_cancel₀ _ (ne_of_gt hh)]
    rw [min_eq_right]
    · ring
    · push_cast; linarith

theorem euler_step (v : P3 ℝ → P3 ℝ) (st : Unit) (p : P3 ℝ) (ds dt : ℝ) (h : (fixed euler1 v st p ds dt).ret = 0) :
    dist3 p (fixed euler1 v st p ds dt).x = |ds| := by
  unfold fixed attempt euler1 at h ⊢
  simp only [stages] at h ⊢
  by_cases hm : mag (v (shift p (comb [] []))) = 0
  · simp [hm] at h
  · simp only [hm, if_false] at h ⊢
    set V := v (shift p (comb [] [])) with hV
    simp only [comb, shift, dist3, len3, List.nil_append, List.zipWith_cons_cons, List.zipWith_nil_right, List.sum_cons,
      List.sum_nil]
    push_cast
    have hmag : mag V ^ 2 = V.x ^ 2 + V.y ^ 2 + V.z ^ 2 := by
      unfold mag; rw [Real.sq_sqrt (by positivity)]
    rw [← Real.sqrt_sq_eq_abs]
    congr 1
    have : ∀ a : ℝ, a * (ds / mag V) = a * ds / mag V := by intro a; ring
    have e : (p.x + (1 * (V.x * (ds / mag V)) + 0) - p.x) * (p.x + (1 * (V.x * (ds / mag V)) + 0) - p.x) +
        (p.y + (1 * (V.y * (ds / mag V)) + 0) - p.y) * (p.y + (1 * (V.y * (ds / mag V)) + 0) - p.y) +
        (p.z + (1 * (V.z * (ds / mag V)) + 0) - p.z) * (p.z + (1 * (V.z * (ds / mag V)) + 0) - p.z)
        = (V.x ^ 2 + V.y ^ 2 + V.z ^ 2) * (ds / mag V) ^ 2 := by ring
    rw [e, ← hmag]
    field_simp

/-- C27 (arc length, Euler): for every field and all seeds, the length of each half of the line is the
number of steps times |ds0|, but at most max_length. -/
theorem C27_euler_arc_length_partial (c : Cfg ℝ) (v : P3 ℝ → P3 ℝ) (junk : ℝ) (seeds : List (P3 ℝ))
    (hT : c.maxT ≤ 0) (hL : 0 < c.maxLength) (hds : c.ds0 ≠ 0) (hdir : c.streamDir = 3) :
    ∃ g ls, pyStreamline c (fixed euler1 v) junk () seeds = .ok (g, ls) ∧ ls.length = seeds.length ∧
      ∀ (i : Nat) (x0 : P3 ℝ), seeds[i]? = some x0 → ∃ (back fwd : List (P3 ℝ)) (f : Nat),
        ls[i]? = some ⟨if c.lines then (back.reverse ++ [x0] ++ fwd).map some else [], f⟩ ∧
        arc x0 back = min (back.length * |c.ds0|) c.maxLength ∧ arc x0 fwd = min (fwd.length * |c.ds0|) c.maxLength := by
  obtain ⟨g, ls, h1, h2, h3⟩ := C27_max_length_partial c (fixed euler1 v) junk () seeds
    (by intro st p ds dt; unfold fixed; cases attempt euler1 v p ds <;> rfl) hT hL hds hdir
  refine ⟨g, ls, h1, h2, fun i x0 hi => ?_⟩
  obtain ⟨back, fwd, f0, f1, s0, s1, e, fb, ff, _⟩ := h3 i x0 hi
  have hst : ∀ st p ds, |ds| = |c.ds0| → (fixed euler1 v st p ds 0).ret = 0 → dist3 p (fixed euler1 v st p ds 0).x = |c.ds0| := by
    intro st p ds h hr
    rw [euler_step v st p ds 0 hr, h]
  exact ⟨back, fwd, f0 ||| f1, e,
    arc_of_followsLen _ _ (abs_pos.mpr hds) hst fb (abs_neg _) hL.le,
    arc_of_followsLen _ _ (abs_pos.mpr hds) hst ff rfl hL.le⟩

/-- A field that turns between the origin and everywhere else. -/
noncomputable def bend : P3 ℝ → P3 ℝ := fun p => if p.x = 0 then ⟨1, 0, 0⟩ else ⟨3/5, 4/5, 0⟩

/-- C27 fails for the adaptive methods: the loop credits min(old step, next step) instead of the step that
was made.  Here euler1a moves the point by 1, but 0.99 is added to the length. -/
theorem C27_adaptive_length_violated :
    ∃ (C : Ctrl) (out : Out Unit ℝ), 0 < C.maxErr ∧ C.smallest = 1 / 100 ∧ C.largest = 100 ∧
      adaptive euler1a C bend 1 ⟨0, 0, 0⟩ 1 0 = some out ∧ out.ret = 0 ∧ dist3 ⟨0, 0, 0⟩ out.x = 1 ∧
      ∀ (c : Cfg ℝ) (a : Acc Unit ℝ), a.ds = 1 → (advance c (fun _ _ _ _ => out) a).1.len = a.len + 0.99 := by
  have hsq : (0:ℝ) < Real.sqrt (4/5) := Real.sqrt_pos.mpr (by norm_num)
  have hatt : attempt euler1a bend ⟨0, 0, 0⟩ 1 = some ⟨⟨1, 0, 0⟩, Real.sqrt (4/5), 1⟩ := by
    have m1 : mag ⟨1, 0, 0⟩ = 1 := by simp [mag]
    have m2 : mag ⟨3/5, 4/5, 0⟩ = 1 := by
      unfold mag; rw [show ((3:ℝ)/5) ^ 2 + (4/5) ^ 2 + 0 ^ 2 = 1 by norm_num, Real.sqrt_one]
    have s1 : stages bend ⟨0, 0, 0⟩ 1 euler1a.c [] [] = some ([⟨1, 0, 0⟩, ⟨3/5, 4/5, 0⟩], [1, 1]) := by
      unfold euler1a
      simp only [stages]
      have b1 : bend (shift ⟨0, 0, 0⟩ (comb [] [])) = ⟨1, 0, 0⟩ := by simp [bend, shift, comb]
      rw [b1, m1]
      have b2 : bend (shift ⟨0, 0, 0⟩ (comb [1] ([] ++ [⟨1 * (1 / 1), 0 * (1 / 1), 0 * (1 / 1)⟩]))) = ⟨3/5, 4/5, 0⟩ := by
        simp [bend, shift, comb]
      simp only [one_ne_zero, if_false]
      rw [b2, m2]
      simp
    unfold attempt
    rw [s1]
    simp only [euler1a, comb, shift]
    simp [mag]
    norm_num
  have hctrl : tsCtrl 1 (Real.sqrt (4/5)) (Real.sqrt (4/5) * (11/10) ^ 5) (1/100) 100 = (0.99, false) := by
    unfold tsCtrl
    dsimp only
    have e : |Real.sqrt (4/5)| / (Real.sqrt (4/5) * (11/10) ^ 5) = (10/11) ^ 5 := by
      rw [abs_of_pos hsq]
      field_simp
    rw [e, if_neg (by positivity), if_neg (by norm_num), abs_one, if_neg (by norm_num), rpow_fifth]
    rw [show (0.9:ℝ) * 1 * (11/10) = 0.99 by norm_num]
    rw [if_neg]
    rw [abs_of_pos (by norm_num)]
    norm_num
  refine ⟨⟨Real.sqrt (4/5) * (11/10) ^ 5, 1/100, 100⟩, ⟨0, ⟨1, 0, 0⟩, 0.99, 0 + 1, ()⟩, by positivity, rfl, rfl, ?_, rfl, ?_, ?_⟩
  · unfold adaptive retry
    rw [hatt]
    simp only [hctrl]
    simp
  · simp [dist3, len3]
  · intro c a ha
    unfold advance
    simp only [ha]
    rw [if_neg]
    · rw [abs_of_pos (by norm_num : (0:ℝ) < 0.99)]
    · rw [abs_of_pos (by norm_num : (0:ℝ) < 0.99), abs_one]; norm_num

end Viscid.Integrate
