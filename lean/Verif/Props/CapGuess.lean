import Verif.Model.CapGuess
import Verif.Props.Sphere
import Mathlib.Analysis.Real.Pi.Bounds
/-!
# C252: caps of spheres and the guess of a dipole's moment
-/
namespace Viscid.Props
open Matrix Viscid.Rotation Viscid.Seed Viscid.Spec.Rotation Viscid.CapGuess

namespace CG

theorem argmaxFrom_spec : ∀ (ys : List ℝ) (pre : List ℝ) (best : ℝ) (bi i : Nat), i = pre.length → pre[bi]? = some best →
    (∀ x ∈ pre, x ≤ best) → (∀ j x, j < bi → pre[j]? = some x → x < best) →
    ∃ m, (pre ++ ys)[argmaxFrom best bi i ys]? = some m ∧ (∀ x ∈ pre ++ ys, x ≤ m) ∧
      ∀ j x, j < argmaxFrom best bi i ys → (pre ++ ys)[j]? = some x → x < m
  | [], pre, best, bi, i, _, hb, hm, hf => ⟨best, by simpa [argmaxFrom] using hb, by simpa using hm, by simpa [argmaxFrom] using hf⟩
  | y :: ys, pre, best, bi, i, hi, hb, hm, hf => by
    have e : pre ++ y :: ys = (pre ++ [y]) ++ ys := by simp
    have hbi : bi < pre.length := by
      rcases Nat.lt_or_ge bi pre.length with h | h
      · exact h
      · rw [List.getElem?_eq_none h] at hb; cases hb
    rw [argmaxFrom]
    by_cases hy : y > best
    · rw [if_pos hy, e]
      apply argmaxFrom_spec ys (pre ++ [y]) y i (i + 1) (by simp [hi])
      · rw [hi]; simp
      · intro x hx
        rcases List.mem_append.1 hx with hx | hx
        · exact (hm x hx).trans hy.le
        · rw [List.mem_singleton.1 hx]
      · intro j x hj hx
        rw [List.getElem?_append_left (by omega)] at hx
        exact lt_of_le_of_lt (hm x (List.mem_of_getElem? hx)) hy
    · rw [if_neg hy, e]
      apply argmaxFrom_spec ys (pre ++ [y]) best bi (i + 1) (by simp [hi])
      · rw [List.getElem?_append_left hbi]; exact hb
      · intro x hx
        rcases List.mem_append.1 hx with hx | hx
        · exact hm x hx
        · rw [List.mem_singleton.1 hx]; exact not_lt.1 hy
      · intro j x hj hx
        rw [List.getElem?_append_left (by omega)] at hx
        exact hf j x hj hx

theorem argmax_spec (l : List ℝ) (h : l ≠ []) : ∃ i m, argmax l = some i ∧ l[i]? = some m ∧ (∀ x ∈ l, x ≤ m) ∧
    ∀ j x, j < i → l[j]? = some x → x < m := by
  cases l with
  | nil => exact absurd rfl h
  | cons x xs =>
    obtain ⟨m, h1, h2, h3⟩ := argmaxFrom_spec xs [x] x 0 1 rfl rfl (by simp) (by intro j x hj; omega)
    exact ⟨_, m, rfl, h1, h2, h3⟩

theorem clear_ez : Clear ![0, 0, 1] := by
  left
  rw [ez_unit']
  simp [len, cross]

theorem mem_thetas {s : Sphere} {e : Ends} {t : ℝ} (h : t ∈ capThetas s e) : ∃ i < s.ntheta, t = s.theta0 + frac (capEnds e) s.ntheta i * (s.theta1 - s.theta0) := by
  obtain ⟨i, hi⟩ := List.mem_iff_getElem?.1 h
  rcases Nat.lt_or_ge i s.ntheta with hn | hn
  · unfold capThetas at hi
    rw [thetaAxis_get _ _ _ _ _ hn] at hi
    exact ⟨i, hn, (Option.some.inj hi).symm⟩
  · exfalso
    have hl : (capThetas s e).length ≤ s.ntheta := by
      unfold capThetas thetaAxis
      split
      · simp [linspace]
      · split
        · simp [linspace]
        · split
          · simp [linspace]
          · simp
    rw [List.getElem?_eq_none (by omega)] at hi
    cases hi

end CG

/-- C252: every seed of a cap is at the distance of the radius from its centre and at an angle from its pole that is at least the first
and less than the second, and there are as many as asked for. -/
theorem C252_within_partial (p0 pole : V3) (r angle0 angle phi0 phi1 roll : ℝ) (nt np : Nat) (ends : Ends) (hp : dot pole pole = 1) (hc : Clear pole)
    (ha : angle0 < angle) (x : Option V3) :
    ∃ s e, capInit p0 r pole nt np angle0 angle phi0 phi1 roll ends = some (s, e) ∧
      (capPoints s e).length = np * nt ∧
      (x ∈ capPoints s e → ∃ q t, x = some q ∧ len (vsub q p0) = |if r = 0 then 1 else r| ∧
        angle0 ≤ t ∧ t < angle ∧ dot (vsub q p0) pole = (if r = 0 then 1 else r) * Real.cos (t * Real.pi / 180)) := by
  have hl : len pole = 1 := len_eq_one hp
  refine ⟨⟨p0, if r = 0 then len pole else r, unit pole, nt, np, angle0 * Real.pi / 180, angle * Real.pi / 180, phi0 * Real.pi / 180, phi1 * Real.pi / 180,
    roll * Real.pi / 180⟩, .auto, ?_, ?_, ?_⟩
  · unfold capInit sphereInit
    simp only [if_true]
    rw [if_neg (by rw [hl]; exact one_ne_zero)]
    rfl
  · unfold capPoints
    simp only [List.length_flatMap, List.length_map]
    have h1 : ∀ s : Sphere, (capThetas s .auto).length = s.ntheta := fun s => by simp [capThetas, thetaAxis, capEnds, linspace]
    have h2 : ∀ s : Sphere, s.phiAxis.length = s.nphi := fun s => by simp [Sphere.phiAxis, linspace]
    simp only [h1, List.map_const', List.sum_replicate, h2, smul_eq_mul]
  · intro hx
    unfold capPoints at hx
    simp only [List.mem_flatMap, List.mem_map] at hx
    obtain ⟨p, -, t, ht, rfl⟩ := hx
    obtain ⟨i, hi, rfl⟩ := CG.mem_thetas ht
    simp only [capEnds] at hi ⊢
    obtain ⟨f1, f2, f3, f4⟩ := frac_range (true, false) nt i hi
    have f4 := f4 rfl
    generalize frac (true, false) nt i = f at *
    rw [unit_of_dot hp, hl]
    obtain ⟨R, hR, hrot, hm⟩ := sphere_rot (s := ⟨p0, if r = 0 then 1 else r, pole, nt, np, angle0 * Real.pi / 180, angle * Real.pi / 180, phi0 * Real.pi / 180, phi1 * Real.pi / 180,
      roll * Real.pi / 180⟩) hp hc
    obtain ⟨q, hq, hd⟩ := C77_angle_partial ⟨p0, if r = 0 then 1 else r, pole, nt, np, angle0 * Real.pi / 180, angle * Real.pi / 180, phi0 * Real.pi / 180, phi1 * Real.pi / 180,
      roll * Real.pi / 180⟩ hp hc (angle0 * Real.pi / 180 + f * (angle * Real.pi / 180 - angle0 * Real.pi / 180)) p
    refine ⟨q, angle0 + f * (angle - angle0), hq, ?_, by nlinarith, by nlinarith, ?_⟩
    · unfold Sphere.to3d at hq
      rw [hR] at hq
      simp only [Option.map_some, Option.some.injEq] at hq
      rw [← hq, vsub_vadd, len_rot' hrot, sph_len]
    · simp only at hd
      rw [hd]
      congr 2
      ring

/-- C252 is violated: `theta_endpoint` is ignored; even asked for both ends, a cap never reaches its edge. -/
theorem C252_endpoint_violated (p0 pole : V3) (r angle0 angle phi0 phi1 roll : ℝ) (nt np : Nat) (ends ends' : Ends) :
    capInit p0 r pole nt np angle0 angle phi0 phi1 roll ends = capInit p0 r pole nt np angle0 angle phi0 phi1 roll ends' ∧
    ∀ s e, capInit p0 r pole nt np angle0 angle phi0 phi1 roll ends = some (s, e) → angle0 < angle →
      ∀ t ∈ capThetas s e, t < angle * Real.pi / 180 := by
  refine ⟨rfl, fun s e h ha t ht => ?_⟩
  have hpi := Real.pi_pos
  unfold capInit sphereInit at h
  simp only [if_true] at h
  split at h
  · cases h
  · cases h
    obtain ⟨i, hi, rfl⟩ := CG.mem_thetas ht
    obtain ⟨f1, f2, f3, f4⟩ := frac_range (true, false) nt i hi
    have f4 := f4 rfl
    simp only [capEnds]
    generalize frac (true, false) nt i = f at *
    have : angle0 * Real.pi / 180 < angle * Real.pi / 180 := by
      have := mul_lt_mul_of_pos_right ha hpi
      linarith
    nlinarith

/-- C252 is violated: a cap without a hole has its pole as a seed once for each phi. -/
theorem C252_pole_violated (p0 pole : V3) (r angle phi0 phi1 roll : ℝ) (nt np : Nat) (ends : Ends) (hp : dot pole pole = 1) (hc : Clear pole) :
    ∃ s e, capInit p0 r pole (nt + 1) np 0 angle phi0 phi1 roll ends = some (s, e) ∧
      ∀ p, ∃ rest, (capThetas s e).map (fun t => s.to3d t p) = some (vadd p0 (vsmul (if r = 0 then 1 else r) pole)) :: rest := by
  have hl : len pole = 1 := len_eq_one hp
  refine ⟨⟨p0, if r = 0 then 1 else r, pole, nt + 1, np, 0 * Real.pi / 180, angle * Real.pi / 180, phi0 * Real.pi / 180, phi1 * Real.pi / 180,
    roll * Real.pi / 180⟩, .auto, ?_, fun p => ?_⟩
  · unfold capInit sphereInit
    simp only [if_true]
    rw [if_neg (by rw [hl]; exact one_ne_zero), hl, unit_of_dot hp]
    rfl
  · have h0 : (capThetas ⟨p0, if r = 0 then 1 else r, pole, nt + 1, np, 0 * Real.pi / 180, angle * Real.pi / 180, phi0 * Real.pi / 180, phi1 * Real.pi / 180,
        roll * Real.pi / 180⟩ .auto)[0]? = some 0 := by
      unfold capThetas
      rw [thetaAxis_get _ _ _ _ _ (by simp)]
      simp [capEnds, frac]
    have h1 := (C78_poles_partial ⟨p0, if r = 0 then 1 else r, pole, nt + 1, np, 0 * Real.pi / 180, angle * Real.pi / 180, phi0 * Real.pi / 180, phi1 * Real.pi / 180,
        roll * Real.pi / 180⟩ hp hc p).1 (by simp)
    have h2 := h1.2
    cases hT : capThetas ⟨p0, if r = 0 then 1 else r, pole, nt + 1, np, 0 * Real.pi / 180, angle * Real.pi / 180, phi0 * Real.pi / 180, phi1 * Real.pi / 180,
        roll * Real.pi / 180⟩ .auto with
    | nil => rw [hT] at h0; cases h0
    | cons a l =>
      rw [hT] at h0
      simp only [List.getElem?_cons_zero, Option.some.injEq] at h0
      subst h0
      rw [List.map_cons]
      refine ⟨_, congrArg₂ List.cons ?_ rfl⟩
      simp only [zero_mul, zero_div] at h2 ⊢
      rw [h2]
      simp only [Sphere.polePoint, if_true]
      congr 2
      funext i; simp [vsmul]

/-- C252 is violated: the angle of a cap reads back in radians. -/
theorem C252_angle_violated (p0 pole : V3) (r angle0 angle phi0 phi1 roll : ℝ) (nt np : Nat) (ends : Ends) (s : Sphere) (e : Ends)
    (h : capInit p0 r pole nt np angle0 angle phi0 phi1 roll ends = some (s, e)) (ha : angle ≠ 0) : capAngle s = angle * Real.pi / 180 ∧ capAngle s ≠ angle := by
  unfold capInit sphereInit at h
  simp only [if_true] at h
  split at h
  · cases h
  · cases h
    refine ⟨rfl, fun h => ?_⟩
    have h4 := Real.pi_lt_four
    unfold capAngle at h
    simp only at h
    have : angle * (Real.pi - 180) = 0 := by linarith
    rcases mul_eq_zero.1 this with h' | h'
    · exact ha h'
    · linarith

namespace CG

/-- the points of the guess -/
def At (r capAngle : ℝ) (q : V3) : Prop := len q = r ∧ ∃ t, 0 ≤ t ∧ t < capAngle ∧ q 2 = r * Real.cos (t * Real.pi / 180)

/-- the seeds looked at -/
noncomputable def seeds (r capAngle : ℝ) (nt np : Nat) : List V3 :=
  match capInit 0 r ![0, 0, 1] nt np 0 capAngle 0 360 0 (.pair true false) with
  | none => []
  | some (s, e) => (capPoints s e).filterMap id

theorem guess_eq (b : V3 → V3) (r strength capAngle : ℝ) (nt np : Nat) :
    guess b r strength capAngle nt np = (argmax ((seeds r capAngle nt np).map fun p => len (b p))).bind fun i =>
      ((seeds r capAngle nt np)[i]?).map fun p => fun k => strength * p k / len p := by
  unfold guess seeds
  cases capInit 0 r ![0, 0, 1] nt np 0 capAngle 0 360 0 (.pair true false) with
  | none => rfl
  | some x => rfl

theorem seeds_spec (r capAngle : ℝ) (nt np : Nat) (hr : 0 < r) (ha : 0 < capAngle) :
    (seeds r capAngle nt np).length = np * nt ∧ ∀ q ∈ seeds r capAngle nt np, At r capAngle q := by
  have hp : dot ![0, 0, 1] ![0, 0, 1] = 1 := by simp [dot]
  obtain ⟨s, e, h1, h2, -⟩ := C252_within_partial 0 ![0, 0, 1] r 0 capAngle 0 360 0 nt np (.pair true false) hp clear_ez ha none
  have h3 : ∀ x ∈ capPoints s e, ∃ q t, x = some q ∧ len (vsub q 0) = |r| ∧ 0 ≤ t ∧ t < capAngle ∧ dot (vsub q 0) ![0, 0, 1] = r * Real.cos (t * Real.pi / 180) := by
    intro x hx
    obtain ⟨s', e', h1', -, h⟩ := C252_within_partial 0 ![0, 0, 1] r 0 capAngle 0 360 0 nt np (.pair true false) hp clear_ez ha x
    rw [h1] at h1'
    cases h1'
    have := h hx
    simpa only [if_neg (ne_of_gt hr)] using this
  unfold seeds
  rw [h1]
  simp only
  constructor
  · rw [← h2]
    have : ∀ l : List (Option V3), (∀ x ∈ l, ∃ q, x = some q) → (l.filterMap id).length = l.length := by
      intro l
      induction l with
      | nil => intro _; rfl
      | cons x l ih =>
        intro h
        obtain ⟨q, rfl⟩ := h x (by simp)
        have := ih (fun y hy => h y (by simp [hy]))
        rw [List.filterMap_cons_some (by rfl), List.length_cons, List.length_cons, this]
    exact this _ fun x hx => by obtain ⟨q, _, h, _⟩ := h3 x hx; exact ⟨q, h⟩
  · intro q hq
    obtain ⟨x, hx, hxq⟩ := List.mem_filterMap.1 hq
    obtain ⟨q', t, rfl, a, b, c, d⟩ := h3 x hx
    simp only [id, Option.some.injEq] at hxq
    subst hxq
    have hv : vsub q' 0 = q' := by funext i; simp [vsub]
    rw [hv] at a d
    refine ⟨by rw [a, abs_of_pos hr], t, b, c, ?_⟩
    rw [← d]
    simp [dot]

end CG

/-- C252: the guess has the strength asked for and the direction of a place of the cap at which the field is at least as strong as at any other. -/
theorem C252_guess (b : V3 → V3) (r strength capAngle : ℝ) (nt np : Nat) (hr : 0 < r) (ha : 0 < capAngle) (hn : 0 < nt) (hm : 0 < np) :
    ∃ pts : List V3, pts.length = np * nt ∧
      (∀ q ∈ pts, len q = r ∧ ∃ t, 0 ≤ t ∧ t < capAngle ∧ q 2 = r * Real.cos (t * Real.pi / 180)) ∧
      ∃ q ∈ pts, (∀ q' ∈ pts, len (b q') ≤ len (b q)) ∧
        ∃ g, guess b r strength capAngle nt np = some g ∧ len g = |strength| ∧ ∀ k, r * g k = strength * q k := by
  obtain ⟨h1, h2⟩ := CG.seeds_spec r capAngle nt np hr ha
  refine ⟨CG.seeds r capAngle nt np, h1, h2, ?_⟩
  have hne : (CG.seeds r capAngle nt np).map (fun p => len (b p)) ≠ [] := by
    intro h
    have := congrArg List.length h
    rw [List.length_map, h1] at this
    simp only [List.length_nil] at this
    have := Nat.mul_pos hm hn
    omega
  obtain ⟨i, m, e1, e2, e3, -⟩ := CG.argmax_spec _ hne
  rw [List.getElem?_map, Option.map_eq_some_iff] at e2
  obtain ⟨q, hq, rfl⟩ := e2
  have hmem := List.mem_of_getElem? hq
  obtain ⟨hlen, -⟩ := h2 q hmem
  refine ⟨q, hmem, fun q' hq' => e3 _ (List.mem_map.2 ⟨q', hq', rfl⟩), fun k => strength * q k / len q, ?_, ?_, ?_⟩
  · rw [CG.guess_eq, e1]
    simp [hq]
  · have hl := len_sq q
    rw [hlen] at hl
    rw [hlen]
    unfold len
    rw [show (strength * q 0 / r) ^ 2 + (strength * q 1 / r) ^ 2 + (strength * q 2 / r) ^ 2 = strength ^ 2 by
      have hr' : r ≠ 0 := ne_of_gt hr
      field_simp
      linear_combination (-strength ^ 2) * hl]
    exact Real.sqrt_sq_eq_abs strength
  · intro k
    rw [hlen]
    field_simp

/-- C252 is violated: the guess cannot tell a dipole from the opposite one, and of positive strength with a cap of less than ninety degrees it always
points to the north: the moment of a field like the earth's, as of the default of `make_dipole`, is guessed on the wrong side. -/
theorem C252_sign_violated (b : V3 → V3) (r strength capAngle : ℝ) (nt np : Nat) (hr : 0 < r) (hs : 0 < strength) (ha : 0 < capAngle) (ha' : capAngle ≤ 90)
    (hn : 0 < nt) (hm : 0 < np) :
    guess (fun p => fun k => -(b p k)) r strength capAngle nt np = guess b r strength capAngle nt np ∧
    ∃ g, guess b r strength capAngle nt np = some g ∧ 0 < g 2 ∧ ∀ m : V3, m 0 = 0 → m 1 = 0 → m 2 < 0 → dot g m < 0 := by
  constructor
  · rw [CG.guess_eq, CG.guess_eq]
    have : ∀ v : V3, len (fun k => -(v k)) = len v := fun v => by simp [len]
    simp only [this]
  · obtain ⟨pts, -, h2, q, hq, -, g, hg, -, hk⟩ := C252_guess b r strength capAngle nt np hr ha hn hm
    obtain ⟨-, t, t0, t1, hz⟩ := h2 q hq
    have hpi := Real.pi_pos
    have hcos : 0 < Real.cos (t * Real.pi / 180) := by
      apply Real.cos_pos_of_mem_Ioo
      constructor
      · have : 0 ≤ t * Real.pi / 180 := by positivity
        linarith
      · have : t * Real.pi < 90 * Real.pi := mul_lt_mul_of_pos_right (lt_of_lt_of_le t1 ha') hpi
        linarith
    have hg2 : 0 < g 2 := by
      have h := hk 2
      rw [hz] at h
      have : 0 < r * g 2 := by rw [h]; positivity
      exact (mul_pos_iff_of_pos_left hr).1 this
    refine ⟨g, hg, hg2, fun m m0 m1 m2 => ?_⟩
    simp only [dot, m0, m1]
    nlinarith

example : (0 : ℝ) < 2 ∧ (0 : ℝ) < 40 ∧ (40 : ℝ) ≤ 90 ∧ 0 < 121 ∧ dot ![0, 0, 1] ![0, 0, 1] = 1 ∧ Clear ![0, 0, 1] :=
  ⟨by norm_num, by norm_num, by norm_num, by norm_num, by simp [dot], CG.clear_ez⟩

end Viscid.Props
