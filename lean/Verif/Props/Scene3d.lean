import Verif.Model.Scene3d
import Verif.Spec.Scene3d
import Verif.Spec.Earth
import Verif.Props.Sphere
import Mathlib.Analysis.Real.Pi.Bounds
/-!
# C248: nulls, the earth and ionospheric fields in 3D scenes
-/
namespace Viscid.Props
open Viscid.Scene3d Viscid.Spec.Scene3d Viscid.Spec.Earth
open Viscid.Rotation Viscid.Seed

/-- C248: O and B nulls are drawn once, all of them in their colour, if there are some and they have a colour; an array of points is drawn as O nulls. -/
theorem C248_nulls_partial (n : Nulls) (ac bc oc : Option Color) :
    (∀ c, c ∈ plotNulls n ac bc oc ∧ c.name = "Onulls" ↔ c = ⟨"Onulls", oc, (match n with | .dict o _ _ => o | .array p => p)⟩ ∧ oc ≠ none ∧ c.pts ≠ []) ∧
    (∀ c, c ∈ plotNulls n ac bc oc ∧ c.name = "Bnulls" ↔ c = ⟨"Bnulls", bc, (match n with | .dict _ _ b => b | .array _ => [])⟩ ∧ bc ≠ none ∧ c.pts ≠ []) := by
  have hs : ∀ c : Option Color, c.isSome = true ↔ c ≠ none := fun c => by cases c <;> simp
  have hl : ∀ p : Pts, (p.length != 0) = true ↔ p ≠ [] := fun p => by cases p <;> simp
  have key : ∀ o a b : Pts,
      (∀ c, c ∈ plotNulls (.dict o a b) ac bc oc ∧ c.name = "Onulls" ↔ c = ⟨"Onulls", oc, o⟩ ∧ oc ≠ none ∧ c.pts ≠ []) ∧
      (∀ c, c ∈ plotNulls (.dict o a b) ac bc oc ∧ c.name = "Bnulls" ↔ c = ⟨"Bnulls", bc, b⟩ ∧ bc ≠ none ∧ c.pts ≠ []) := by
    intro o a b
    have m1 : ∀ (c x : Call) (p : Prop) [Decidable p], (c ∈ if p then [x] else []) ↔ p ∧ c = x := by
      intro c x p _
      split <;> simp_all
    constructor <;> intro c <;> simp only [plotNulls, Nulls.parts, List.mem_append, m1, Bool.and_eq_true, hs, hl]
    · constructor
      · rintro ⟨(⟨h, rfl⟩ | ⟨h, rfl⟩) | ⟨h, rfl⟩, hn⟩
        · exact ⟨rfl, h.1, h.2⟩
        · exact absurd hn (by simp)
        · exact absurd hn (by simp)
      · rintro ⟨rfl, h1, h2⟩
        exact ⟨.inl (.inl ⟨⟨h1, h2⟩, rfl⟩), rfl⟩
    · constructor
      · rintro ⟨(⟨h, rfl⟩ | ⟨h, rfl⟩) | ⟨h, rfl⟩, hn⟩
        · exact absurd hn (by simp)
        · exact absurd hn (by simp)
        · exact ⟨rfl, h.1, h.2⟩
      · rintro ⟨rfl, h1, h2⟩
        exact ⟨.inr ⟨⟨h1, h2⟩, rfl⟩, rfl⟩
  cases n with
  | dict o a b => exact key o a b
  | array p => exact key p [] []

/-- C248 is violated: A nulls are drawn exactly if the O nulls are: without O nulls, or a colour for them, never, however many there are;
and with them even if no colour is given for A, or there is none. -/
theorem C248_a_nulls_violated (o a b : Pts) (ac bc oc : Option Color) :
    (∃ c ∈ plotNulls (.dict o a b) ac bc oc, c.name = "Anulls") ↔ oc ≠ none ∧ o ≠ [] := by
  have hs : ∀ c : Option Color, c.isSome = true ↔ c ≠ none := fun c => by cases c <;> simp
  have hl : ∀ p : Pts, (p.length != 0) = true ↔ p ≠ [] := fun p => by cases p <;> simp
  have m1 : ∀ (c x : Call) (p : Prop) [Decidable p], (c ∈ if p then [x] else []) ↔ p ∧ c = x := by
    intro c x p _
    split <;> simp_all
  constructor
  · rintro ⟨c, hc, hn⟩
    simp only [plotNulls, Nulls.parts, List.mem_append, m1, Bool.and_eq_true, hs, hl] at hc
    rcases hc with (⟨h, rfl⟩ | ⟨h, rfl⟩) | ⟨h, rfl⟩
    · exact absurd hn (by simp)
    · exact h
    · exact absurd hn (by simp)
  · intro h
    refine ⟨⟨"Anulls", ac, a⟩, ?_, rfl⟩
    simp only [plotNulls, Nulls.parts, List.mem_append, m1, Bool.and_eq_true, hs, hl]
    exact .inl (.inr ⟨h, trivial⟩)

/-- C248: no point of the night side is toward the sun, no point of the day side is away from it, in the system of the simulation and any other, for which GSE is taken. -/
theorem C248_earth (sys : String) (r t a : ℝ) (hr : 0 ≤ r) (ht : 0 ≤ t ∧ t ≤ 180) :
    ((night sys r).start ≤ a ∧ a ≤ (night sys r).stop' → ¬ sunward (decide (sys ≠ "mhd")) ((night sys r).point t a 0)) ∧
    (∀ d, day sys r false = some d → d.start ≤ a ∧ a ≤ d.stop' → ¬ sunward (decide (sys = "mhd")) (d.point t a 0)) := by
  have hpi := Real.pi_pos
  have hs : 0 ≤ r * Real.sin (t * Real.pi / 180) := mul_nonneg hr (Real.sin_nonneg_of_nonneg_of_le_pi (by nlinarith) (by nlinarith))
  have hneg : 90 ≤ a → a ≤ 270 → Real.cos (a * Real.pi / 180) ≤ 0 := fun h1 h2 =>
    Real.cos_nonpos_of_pi_div_two_le_of_le (by nlinarith) (by nlinarith)
  have hpos : 270 ≤ a → a ≤ 450 → 0 ≤ Real.cos (a * Real.pi / 180) := fun h1 h2 => by
    have e : a * Real.pi / 180 = (a - 360) * Real.pi / 180 + 2 * Real.pi := by ring
    rw [e, Real.cos_add_two_pi]
    exact Real.cos_nonneg_of_neg_pi_div_two_le_of_le (by nlinarith) (by nlinarith)
  have hm1 := fun h1 h2 => mul_nonpos_of_nonneg_of_nonpos hs (hneg h1 h2)
  have hm2 := fun h1 h2 => mul_nonneg hs (hpos h1 h2)
  by_cases hsys : sys = "mhd"
  · subst hsys
    constructor
    · rintro ⟨h1, h2⟩
      norm_num [night, duskDawn, Part.stop', Part.point, sunward] at h1 h2 ⊢
      exact hm2 h1 h2
    · rintro d hd ⟨h1, h2⟩
      simp only [day, Bool.false_eq_true, if_false, Option.some.injEq] at hd
      subst hd
      norm_num [duskDawn, Part.stop', Part.point, sunward] at h1 h2 ⊢
      exact hm1 h1 h2
  · have hdd : duskDawn sys = (90, 270) := by unfold duskDawn; rw [if_neg hsys]; split <;> rfl
    constructor
    · rintro ⟨h1, h2⟩
      norm_num [night, hdd, Part.stop', Part.point, sunward, hsys] at h1 h2 ⊢
      exact hm1 h1 h2
    · rintro d hd ⟨h1, h2⟩
      simp only [day, Bool.false_eq_true, if_false, Option.some.injEq] at hd
      subst hd
      norm_num [hdd, Part.stop', Part.point, sunward, hsys] at h1 h2 ⊢
      exact hm2 h1 h2

/-- C248: both parts together are the whole turn, of the same radius; only the night side is drawn if so asked. -/
theorem C248_earth_whole (sys : String) (r : ℝ) :
    ∃ d, day sys r false = some d ∧ d.radius = r ∧ (night sys r).radius = r ∧ ((night sys r).stop' - (night sys r).start) + (d.stop' - d.start) = 360 ∧
      d.start = (night sys r).stop ∧ d.stop = (night sys r).start ∧ day sys r true = none := by
  refine ⟨_, rfl, rfl, rfl, ?_, rfl, rfl, rfl⟩
  by_cases hsys : sys = "mhd"
  · subst hsys; norm_num [night, duskDawn, Part.stop']
  · have hdd : duskDawn sys = (90, 270) := by unfold duskDawn; rw [if_neg hsys]; split <;> rfl
    norm_num [night, hdd, Part.stop']

/-- C248, full statement: `plot_ionosphere` puts each value at its own angles. Proved for fields of values at nodes at equal distances that reach
neither a pole nor once around; missing: those that do, see below. -/
theorem C248_iono_partial (radius phil phih thetal thetah : ℝ) (nphi ntheta k j : ℕ) (s : Sphere) (h : ionoSphere radius phil phih thetal thetah nphi ntheta = some s)
    (hk : k < nphi) (hj : j < ntheta) (h0 : includesPole (thetal * Real.pi / 180) = false) (h1 : includesPole (thetah * Real.pi / 180) = false) (hp : s.spansPhi = false) :
    ionoPlace s k j = some (node thetal thetah ntheta j * Real.pi / 180, node phil phih nphi k * Real.pi / 180) := by
  unfold ionoSphere sphereInit at h
  simp only [if_true] at h
  split at h
  · cases h
  · cases h
    have e1 := thetaAxis_get (thetal * Real.pi / 180) (thetah * Real.pi / 180) ntheta (true, true) j hj
    have e2 := linspace_get (phil * Real.pi / 180) (phih * Real.pi / 180) nphi true k hk
    unfold ionoPlace Sphere.thetas Sphere.phiAxis Sphere.endpoints
    simp only [h0, h1, hp, Bool.not_false, e1, e2, Option.bind_some, Option.map_some, Option.some.injEq, Prod.mk.injEq, frac, Bool.and_self, if_true, node]
    constructor <;> ring

/-- C248 is violated: of a field from pole to pole and once around, both ends included, as the ionospheric fields of OpenGGCM are, no value is at its colatitude
but those in the middle, and none at its longitude but the first. -/
theorem C248_iono_violated (radius : ℝ) (nphi ntheta k j : ℕ) (hp : 2 ≤ nphi) (ht : 2 ≤ ntheta) (hk : k < nphi) (hj : j < ntheta) :
    ∃ s t p, ionoSphere radius 0 360 0 180 nphi ntheta = some s ∧ ionoPlace s k j = some (t, p) ∧
      (t = node 0 180 ntheta j * Real.pi / 180 ↔ 2 * j + 1 = ntheta) ∧ (p = node 0 360 nphi k * Real.pi / 180 ↔ k = 0) := by
  have hpi := Real.pi_pos
  have hlen : len ![0, 0, 1] ≠ 0 := by rw [ez_len]; norm_num
  have hc : ∀ x : ℝ, isClose x x := by intro x; unfold isClose; rw [sub_self, abs_zero]; positivity
  have z0 : includesPole (0 * Real.pi / 180) = true := by
    simp only [includesPole, decide_eq_true_eq]; left; norm_num; exact hc 0
  have z1 : includesPole (180 * Real.pi / 180) = true := by
    simp only [includesPole, decide_eq_true_eq]; right
    have : 180 * Real.pi / 180 = Real.pi := by ring
    rw [this]; exact hc _
  have zp : isClose (360 * Real.pi / 180 - 0 * Real.pi / 180) (2 * Real.pi) := by
    have : 360 * Real.pi / 180 - 0 * Real.pi / 180 = 2 * Real.pi := by ring
    rw [this]; exact hc _
  have e1 := thetaAxis_get (0 * Real.pi / 180) (180 * Real.pi / 180) ntheta (false, false) j hj
  have e2 := linspace_get (0 * Real.pi / 180) (360 * Real.pi / 180) nphi false k hk
  have hn1 : (0 : ℝ) < (ntheta : ℝ) - 1 := by have : (2 : ℝ) ≤ ntheta := by exact_mod_cast ht
                                              linarith
  have hn2 : (0 : ℝ) < (nphi : ℝ) - 1 := by have : (2 : ℝ) ≤ nphi := by exact_mod_cast hp
                                            linarith
  have hn3 : (0 : ℝ) < ntheta := by linarith
  have hn4 : (0 : ℝ) < nphi := by linarith
  have hs : ionoSphere radius 0 360 0 180 nphi ntheta = some ⟨![0, 0, 0], if radius = 0 then len ![0, 0, 1] else radius, unit ![0, 0, 1], ntheta, nphi,
      0 * Real.pi / 180, 180 * Real.pi / 180, 0 * Real.pi / 180, 360 * Real.pi / 180, 0⟩ := by
    unfold ionoSphere sphereInit; simp only [if_true]; rw [if_neg hlen]
  refine ⟨_, 0 * Real.pi / 180 + frac (false, false) ntheta j * (180 * Real.pi / 180 - 0 * Real.pi / 180),
    0 * Real.pi / 180 + k * ((360 * Real.pi / 180 - 0 * Real.pi / 180) / nphi), hs, ?_, ?_, ?_⟩
  · unfold ionoPlace Sphere.thetas Sphere.phiAxis Sphere.endpoints Sphere.spansPhi
    simp only [z0, z1, zp, decide_true, Bool.not_true, e1, e2, Option.bind_some, Option.map_some, Bool.false_eq_true, if_false]
  · simp only [frac, Bool.and_self, Bool.false_eq_true, if_false, node]
    rw [show (2 * j + 1 = ntheta ↔ 2 * (j : ℝ) + 1 = ntheta) from ⟨fun h => by exact_mod_cast h, fun h => by exact_mod_cast h⟩]
    constructor
    · intro h
      have h2 : ((j : ℝ) + 1 / 2) / ntheta = j / ((ntheta : ℝ) - 1) := by
        have : Real.pi * (((j : ℝ) + 1 / 2) / ntheta) = Real.pi * (j / ((ntheta : ℝ) - 1)) := by linarith
        exact mul_left_cancel₀ hpi.ne' this
      rw [div_eq_div_iff hn3.ne' hn1.ne'] at h2
      linarith
    · intro h
      have h2 : ((j : ℝ) + 1 / 2) / ntheta = j / ((ntheta : ℝ) - 1) := by
        rw [div_eq_div_iff hn3.ne' hn1.ne']; linarith
      rw [h2]; ring
  · simp only [node]
    rw [show (k = 0 ↔ (k : ℝ) = 0) from ⟨fun h => by exact_mod_cast h, fun h => by exact_mod_cast h⟩]
    constructor
    · intro h
      have h2 : (k : ℝ) / nphi = k / ((nphi : ℝ) - 1) := by
        have : Real.pi * ((k : ℝ) / nphi) = Real.pi * (k / ((nphi : ℝ) - 1)) := by
          have e : (k : ℝ) * ((360 * Real.pi / 180 - 0 * Real.pi / 180) / nphi) = 2 * (Real.pi * (k / nphi)) := by ring
          linarith
        exact mul_left_cancel₀ hpi.ne' this
      rw [div_eq_div_iff hn4.ne' hn2.ne'] at h2
      linarith
    · intro h
      rw [h]; ring

/-- The hypotheses of C248 are met by a field from 60 to 80 degrees of colatitude, over 90 of longitude. -/
example : ∃ s, ionoSphere 1.063 0 90 60 80 5 7 = some s ∧ includesPole (60 * Real.pi / 180) = false ∧ includesPole (80 * Real.pi / 180) = false ∧ s.spansPhi = false := by
  have hpi := Real.pi_gt_three
  have hlen : len ![0, 0, 1] ≠ 0 := by rw [ez_len]; norm_num
  have hpole : ∀ t : ℝ, 60 ≤ t → t ≤ 80 → includesPole (t * Real.pi / 180) = false := by
    intro t h1 h2
    simp only [includesPole, decide_eq_false_iff_not, not_or]
    unfold isClose
    have b1 : 1 ≤ t * Real.pi / 180 := by nlinarith
    have b2 : t * Real.pi / 180 ≤ Real.pi / 2 := by nlinarith
    constructor
    · rw [sub_zero, abs_of_pos (by linarith), abs_zero]; norm_num; linarith
    · rw [abs_of_neg (by linarith), abs_of_pos (by linarith)]
      norm_num; linarith
  have hs : ionoSphere 1.063 0 90 60 80 5 7 = some ⟨![0, 0, 0], if (1.063 : ℝ) = 0 then len ![0, 0, 1] else 1.063, unit ![0, 0, 1], 7, 5,
      60 * Real.pi / 180, 80 * Real.pi / 180, 0 * Real.pi / 180, 90 * Real.pi / 180, 0⟩ := by
    unfold ionoSphere sphereInit; simp only [if_true]; rw [if_neg hlen]
  refine ⟨_, hs, hpole 60 (by norm_num) (by norm_num), hpole 80 (by norm_num) (by norm_num), ?_⟩
  simp only [Sphere.spansPhi, decide_eq_false_iff_not]
  unfold isClose
  rw [abs_of_neg (by linarith), abs_of_pos (by linarith)]
  norm_num; linarith

end Viscid.Props
