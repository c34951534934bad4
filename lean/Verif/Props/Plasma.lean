import Verif.Model.Plasma
import Verif.Spec.Plasma
import Verif.Model.Basic
import Mathlib.Tactic.Linarith
import Mathlib.Tactic.Ring
import Mathlib.Tactic.LinearCombination
import Mathlib.Tactic.FieldSimp
/-!
# C127 flux functions, C128 plasma beta
-/
namespace Viscid.Props
open Viscid.Plasma Viscid.Spec.Plasma

variable {K : Type} [Field K]

theorem fwd_along1 (n0 n1 : Nat) (y z : Nat → K) (hy hz : Nat → Nat → K) : Along1 n0 n1 z hy (fwd y z hy hz) := by
  intro i j _ _
  rw [fwd]
  ring

theorem fwd_along0 (n0 n1 : Nat) (y z : Nat → K) (hy hz : Nat → Nat → K) (h : Solenoidal n0 n1 y z hy hz) :
    Along0 n0 n1 y hz (fwd y z hy hz) := by
  intro i j hi
  induction j with
  | zero =>
    intro _
    simp only [fwd, fwdEdge]
    ring
  | succ j ih =>
    intro hj
    have h1 := ih (by omega)
    have h2 := h i j hi hj
    simp only [fwd]
    linear_combination h1 - h2

theorem rev_along1 (n0 n1 : Nat) (y z : Nat → K) (hy hz : Nat → Nat → K) : Along1 n0 n1 z hy (integrate true n0 n1 y z hy hz) := by
  intro i j _ hj
  simp only [integrate, if_true]
  rw [show n1 - 1 - j = (n1 - 1 - (j + 1)) + 1 by omega, revGo]
  rw [show n1 - 1 - (n1 - 1 - (j + 1)) = j + 1 by omega, show n1 - 2 - (n1 - 1 - (j + 1)) = j by omega]
  ring

theorem rev_along0 (n0 n1 : Nat) (y z : Nat → K) (hy hz : Nat → Nat → K) (h : Solenoidal n0 n1 y z hy hz) :
    Along0 n0 n1 y hz (integrate true n0 n1 y z hy hz) := by
  intro i j hi hj
  obtain ⟨l, hl⟩ : ∃ l, l = n1 - 1 - j := ⟨_, rfl⟩
  induction l generalizing j with
  | zero =>
    simp only [integrate, if_true]
    rw [show n1 - 1 - j = 0 by omega, revGo, revGo]
    rw [show n0 - 1 - i = (n0 - 1 - (i + 1)) + 1 by omega, revEdge]
    rw [show n0 - 1 - (n0 - 1 - (i + 1)) = i + 1 by omega, show n0 - 2 - (n0 - 1 - (i + 1)) = i by omega,
      show n1 - 1 = j by omega]
    ring
  | succ l ih =>
    have h1 := ih (j + 1) (by omega) (by omega)
    have h2 := h i j hi (by omega)
    have a1 := rev_along1 n0 n1 y z hy hz i j (by omega) (by omega)
    have a2 := rev_along1 n0 n1 y z hy hz (i + 1) j (by omega) (by omega)
    linear_combination h1 + a1 - a2 + h2

/-- flux functions differ by a constant -/
theorem flux_unique (n0 n1 : Nat) (c0 c1 : Nat → K) (b0 b1 A B : Nat → Nat → K) (hA : IsFlux n0 n1 c0 c1 b0 b1 A)
    (hB : IsFlux n0 n1 c0 c1 b0 b1 B) : ∀ i j, i < n0 → j < n1 → A i j - B i j = A 0 0 - B 0 0 := by
  have edge : ∀ i, i < n0 → 0 < n1 → A i 0 - B i 0 = A 0 0 - B 0 0 := by
    intro i
    induction i with
    | zero => intros; rfl
    | succ i ih =>
      intro hi hn
      have := ih (by omega) hn
      have h1 := hA.1 i 0 hi hn
      have h2 := hB.1 i 0 hi hn
      linear_combination this + h1 - h2
  intro i j hi
  induction j with
  | zero => intro hn; exact edge i hi hn
  | succ j ih =>
    intro hj
    have := ih (by omega)
    have h1 := hA.2 i j hi hj
    have h2 := hB.2 i j hi hj
    linear_combination this + h1 - h2

/-- C127: the flux function of a field with two axes, of x, y and z, in that order: one component is its derivative along the first
    axis and the other minus that along the second, if the field is free of divergence; forward it is zero at the first point, backward
    at the last, and both are the same but for a constant. -/
theorem C127_flux_partial (f : Fld K) (h0 : f.ax0 ∈ ['x', 'y', 'z']) (h1 : f.ax1 ∈ ['x', 'y', 'z']) (hlt : f.ax0 < f.ax1)
    (hs : Solenoidal f.n0 f.n1 f.c0 f.c1 (f.b f.ax0) (f.b f.ax1)) :
    ∃ A R, calcPsi false f = .ok A ∧ calcPsi true f = .ok R ∧
      IsFlux f.n0 f.n1 f.c0 f.c1 (f.b f.ax0) (f.b f.ax1) A ∧ IsFlux f.n0 f.n1 f.c0 f.c1 (f.b f.ax0) (f.b f.ax1) R ∧
      A 0 0 = 0 ∧ R (f.n0 - 1) (f.n1 - 1) = 0 ∧
      ∃ c, ∀ i j, i < f.n0 → j < f.n1 → A i j - R i j = c := by
  have hne : f.ax0 ≠ f.ax1 := by
    intro h
    rw [h] at hlt
    exact absurd hlt (by simp)
  have e : ∀ rev, calcPsi rev f = .ok (integrate rev f.n0 f.n1 f.c0 f.c1 (f.b f.ax0) (f.b f.ax1)) := by
    intro rev
    unfold calcPsi
    rw [if_neg (by simp only [h0, h1, hne, not_true, or_self, not_false_eq_true]), if_pos hlt]
  have fA : IsFlux f.n0 f.n1 f.c0 f.c1 (f.b f.ax0) (f.b f.ax1) (integrate false f.n0 f.n1 f.c0 f.c1 (f.b f.ax0) (f.b f.ax1)) :=
    ⟨fwd_along0 _ _ _ _ _ _ hs, fwd_along1 _ _ _ _ _ _⟩
  have fR : IsFlux f.n0 f.n1 f.c0 f.c1 (f.b f.ax0) (f.b f.ax1) (integrate true f.n0 f.n1 f.c0 f.c1 (f.b f.ax0) (f.b f.ax1)) :=
    ⟨rev_along0 _ _ _ _ _ _ hs, rev_along1 _ _ _ _ _ _⟩
  refine ⟨_, _, e false, e true, fA, fR, rfl, ?_, _, flux_unique _ _ _ _ _ _ _ _ fA fR⟩
  simp [integrate, revGo, revEdge]

/-- C127: without that, still along the second axis -/
theorem C127_second_partial (f : Fld K) (rev : Bool) (h0 : f.ax0 ∈ ['x', 'y', 'z']) (h1 : f.ax1 ∈ ['x', 'y', 'z'])
    (hlt : f.ax0 < f.ax1) : ∃ A, calcPsi rev f = .ok A ∧ Along1 f.n0 f.n1 f.c1 (f.b f.ax0) A := by
  have hne : f.ax0 ≠ f.ax1 := by
    intro h
    rw [h] at hlt
    exact absurd hlt (by simp)
  refine ⟨integrate rev f.n0 f.n1 f.c0 f.c1 (f.b f.ax0) (f.b f.ax1), ?_, ?_⟩
  · unfold calcPsi
    rw [if_neg (by simp only [h0, h1, hne, not_true, or_self, not_false_eq_true]), if_pos hlt]
  · cases rev with
    | false => exact fwd_along1 _ _ _ _ _ _
    | true => exact rev_along1 _ _ _ _ _ _

/-- a field whose y component is z and whose z component is y -/
def exFld (a b : Char) : Fld ℚ where
  ax0 := a
  ax1 := b
  n0 := 3
  n1 := 3
  c0 := fun i => i
  c1 := fun i => i
  b := fun c i j => if c = a then 2 * j else 3 * i

example : (exFld 'y' 'z').ax0 < (exFld 'y' 'z').ax1 ∧
    Solenoidal 3 3 (exFld 'y' 'z').c0 (exFld 'y' 'z').c1 ((exFld 'y' 'z').b 'y') ((exFld 'y' 'z').b 'z') := by
  refine ⟨by decide, ?_⟩
  intro i j _ _
  simp only [exFld, if_true, Char.reduceEq, if_false]
  ring

/-- C127 fails if the axes are in another order: the same field, with z before y, has a result that is no flux function although it is
    free of divergence. -/
theorem C127_order_violated : ∃ f : Fld ℚ, f.ax0 = 'z' ∧ f.ax1 = 'y' ∧
    Solenoidal f.n0 f.n1 f.c0 f.c1 (f.b f.ax0) (f.b f.ax1) ∧
    ∃ A, calcPsi false f = .ok A ∧ ¬ IsFlux f.n0 f.n1 f.c0 f.c1 (f.b f.ax0) (f.b f.ax1) A ∧
      ¬ IsFlux f.n0 f.n1 f.c0 f.c1 (f.b f.ax0) (f.b f.ax1) fun i j => -A i j := by
  refine ⟨exFld 'z' 'y', rfl, rfl, ?_, _, rfl, ?_, ?_⟩
  · intro i j _ _
    simp only [exFld, if_true, Char.reduceEq, if_false]
    ring
  · intro h
    have := h.2 0 0 (by decide) (by decide)
    have hyz : ('y' : Char) ≠ 'z' := by decide
    norm_num [integrate, fwd, fwdEdge, exFld, hyz] at this
  · intro h
    have := h.2 0 0 (by decide) (by decide)
    have hyz : ('y' : Char) ≠ 'z' := by decide
    norm_num [integrate, fwd, fwdEdge, exFld, hyz] at this

/-- C127 fails for fields with a third axis of more than one point, which are documented to be cut: IndexError. With two, they are left. -/
theorem C127_third_violated (sh : List (Char × Nat)) :
    ((sh.filter fun a => a.2 ≠ 1).length = 2 → axesOf sh = .ok ((sh.filter fun a => a.2 ≠ 1).map (·.1))) ∧
    (3 ≤ (sh.filter fun a => a.2 ≠ 1).length → axesOf sh = .error .index) ∧
    ((sh.filter fun a => a.2 ≠ 1).length < 2 → axesOf sh = .error .value) := by
  refine ⟨?_, ?_, ?_⟩ <;> intro h <;> unfold axesOf <;> simp only
  · rw [if_neg (by omega), if_neg (by omega)]
  · rw [if_pos (by omega)]
  · rw [if_neg (by omega), if_pos (by omega)]

example : axesOf [('x', 5), ('y', 1), ('z', 4)] = .ok ['x', 'z'] ∧ axesOf [('x', 5), ('y', 2), ('z', 4)] = .error .index := by decide

/-! ### C128 -/

/-- C128: the plasma beta is as documented where the magnitude of the field is one (or nothing is under it) -/
theorem C128_beta_partial (scale p bx b_y bz : ℝ) (h : bx ^ 2 + b_y ^ 2 + bz ^ 2 = 1 ∨ scale * p = 0) :
    calcBeta scale p bx b_y bz = scale * beta p bx b_y bz := by
  unfold calcBeta beta
  rcases h with h | h
  · rw [h, Real.sqrt_one]; ring
  · rcases mul_eq_zero.mp h with rfl | rfl <;> simp

/-- C128: in general it is the beta times the magnitude of the field, -/
theorem C128_magnitude_partial (scale p bx b_y bz : ℝ) (h : 0 < bx ^ 2 + b_y ^ 2 + bz ^ 2) :
    calcBeta scale p bx b_y bz = scale * beta p bx b_y bz * Real.sqrt (bx ^ 2 + b_y ^ 2 + bz ^ 2) := by
  unfold calcBeta beta
  have hs : Real.sqrt (bx ^ 2 + b_y ^ 2 + bz ^ 2) ≠ 0 := (Real.sqrt_pos.mpr h).ne'
  have hq := Real.mul_self_sqrt h.le
  generalize Real.sqrt (bx ^ 2 + b_y ^ 2 + bz ^ 2) = s at hs hq
  rw [← hq]
  field_simp

/-- C128: so that it is wrong wherever there is pressure and the magnitude is neither zero nor one -/
theorem C128_beta_violated (scale p bx b_y bz : ℝ) (h : 0 < bx ^ 2 + b_y ^ 2 + bz ^ 2) (h1 : bx ^ 2 + b_y ^ 2 + bz ^ 2 ≠ 1)
    (hs : scale ≠ 0) (hp : p ≠ 0) : calcBeta scale p bx b_y bz ≠ scale * beta p bx b_y bz := by
  rw [C128_magnitude_partial scale p bx b_y bz h]
  intro hc
  have hb : scale * beta p bx b_y bz ≠ 0 := by
    unfold beta
    have := h.ne'
    positivity
  have : Real.sqrt (bx ^ 2 + b_y ^ 2 + bz ^ 2) = 1 := mul_left_cancel₀ hb (by rw [hc, mul_one])
  rw [Real.sqrt_eq_one] at this
  exact h1 this

example : calcBeta 40 3 0 5 0 = 48 ∧ 40 * beta 3 0 5 0 = 9.6 := by
  constructor
  · unfold calcBeta
    rw [show (0 : ℝ) ^ 2 + 5 ^ 2 + 0 ^ 2 = 5 ^ 2 by norm_num, Real.sqrt_sq (by norm_num)]
    norm_num
  · norm_num [beta]

end Viscid.Props
