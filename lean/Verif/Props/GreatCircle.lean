import Verif.Model.GreatCircle
import Verif.Props.AxisAngle
/-!
# C71: great circles
-/
namespace Viscid.Props
open Matrix Viscid.Rotation Viscid.Spec.Rotation Viscid.GreatCircle

theorem rot_ey {R : M3} (h : IsRot R) : R *ᵥ ey = cross (R *ᵥ ez) (R *ᵥ ex) := by
  rw [← IsRot_cross h]
  congr 1
  apply ext3 <;> simp [cross, ex, ey, ez]

theorem rot_expand (R : M3) (x y : ℝ) : R *ᵥ ![x, y, 0] = fun i => x * (R *ᵥ ex) i + y * (R *ᵥ ey) i := by
  apply ext3 <;> simp [mulVec3, ex, ey] <;> ring

theorem arctan2_len {p q : V3} (hp : len p ≠ 0) (hq : len q ≠ 0) :
    len p * len q * Real.cos (arctan2 (len (cross p q)) (dot p q)) = dot p q ∧
    len p * len q * Real.sin (arctan2 (len (cross p q)) (dot p q)) = len (cross p q) := by
  have hn : ‖(⟨dot p q, len (cross p q)⟩ : ℂ)‖ = len p * len q := by
    rw [Complex.norm_def, Complex.normSq_mk]
    rw [show dot p q * dot p q + len (cross p q) * len (cross p q) = (len p * len q) ^ 2 by
      rw [mul_pow, len_sq p, len_sq q, ← sq (len _), len_sq]
      unfold dot; simp only [cross, Matrix.cons_val]; ring]
    exact Real.sqrt_sq (mul_nonneg (len_nonneg _) (len_nonneg _))
  have hz : (⟨dot p q, len (cross p q)⟩ : ℂ) ≠ 0 := by
    intro e; rw [e] at hn; simp at hn; rcases hn with h | h
    · exact hp h
    · exact hq h
  unfold arctan2
  constructor
  · rw [Complex.cos_arg hz, hn]; field_simp
  · rw [Complex.sin_arg, hn]; field_simp

/-- C71: away from the degenerate cases, point `i` of `n` is at the distance interpolated linearly between
those of the two points, at the angle from the first point that is the same fraction of the whole angle, in the
plane of the two points and on the side of the second.  Missing from the full statement: collinear points, and
points for which the unrolled rotation takes x opposite to the first point (`C71_opposite_violated`,
`C71_collinear_violated`). -/
theorem C71_path_partial (p1 p2 o : V3) (n i : ℕ)
    (hc : 1 / 10 ^ 8 < len (cross (vsub p1 o) (vsub p2 o))) (h1 : 1 / 10 ^ 8 < len (vsub p1 o))
    (hz : len (cross ez (unit (cross (vsub p1 o) (vsub p2 o)))) = 0 ∨
      1 / 10 ^ 8 < len (cross ez (unit (cross (vsub p1 o) (vsub p2 o)))))
    (hopp : ∀ R, a2bRot ez (cross (vsub p1 o) (vsub p2 o)) 0 = some R → R *ᵥ ex ≠ vsmul (-1) (unit (vsub p1 o))) :
    let p := vsub p1 o
    let q := vsub p2 o
    let f : ℝ := i / (n - 1 : ℕ)
    let r := len p + (len q - len p) * f
    let φ := arctan2 (len (cross p q)) (dot p q) * f
    greatCircle p1 p2 o n i = some fun j =>
      o j + r * (Real.cos φ * unit p j + Real.sin φ * cross (unit (cross p q)) (unit p) j) := by
  dsimp only
  unfold greatCircle
  generalize vsub p1 o = p at *
  generalize vsub p2 o = q at *
  have hpole : poleOf p q = cross p q := by
    unfold poleOf; rw [if_neg]; rw [isClose_zero (len_nonneg _)]; linarith
  have hl : len (cross p q) ≠ 0 := by linarith
  have lz : len ez ≠ 0 := by rw [len_eq_one ez_unit]; exact one_ne_zero
  have hperp : dot p (unit (cross p q)) = 0 := by
    have : dot (unit (cross p q)) p = 0 := unit_perp (by simp [dot, cross]; ring)
    unfold dot at *; linarith
  have hproj : vsub p (vsmul (dot p (unit (cross p q))) (unit (cross p q))) = p := by
    rw [hperp]; ext j; simp [vsub, vsmul]
  obtain ⟨R, e, hR, hRz, hx⟩ := C70_new_x_partial ez (cross p q) p lz hl rfl
    (by rw [unit_of_dot ez_unit]; exact hz) (by rw [hproj]; exact h1)
  rw [hproj] at hx
  have hx : R *ᵥ ex = unit p := by
    rcases hx with h | ⟨h, h'⟩
    · exact h
    · exact absurd h' (hopp R h)
  unfold path
  rw [hpole, show (![0, 0, 1] : V3) = ez from rfl, e]
  simp only [Option.map_some, Option.some.injEq]
  have hs : ∀ r φ : ℝ, sph2cart r (Real.pi / 2) φ = ![r * Real.cos φ, r * Real.sin φ, 0] := by
    intro r φ; unfold sph2cart; rw [Real.sin_pi_div_two, Real.cos_pi_div_two, mul_one, mul_zero]
  rw [hs, rot_expand, rot_ey hR, hx, ← unit_of_dot ez_unit, hRz]
  ext j
  unfold linspace
  rw [zero_add, sub_zero]
  ring

theorem path_hyp_z : len (cross ez (unit (cross (vsub ex 0) (vsub ey 0)))) = 0 := by
  have h : cross (vsub ex 0) (vsub ey 0) = ez := by apply ext3 <;> simp [cross, vsub, ex, ey, ez]
  rw [h, unit_of_dot ez_unit]; simp [len, cross, ez]

/-- C71: in particular the path starts at the first point and ends at the second. -/
theorem C71_ends_partial (p1 p2 o : V3) (n : ℕ) (hn : 2 ≤ n)
    (hc : 1 / 10 ^ 8 < len (cross (vsub p1 o) (vsub p2 o))) (h1 : 1 / 10 ^ 8 < len (vsub p1 o))
    (hz : len (cross ez (unit (cross (vsub p1 o) (vsub p2 o)))) = 0 ∨
      1 / 10 ^ 8 < len (cross ez (unit (cross (vsub p1 o) (vsub p2 o)))))
    (hopp : ∀ R, a2bRot ez (cross (vsub p1 o) (vsub p2 o)) 0 = some R → R *ᵥ ex ≠ vsmul (-1) (unit (vsub p1 o))) :
    greatCircle p1 p2 o n 0 = some p1 ∧ greatCircle p1 p2 o n (n - 1) = some p2 := by
  have h0 := C71_path_partial p1 p2 o n 0 hc h1 hz hopp
  have hl := C71_path_partial p1 p2 o n (n - 1) hc h1 hz hopp
  dsimp only at h0 hl
  have lp : len (vsub p1 o) ≠ 0 := by linarith
  have lc : len (cross (vsub p1 o) (vsub p2 o)) ≠ 0 := by linarith
  have lq : len (vsub p2 o) ≠ 0 := by
    intro h
    obtain ⟨a, b, c⟩ := eq_zero_of_len h
    apply lc
    unfold len; simp only [cross, Matrix.cons_val]; rw [a, b, c]; simp
  have hf : ((n - 1 : ℕ) : ℝ) / ((n - 1 : ℕ) : ℝ) = 1 := by
    apply div_self
    have : 0 < n - 1 := by omega
    positivity
  constructor
  · rw [h0]
    congr 1
    ext j
    simp only [Nat.cast_zero, zero_div, mul_zero, add_zero, Real.cos_zero, Real.sin_zero, zero_mul, one_mul, unit]
    rw [mul_div_cancel₀ _ lp]
    simp [vsub]
  · rw [hl, hf]
    congr 1
    obtain ⟨a1, a2⟩ := arctan2_len lp lq
    rw [mul_one, mul_one]
    have hp2 (j : Fin 3) : p2 j = o j + vsub p2 o j := by simp [vsub]
    ext j
    rw [hp2 j]
    generalize vsub p1 o = p at *
    generalize vsub p2 o = q at *
    generalize arctan2 (len (cross p q)) (dot p q) = φ at *
    have hsq := len_sq p
    have lag (j : Fin 3) : dot p q * p j + cross (cross p q) p j = len p ^ 2 * q j := by
      rw [hsq]
      match j with
      | 0 => simp only [dot, cross, Matrix.cons_val]; ring
      | 1 => simp only [dot, cross, Matrix.cons_val]; ring
      | 2 => simp only [dot, cross, Matrix.cons_val]; ring
    have hcr : cross (unit (cross p q)) (unit p) j = cross (cross p q) p j / (len (cross p q) * len p) := by
      generalize cross p q = m at *
      match j with
      | 0 => simp only [unit, cross, Matrix.cons_val]; field_simp
      | 1 => simp only [unit, cross, Matrix.cons_val]; field_simp
      | 2 => simp only [unit, cross, Matrix.cons_val]; field_simp
    rw [hcr]
    have e1 : len q * Real.cos φ = dot p q / len p := by
      field_simp; linarith
    have e2 : len q * Real.sin φ = len (cross p q) / len p := by
      field_simp; linarith
    have : (len p + (len q - len p)) * (Real.cos φ * unit p j + Real.sin φ * (cross (cross p q) p j / (len (cross p q) * len p)))
        = (len q * Real.cos φ) * unit p j + (len q * Real.sin φ) * (cross (cross p q) p j / (len (cross p q) * len p)) := by ring
    rw [this, e1, e2]
    congr 1
    unfold unit
    field_simp
    linarith [lag j]

/-- From the x axis to the y axis, with the origin zero, meets the hypotheses. -/
example : 1 / 10 ^ 8 < len (cross (vsub ex 0) (vsub ey 0)) ∧ 1 / 10 ^ 8 < len (vsub ex 0) ∧
    (∀ R, a2bRot ez (cross (vsub ex 0) (vsub ey 0)) 0 = some R → R *ᵥ ex ≠ vsmul (-1) (unit (vsub ex 0))) := by
  have h : cross (vsub ex 0) (vsub ey 0) = ez := by apply ext3 <;> simp [cross, vsub, ex, ey, ez]
  have hx : vsub ex 0 = ex := by ext j; simp [vsub]
  have ux : dot ex ex = 1 := by simp [dot, ex]
  rw [h, hx, len_eq_one ez_unit, len_eq_one ux]
  refine ⟨by norm_num, by norm_num, ?_⟩
  intro R hR
  have lz : len ez ≠ 0 := by rw [len_eq_one ez_unit]; exact one_ne_zero
  unfold a2bRot at hR
  rw [if_neg (by push Not; exact ⟨lz, lz⟩), unit_of_dot ez_unit, a2bUnit_eq ez_unit ez_unit] at hR
  have h1 : len (cross ez ez) = 0 := by simp [len, cross, ez]
  rw [ez_unit, h1] at hR
  have hR1 : rodM 1 0 (unit (a2bAxis ez ez)) = 1 := by apply ext9 <;> simp [rodM]
  rw [hR1] at hR
  have : R = 1 := by
    simp [applyRoll] at hR; exact hR.symm
  rw [this, Matrix.one_mulVec, unit_of_dot ux]
  intro e
  have := congrFun e 0
  simp [ex, vsmul] at this
  norm_num at this

/-- C71: the path from (-1, 0, 0) to (0, -1, 0) starts at (1, 0, 0). -/
theorem C71_opposite_violated (n : ℕ) : greatCircle ![-1, 0, 0] ![0, -1, 0] 0 n 0 = some ![1, 0, 0] := by
  have h1 : vsub ![-1, 0, 0] 0 = ![-1, 0, 0] := by ext j; simp [vsub]
  have h2 : vsub ![0, -1, 0] 0 = ![0, -1, 0] := by ext j; simp [vsub]
  have hc : cross ![-1, 0, 0] ![0, -1, 0] = ez := by apply ext3 <;> simp [cross, ez]
  have hp : poleOf ![-1, 0, 0] ![0, -1, 0] = ez := by
    unfold poleOf
    rw [hc, if_neg]
    rw [isClose_zero (len_nonneg _), len_eq_one ez_unit]; norm_num
  obtain ⟨R, e, hx⟩ := C70_opposite_violated
  unfold greatCircle
  rw [h1, h2]
  unfold path
  rw [hp, show (![0, 0, 1] : V3) = ez from rfl, e]
  have hl : len ![-1, 0, 0] = 1 := len_eq_one (by simp [dot])
  have hs : sph2cart (linspace (len ![-1, 0, 0]) (len ![0, -1, 0]) n 0) (Real.pi / 2)
      (linspace 0 (arctan2 (len (cross ![-1, 0, 0] ![0, -1, 0])) (dot ![-1, 0, 0] ![0, -1, 0])) n 0) = ex := by
    unfold sph2cart linspace
    rw [hl]
    simp [ex]
  rw [hs]
  simp only [Option.map_some, hx]
  congr 1
  ext j
  simp [ex]

/-- C71: the path from (1, 1, 0) to itself does not start there: its y coordinate is zero. -/
theorem C71_collinear_violated (n i : ℕ) :
    ∃ p, greatCircle ![1, 1, 0] ![1, 1, 0] 0 n i = some p ∧ p 1 = 0 := by
  have h1 : vsub ![1, 1, 0] 0 = ![1, 1, 0] := by ext j; simp [vsub]
  have ub : dot ![0, -1, 0] ![0, -1, 0] = 1 := by simp [dot]
  have hp : poleOf ![1, 1, 0] ![1, 1, 0] = ![0, -1, 0] := by
    unfold poleOf
    rw [if_pos, if_neg]
    · have : cross ![0, -1, 0] ![1, 1, 0] = ez := by apply ext3 <;> simp [cross, ez]
      rw [this, isClose_zero (len_nonneg _), len_eq_one ez_unit]; norm_num
    · rw [isClose_zero (len_nonneg _)]; simp [len, cross]
  have lz : len ez ≠ 0 := by rw [len_eq_one ez_unit]; exact one_ne_zero
  have lb : len ![0, -1, 0] ≠ 0 := by rw [len_eq_one ub]; exact one_ne_zero
  have hcr : cross ez ![0, -1, 0] = ex := by apply ext3 <;> simp [cross, ez, ex]
  have hpr : vsub ![1, 1, 0] (vsmul (dot ![1, 1, 0] ![0, -1, 0]) ![0, -1, 0]) = ex := by
    apply ext3 <;> simp [vsub, vsmul, dot, ex]
  obtain ⟨R, e, hR, hRz, -⟩ := C70_new_x_partial ez ![0, -1, 0] ![1, 1, 0] lz lb rfl
    (by right; rw [unit_of_dot ez_unit, unit_of_dot ub, hcr, len_eq_one (by simp [dot, ex])]; norm_num)
    (by rw [unit_of_dot ub, hpr, len_eq_one (by simp [dot, ex])]; norm_num)
  unfold greatCircle
  rw [h1]
  unfold path
  rw [hp, show (![0, 0, 1] : V3) = ez from rfl, e]
  have hs : ∀ r φ : ℝ, sph2cart r (Real.pi / 2) φ = ![r * Real.cos φ, r * Real.sin φ, 0] := by
    intro r φ; unfold sph2cart; rw [Real.sin_pi_div_two, Real.cos_pi_div_two, mul_one, mul_zero]
  refine ⟨_, rfl, ?_⟩
  rw [hs]
  rw [unit_of_dot ez_unit, unit_of_dot ub] at hRz
  generalize linspace (len ![1, 1, 0]) (len ![1, 1, 0]) n i = r
  generalize linspace 0 (arctan2 (len (cross ![1, 1, 0] ![1, 1, 0])) (dot ![1, 1, 0] ![1, 1, 0])) n i = φ
  have hd := IsRot_dot hR ez ![r * Real.cos φ, r * Real.sin φ, 0]
  rw [hRz] at hd
  simp [dot, ez] at hd
  simpa using hd

end Viscid.Props
