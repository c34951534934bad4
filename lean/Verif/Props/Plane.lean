import Verif.Model.Seed
import Verif.Props.AxisAngle
/-!
# C50, C75, C80, C81: planes, lines and splines of seeds
-/
namespace Viscid.Props
open Matrix Viscid.Rotation Viscid.Seed Viscid.Spec.Rotation

theorem sqrt_dot (v : V3) : √(dot v v) = len v := by
  unfold dot len; congr 1; ring

theorem toUnit_eq {v : V3} (h : len v ≠ 0) : toUnit v = some (unit v) := by
  unfold toUnit
  have : dot v v ≠ 0 := by
    intro e
    apply h
    rw [← sqrt_dot, e, Real.sqrt_zero]
  rw [if_neg this, sqrt_dot]; rfl

theorem toUnit_zero {v : V3} (h : len v = 0) : toUnit v = none := by
  unfold toUnit
  have : dot v v = 0 := by
    have h2 := len_sq v
    rw [h] at h2
    unfold dot; nlinarith
  rw [if_pos this]

/-- The part of `l` perpendicular to the unit vector `n`. -/
theorem perp_facts {n l : V3} (hn : dot n n = 1) :
    dot n (vsub l (vsmul (dot l n) n)) = 0 ∧ cross n (vsub l (vsmul (dot l n) n)) = cross n l := by
  constructor
  · unfold dot vsub vsmul at *
    grind
  · apply ext3 <;> simp [cross, vsub, vsmul] <;> ring

theorem cross_zero_of_perp {n l : V3} (h : vsub l (vsmul (dot l n) n) = fun _ => 0) (hn : dot n n = 1) :
    cross n l = fun _ => 0 := by
  rw [← (perp_facts hn).2, h]
  apply ext3 <;> simp [cross]

theorem len_zero_iff {v : V3} : len v = 0 ↔ v = fun _ => 0 := by
  constructor
  · intro h
    obtain ⟨h0, h1, h2⟩ := eq_zero_of_len h
    exact ext3 h0 h1 h2
  · rintro rfl
    simp [len]

theorem mulVec_add' (R : M3) (a b : V3) : R *ᵥ vsub a b = vsub (R *ᵥ a) (R *ᵥ b) := by
  apply ext3 <;> simp only [mulVec3, vsub] <;> ring

/-- The directions of the arguments. -/
def dirOf (vectors : Bool) (p0 p : V3) : V3 := if vectors then p else vsub p p0

/-- **C50.** For every normal and L direction that are not parallel, given as vectors or as points: the basis is
    orthonormal and right handed, N is along the normal, L is in the half plane of N and the given L, and the
    transforms to and from local coordinates are inverse to each other. -/
theorem C50_plane (p0 pN pL : V3) (vectors : Bool) (h : cross (dirOf vectors p0 pN) (dirOf vectors p0 pL) ≠ fun _ => 0) :
    ∃ P R, Plane.init p0 pN pL vectors = .ok P ∧ P.rotation = some R ∧ IsRot R ∧
      (∃ c, 0 < c ∧ R *ᵥ ![0, 0, 1] = vsmul c (dirOf vectors p0 pN)) ∧
      (∃ a b, 0 < a ∧ R *ᵥ ![1, 0, 0] = vadd (vsmul a (dirOf vectors p0 pL)) (vsmul b (dirOf vectors p0 pN))) ∧
      (∀ v, ∃ w, P.to3d v = some w ∧ P.toLocal w = some v) ∧
      (∀ w, ∃ v, P.toLocal w = some v ∧ P.to3d v = some w) ∧
      P.to3d (fun _ => 0) = some p0 := by
  have hinit : Plane.init p0 pN pL vectors = (
    let d := planeDirs (dirOf vectors p0 pN) (dirOf vectors p0 pL)
    if allCloseZero d.2.2 then .error .runtimeError else .ok ⟨p0, d.1, d.2.1, d.2.2⟩) := rfl
  generalize dirOf vectors p0 pN = N at *
  generalize dirOf vectors p0 pL = L at *
  have hN : len N ≠ 0 := by
    intro e
    rw [len_zero_iff] at e
    apply h
    rw [e]
    apply ext3 <;> simp [cross]
  have hNp : 0 < len N := lt_of_le_of_ne (len_nonneg N) (Ne.symm hN)
  have hn := unit_dot hN
  have hcr : ∀ l, cross (unit N) l = vsmul (1 / len N) (cross N l) := by
    intro l
    apply ext3 <;> simp [cross, unit, vsmul] <;> field_simp
  set l' := vsub L (vsmul (dot L (unit N)) (unit N)) with hl'
  have hl : len l' ≠ 0 := by
    intro e
    rw [len_zero_iff] at e
    have := cross_zero_of_perp e hn
    rw [hcr] at this
    apply h
    apply ext3
    · have := congrFun this 0; simp only [vsmul] at this; field_simp at this; simpa using this
    · have := congrFun this 1; simp only [vsmul] at this; field_simp at this; simpa using this
    · have := congrFun this 2; simp only [vsmul] at this; field_simp at this; simpa using this
  have hlp : 0 < len l' := lt_of_le_of_ne (len_nonneg l') (Ne.symm hl)
  have hu := unit_dot hl
  have hnl : dot (unit N) (unit l') = 0 := by
    have := (perp_facts (l := L) hn).1
    rw [← hl'] at this
    have e : dot (unit N) (unit l') = dot (unit N) l' / len l' := by
      unfold dot; simp only [unit]; field_simp
    rw [e, this, zero_div]
  have hm : dot (cross (unit N) (unit l')) (cross (unit N) (unit l')) = 1 := by
    have := cross_len_sq hn hu
    rw [hnl, ← dot_self] at this
    linarith
  have hlm : dot (unit l') (cross (unit N) (unit l')) = 0 := by
    unfold dot; simp [cross]; ring
  have hdirs : planeDirs N L = (some (unit N), some (unit l'), some (cross (unit N) (unit l'))) := by
    unfold planeDirs
    simp only [toUnit_eq hN, Option.bind_some]
    rw [← hl', toUnit_eq hl]
    rfl
  have hclose : allCloseZero (some (cross (unit N) (unit l'))) = false := by
    unfold allCloseZero
    simp only [decide_eq_false_iff_not]
    intro hall
    have h0 := hall 0
    have h1 := hall 1
    have h2 := hall 2
    simp only [isClose, sub_zero, abs_zero, mul_zero, add_zero] at h0 h1 h2
    generalize cross (unit N) (unit l') = m at *
    unfold dot at hm
    have q : ∀ x : ℝ, |x| ≤ 1 / 10 ^ 8 → x * x ≤ 1 / 10 ^ 8 := by
      intro x hx
      rw [← abs_mul_abs_self]
      nlinarith [abs_nonneg x]
    have := q _ h0
    have := q _ h1
    have := q _ h2
    norm_num at *
    linarith
  have hrot : IsRot (frame (unit l') (cross (unit N) (unit l'))) := frame_isRot hu hm hlm
  have hlmn : cross (unit l') (cross (unit N) (unit l')) = unit N := by
    unfold dot at hu hnl
    apply ext3 <;> simp [cross] <;> grind
  have hR : (Plane.mk p0 (some (unit N)) (some (unit l')) (some (cross (unit N) (unit l')))).rotation =
      some (frame (unit l') (cross (unit N) (unit l'))) := by
    unfold Plane.rotation
    simp only [Option.bind_some, Option.map_some, Option.some.injEq]
    apply ext9 <;> simp [frame, hlmn]
  have hinv : (frame (unit l') (cross (unit N) (unit l')))ᵀ * frame (unit l') (cross (unit N) (unit l')) = 1 :=
    mul_eq_one_comm.1 hrot.1
  refine ⟨⟨p0, some (unit N), some (unit l'), some (cross (unit N) (unit l'))⟩, _, ?_, hR, hrot, ?_, ?_, ?_, ?_, ?_⟩
  · rw [hinit, hdirs]
    simp only [hclose, Bool.false_eq_true, if_false]
  · refine ⟨1 / len N, by positivity, ?_⟩
    apply ext3 <;> simp [mulVec3, frame, hlmn, vsmul, unit, div_eq_inv_mul]
  · refine ⟨1 / len l', -(dot L (unit N) / len N / len l'), by positivity, ?_⟩
    have e : ∀ i, unit l' i = (L i - dot L (unit N) * (N i / len N)) / len l' := fun _ => rfl
    apply ext3 <;> simp [mulVec3, frame, vsmul, vadd, e] <;> field_simp <;> ring
  · intro v
    refine ⟨_, by unfold Plane.to3d; rw [hR]; rfl, ?_⟩
    unfold Plane.toLocal
    rw [hR]
    simp only [Option.map_some, Option.some.injEq]
    have : vsub (vadd p0 (frame (unit l') (cross (unit N) (unit l')) *ᵥ v)) p0 =
        frame (unit l') (cross (unit N) (unit l')) *ᵥ v := by
      funext i; simp [vsub, vadd]
    rw [this, Matrix.mulVec_mulVec, hinv, Matrix.one_mulVec]
  · intro w
    refine ⟨_, by unfold Plane.toLocal; rw [hR]; rfl, ?_⟩
    unfold Plane.to3d
    rw [hR]
    simp only [Option.map_some, Option.some.injEq]
    rw [Matrix.mulVec_mulVec, hrot.1, Matrix.one_mulVec]
    funext i; simp [vsub, vadd]
  · unfold Plane.to3d
    rw [hR]
    simp only [Option.map_some, Option.some.injEq]
    apply ext3 <;> simp [mulVec3, vadd]

example : cross (dirOf true 0 ![0, 0, 2]) (dirOf true 0 ![1, 0, 5]) ≠ fun _ => 0 := by
  intro h
  have := congrFun h 1
  simp [cross, dirOf] at this

/-! ### C75 -/

/-- **C75 fails**: for every parallel pair of directions (and every pair that contains a zero vector) no exception is
    raised, and the plane that is made has no direction L: it is nan, and so is every point. -/
theorem C75_parallel_violated (p0 pN pL : V3) (vectors : Bool)
    (h : cross (dirOf vectors p0 pN) (dirOf vectors p0 pL) = fun _ => 0) :
    ∃ P, Plane.init p0 pN pL vectors = .ok P ∧ P.ldir = none ∧ ∀ v, P.to3d v = none := by
  have hinit : Plane.init p0 pN pL vectors = (
    let d := planeDirs (dirOf vectors p0 pN) (dirOf vectors p0 pL)
    if allCloseZero d.2.2 then .error .runtimeError else .ok ⟨p0, d.1, d.2.1, d.2.2⟩) := rfl
  generalize dirOf vectors p0 pN = N at *
  generalize dirOf vectors p0 pL = L at *
  have hd : (planeDirs N L).2 = (none, none) := by
    unfold planeDirs
    by_cases hN : len N = 0
    · simp [toUnit_zero hN]
    · have hn := unit_dot hN
      have hl : len (vsub L (vsmul (dot L (unit N)) (unit N))) = 0 := by
        set l' := vsub L (vsmul (dot L (unit N)) (unit N)) with hl'
        have h1 := (perp_facts (l := L) hn).1
        have h2 := (perp_facts (l := L) hn).2
        rw [← hl'] at h1 h2
        have h3 : cross (unit N) L = fun _ => 0 := by
          have : cross (unit N) L = vsmul (1 / len N) (cross N L) := by
            apply ext3 <;> simp [cross, unit, vsmul] <;> field_simp
          rw [this, h]
          funext i; simp [vsmul]
        rw [h3] at h2
        by_contra hne
        have hu := unit_dot hne
        have hnl : dot (unit N) (unit l') = 0 := by
          have e : dot (unit N) (unit l') = dot (unit N) l' / len l' := by
            unfold dot; simp only [unit]; field_simp
          rw [e, h1, zero_div]
        have hc := cross_len_sq hn hu
        have hz : cross (unit N) (unit l') = fun _ => 0 := by
          have : cross (unit N) (unit l') = vsmul (1 / len l') (cross (unit N) l') := by
            apply ext3 <;> simp [cross, unit, vsmul] <;> field_simp
          rw [this, h2]
          funext i; simp [vsmul]
        rw [hz, hnl, len_zero_iff.2 rfl] at hc
        norm_num at hc
      simp [toUnit_eq hN, toUnit_zero hl]
  rw [hinit]
  refine ⟨⟨p0, (planeDirs N L).1, none, none⟩, ?_, rfl, ?_⟩
  · simp only [hd, allCloseZero, Bool.false_eq_true, if_false]
  · intro v
    rfl

example := C75_parallel_violated 0 ![0, 0, 2] ![0, 0, 5] true (by
  funext i; simp only [cross, dirOf]; fin_cases i <;> simp)

/-- With C50: no call whatever raises the documented RuntimeError. -/
theorem C75_never_raises (p0 pN pL : V3) (vectors : Bool) : ∃ P, Plane.init p0 pN pL vectors = .ok P := by
  by_cases h : cross (dirOf vectors p0 pN) (dirOf vectors p0 pL) = fun _ => 0
  · obtain ⟨P, hP, -⟩ := C75_parallel_violated p0 pN pL vectors h
    exact ⟨P, hP⟩
  · obtain ⟨P, R, hP, -⟩ := C50_plane p0 pN pL vectors h
    exact ⟨P, hP⟩

/-! ### C80 -/

theorem linspace_get (a b : ℝ) (n : Nat) (e : Bool) (i : Nat) (hi : i < n) :
    (linspace a b n e)[i]? = some (a + i * ((b - a) / (if e then (n : ℝ) - 1 else n))) := by
  simp [linspace, hi]

theorem linspace_length (a b : ℝ) (n : Nat) (e : Bool) : (linspace a b n e).length = n := by simp [linspace]

/-- **C80.** A `Line` with at least two points starts at `p0` and ends at `p1`, its points are evenly spaced on the
    segment, and its local coordinate is the distance from `p0`. -/
theorem C80_line (p0 p1 : V3) (n : Nat) (hn : 2 ≤ n) :
    (linePoints p0 p1 n).length = n ∧ (lineCrds p0 p1 n).length = n ∧
    (linePoints p0 p1 n)[0]? = some p0 ∧ (linePoints p0 p1 n)[n - 1]? = some p1 ∧
    ∀ i, i < n → ∃ p x, (linePoints p0 p1 n)[i]? = some p ∧ (lineCrds p0 p1 n)[i]? = some x ∧
      (∀ k, p k = p0 k + (i : ℝ) / ((n : ℝ) - 1) * (p1 k - p0 k)) ∧
      len (vsub p p0) = x ∧ len (vsub p1 p) = len (vsub p1 p0) - x := by
  have h1 : (0:ℝ) < (n : ℝ) - 1 := by
    have : (2:ℝ) ≤ n := by exact_mod_cast hn
    linarith
  have hget : ∀ i, i < n → (linePoints p0 p1 n)[i]? =
      some (vadd p0 (vsmul (0 + i * ((1 - 0) / ((n : ℝ) - 1))) (vsub p1 p0))) := by
    intro i hi
    unfold linePoints
    rw [List.getElem?_map, linspace_get _ _ _ _ _ hi]
    rfl
  have hlen : ∀ (c : ℝ) (v : V3), 0 ≤ c → len (vsmul c v) = c * len v := by
    intro c v hc
    unfold len vsmul
    rw [show (c * v 0) ^ 2 + (c * v 1) ^ 2 + (c * v 2) ^ 2 = c ^ 2 * (v 0 ^ 2 + v 1 ^ 2 + v 2 ^ 2) by ring,
      Real.sqrt_mul (sq_nonneg c), Real.sqrt_sq hc]
  refine ⟨by simp [linePoints, linspace_length], linspace_length _ _ _ _, ?_, ?_, ?_⟩
  · rw [hget 0 (by omega)]
    congr 1; funext k; simp [vadd, vsmul]
  · rw [hget (n - 1) (by omega)]
    congr 1; funext k
    have : ((n - 1 : Nat) : ℝ) = (n : ℝ) - 1 := by rw [Nat.cast_sub (by omega)]; simp
    simp only [vadd, vsmul, vsub, this]
    field_simp
    ring
  · intro i hi
    have hle : (i : ℝ) ≤ (n : ℝ) - 1 := by
      have : (i : ℝ) + 1 ≤ n := by exact_mod_cast hi
      linarith
    have hc0 : 0 ≤ (i : ℝ) / ((n : ℝ) - 1) := by positivity
    have hc1 : (i : ℝ) / ((n : ℝ) - 1) ≤ 1 := by rw [div_le_one h1]; exact hle
    refine ⟨_, _, hget i hi, linspace_get _ _ _ _ _ hi, ?_, ?_, ?_⟩
    · intro k; simp only [vadd, vsmul, vsub]; field_simp; ring
    · have : vsub (vadd p0 (vsmul (0 + i * ((1 - 0) / ((n : ℝ) - 1))) (vsub p1 p0))) p0 =
          vsmul ((i : ℝ) / ((n : ℝ) - 1)) (vsub p1 p0) := by
        funext k; simp only [vadd, vsmul, vsub]; field_simp; ring
      rw [this, hlen _ _ hc0]
      simp; ring
    · have : vsub p1 (vadd p0 (vsmul (0 + i * ((1 - 0) / ((n : ℝ) - 1))) (vsub p1 p0))) =
          vsmul (1 - (i : ℝ) / ((n : ℝ) - 1)) (vsub p1 p0) := by
        funext k; simp only [vadd, vsmul, vsub]; field_simp; ring
      rw [this, hlen _ _ (by linarith)]
      simp; ring

example : (linePoints ![0, 0, 0] ![4, 0, 8] 5)[2]? = some ![2, 0, 4] := by
  obtain ⟨_, _, _, _, h⟩ := C80_line ![0, 0, 0] ![4, 0, 8] 5 (by decide)
  obtain ⟨p, x, hp, -, hk, -⟩ := h 2 (by decide)
  rw [hp]
  congr 1
  funext k
  rw [hk k]
  fin_cases k <;> norm_num

/-! ### C81 -/

/-- `calls` earlier calls. -/
noncomputable def splineAfter (curve : Nat → ℝ → V3) (nknots n : Nat) (s : SplineSt) : Nat → SplineSt
  | 0 => s
  | c + 1 => (splineCall curve nknots n (splineAfter curve nknots n s c)).2

/-- **C81, without a degree**: the same points in every call; the first is at parameter 0 and the last, if there are at
    least two, at parameter 1. -/
theorem C81_spline_partial (curve : Nat → ℝ → V3) (nknots n : Nat) (s : SplineSt) (hs : s.k = none ∨ s.k = some (nknots - 1))
    (calls : Nat) :
    (splineCall curve nknots n (splineAfter curve nknots n s calls)).1 = (splineCall curve nknots n s).1 ∧
    (2 ≤ n → (splineCall curve nknots n s).1[0]? = some (curve (nknots - 1) 0) ∧
      (splineCall curve nknots n s).1[n - 1]? = some (curve (nknots - 1) 1)) := by
  have hk : s.k.getD (nknots - 1) = nknots - 1 := by rcases hs with h | h <;> rw [h] <;> rfl
  have hk' : (splineAfter curve nknots n s calls).k.getD (nknots - 1) = nknots - 1 := by
    cases calls with
    | zero => exact hk
    | succ c => rfl
  constructor
  · unfold splineCall
    rw [hk, hk']
  · intro hn
    have h1 : (n : ℝ) - 1 ≠ 0 := by
      have : (2:ℝ) ≤ n := by exact_mod_cast hn
      linarith
    have hn0 : (n : ℝ) ≠ 0 := by
      have : (2:ℝ) ≤ n := by exact_mod_cast hn
      linarith
    unfold splineCall
    simp only [hk, List.getElem?_map]
    constructor
    · rw [linspace_get _ _ _ _ _ (by omega)]
      simp only [List.getD_eq_getElem?_getD]
      have : (0 + ((0 : Nat) : ℝ) * ((1 - 0) / (if True then (n : ℝ) - 1 else n))) * n = 0 := by simp
      rw [Option.map_some, this, Int.floor_zero]
      simp [linspace_get 0 1 (n + 1) true 0 (by omega)]
    · rw [linspace_get _ _ _ _ _ (by omega)]
      simp only [List.getD_eq_getElem?_getD]
      have hc : ((n - 1 : Nat) : ℝ) = (n : ℝ) - 1 := by rw [Nat.cast_sub (by omega)]; simp
      have : (0 + ((n - 1 : Nat) : ℝ) * ((1 - 0) / (if True then (n : ℝ) - 1 else n))) * n = (n : ℤ) := by
        rw [hc]; simp; field_simp
      rw [Option.map_some, this, Int.floor_intCast, Int.toNat_natCast, linspace_get 0 1 (n + 1) true n (by omega)]
      simp [hn0]

example (curve : Nat → ℝ → V3) := C81_spline_partial curve 4 10 ⟨some 3⟩ (Or.inr rfl) 2

/-- **C81 fails**: with a degree the second call uses another one.  For four knots and degree 1, and a
    curve that depends on the degree. -/
theorem C81_degree_violated : ∃ (curve : Nat → ℝ → V3) (s : SplineSt), s.k = some 1 ∧
    (splineCall curve 4 2 (splineAfter curve 4 2 s 1)).1 ≠ (splineCall curve 4 2 s).1 := by
  refine ⟨fun k _ => ![k, 0, 0], ⟨some 1⟩, rfl, ?_⟩
  intro h
  have := congrArg (fun l => (l.map fun v => v 0)[0]?) h
  simp [splineCall, splineAfter, linspace] at this

end Viscid.Props
