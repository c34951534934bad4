import Verif.Lemmas.Euler
import Verif.Props.AxisAngle
import Mathlib.Analysis.Real.Pi.Bounds
import Mathlib.Analysis.SpecialFunctions.Trigonometric.Bounds
/-!
# C44: Euler angles round-trip
-/
namespace Viscid.Props
open Matrix Viscid.Rotation Viscid.Spec.Rotation Viscid.Euler

/-- The unit vector of an axis. -/
def axisVec : Ax → V3
  | .x => ![1, 0, 0]
  | .y => ![0, 1, 0]
  | .z => ![0, 0, 1]

/-- C44: `e_rot(theta, axis)` is the right handed rotation about that coordinate axis, the same as
`wxyz2rot(theta, axis)`; `e_dcm` is its transpose. -/
theorem C44_e_rot (θ : ℝ) (ax : Ax) :
    IsRot (eRot θ ax) ∧ wxyz2rot θ (axisVec ax) = some (eRot θ ax) ∧ eDcm θ ax = (eRot θ ax)ᵀ := by
  refine ⟨eRot_isRot θ ax, ?_, (eRot_transpose θ ax).symm⟩
  have hu : dot (axisVec ax) (axisVec ax) = 1 := by cases ax <;> simp [dot, axisVec]
  unfold wxyz2rot
  rw [if_neg (by rw [len_eq_one hu]; exact one_ne_zero),
    show (fun i => axisVec ax i / len (axisVec ax)) = unit (axisVec ax) from rfl, unit_of_dot hu, rodrigues_eq θ hu]
  congr 1
  cases ax <;> apply ext9 <;> simp [rodM, eRot, axisVec]

/-- C44: the multiplication orders that are documented: `angle2rot` applies the first angle first, `eul2rot`
multiplies in the order given, and the `dcm` versions use the transposed elementary matrices. -/
theorem C44_orders (u : Unit') (a0 a1 a2 : ℝ) (i j k : Ax) :
    angle2rot u ⟨a0, a1, a2⟩ i j k = eRot (toRad u a2) k * eRot (toRad u a1) j * eRot (toRad u a0) i ∧
    eul2rot u ⟨a0, a1, a2⟩ i j k = eRot (toRad u a0) i * eRot (toRad u a1) j * eRot (toRad u a2) k ∧
    angle2dcm u ⟨a0, a1, a2⟩ i j k = eDcm (toRad u a2) k * eDcm (toRad u a1) j * eDcm (toRad u a0) i ∧
    eul2dcm u ⟨a0, a1, a2⟩ i j k = eDcm (toRad u a0) i * eDcm (toRad u a1) j * eDcm (toRad u a2) k := by
  have hn (x : ℝ) : toRad u (-x) = -toRad u x := by cases u <;> simp [toRad]
  refine ⟨?_, ?_, ?_, ?_⟩ <;>
    simp only [eul2rot, eul2dcm, angle2dcm, angle2rot, angle2rotRad, Ang.map, Ang.rev, Ang.neg, eDcm, hn,
      Matrix.mul_assoc]

theorem ofRad_toRad (u : Unit') (a : ℝ) : ofRad u (toRad u a) = a := by
  cases u
  · rfl
  · simp only [ofRad, toRad]; field_simp

theorem toRad_ofRad (u : Unit') (a : ℝ) : toRad u (ofRad u a) = a := by
  cases u
  · rfl
  · simp only [ofRad, toRad]; field_simp

/-- The principal range for three different axes, away from the singularity: outer angles in (-pi, pi], the
middle one in (-pi/2, pi/2) with a cosine of at least 1e-10. -/
def TBRange (u : Unit') (a : Ang) : Prop :=
  -Real.pi < toRad u a.a0 ∧ toRad u a.a0 ≤ Real.pi ∧ -Real.pi < toRad u a.a2 ∧ toRad u a.a2 ≤ Real.pi ∧
  -(Real.pi / 2) < toRad u a.a1 ∧ toRad u a.a1 < Real.pi / 2 ∧ 1 / 10 ^ 10 ≤ Real.cos (toRad u a.a1)

/-- The principal range for a repeated axis: the middle angle in (0, pi) with a sine of at least 1e-10. -/
def PERange (u : Unit') (a : Ang) : Prop :=
  -Real.pi < toRad u a.a0 ∧ toRad u a.a0 ≤ Real.pi ∧ -Real.pi < toRad u a.a2 ∧ toRad u a.a2 ≤ Real.pi ∧
  0 < toRad u a.a1 ∧ toRad u a.a1 < Real.pi ∧ 1 / 10 ^ 10 ≤ Real.sin (toRad u a.a1)

/-- Either of the two, depending on the axes. -/
def InRange (u : Unit') (a : Ang) (i j k : Ax) : Prop :=
  (i ≠ j ∧ j ≠ k ∧ i ≠ k ∧ TBRange u a) ∨ (i ≠ j ∧ i = k ∧ PERange u a)

/-- C44: angles in the principal range, about any of the twelve axis orders, in degrees or radians, are
recovered from the matrix. -/
theorem C44_round_trip (u : Unit') (a : Ang) (i j k : Ax) (h : InRange u a i j k) :
    rot2angle u (angle2rot u a i j k) i j k = .ok a := by
  have hpi := Real.pi_pos
  have back : Ang.map (ofRad u) (Ang.map (toRad u) a) = a := by
    simp only [Ang.map, ofRad_toRad]
  unfold rot2angle angle2rot rot2angleRad
  rcases h with ⟨hij, hjk, hik, h0, h0', h2, h2', h1, h1', hc⟩ | ⟨hij, rfl, h0, h0', h2, h2', h1, h1', hc⟩
  · cases e : tbTable (angle2rotRad (a.map (toRad u)) i j k) i j k with
    | none => rw [tbTable_none] at e; simp [hij, hjk, hik] at e
    | some t =>
      dsimp only
      rw [tbAngles_of (tb_of _ e) h0 h0' h2 h2' (by dsimp only [Ang.map]; linarith) (by dsimp only [Ang.map]; linarith) hc]
      exact congrArg Except.ok back
  · have en : tbTable (angle2rotRad (a.map (toRad u)) i j i) i j i = none := tbTable_none.2 (by simp)
    rw [en]
    cases e : peTable (angle2rotRad (a.map (toRad u)) i j i) i j i with
    | none => rw [peTable_none] at e; simp [hij] at e
    | some t =>
      dsimp only
      rw [peAngles_of (pe_of _ e) h0 h0' h2 h2' (by dsimp only [Ang.map]; linarith) (by dsimp only [Ang.map]; linarith) hc]
      exact congrArg Except.ok back

example : InRange .rad ⟨1, 1, -3⟩ .z .y .x ∧ InRange .rad ⟨1, 1, -3⟩ .z .x .z := by
  have h3 := Real.pi_gt_three
  have hc := Real.one_sub_sq_div_two_le_cos (x := 1)
  have hs := Real.mul_le_sin (x := 1) (by norm_num) (by linarith)
  have h4 := Real.pi_le_four
  refine ⟨.inl ⟨by decide, by decide, by decide, ?_⟩, .inr ⟨by decide, rfl, ?_⟩⟩
  · simp only [TBRange, toRad]
    refine ⟨?_, ?_, ?_, ?_, ?_, ?_, ?_⟩ <;> linarith
  · simp only [PERange, toRad]
    refine ⟨?_, ?_, ?_, ?_, ?_, ?_, ?_⟩
    any_goals linarith
    have : 2 / Real.pi * 1 ≥ 1 / 2 := by
      rw [mul_one, ge_iff_le, div_le_div_iff₀ (by norm_num) Real.pi_pos]; linarith
    linarith

/-- C44: the same for the functions that use the other conventions. -/
theorem C44_round_trip_eul (u : Unit') (a : Ang) (i j k : Ax) (h : InRange u a.rev k j i) :
    rot2eul u (eul2rot u a i j k) i j k = .ok a := by
  unfold rot2eul eul2rot
  rw [C44_round_trip u a.rev k j i h]
  rfl

theorem C44_round_trip_dcm (u : Unit') (a : Ang) (i j k : Ax) (h : InRange u a.rev k j i) :
    dcm2angle u (angle2dcm u a i j k) i j k = .ok a := by
  have e : (angle2dcm u a i j k)ᵀ = angle2rot u a.rev k j i := by
    have hn (x : ℝ) : toRad u (-x) = -toRad u x := by cases u <;> simp [toRad]
    simp only [angle2dcm, angle2rot, angle2rotRad, Ang.map, Ang.rev, Ang.neg, Matrix.transpose_mul, eRot_transpose, hn,
      neg_neg, Matrix.mul_assoc]
  unfold dcm2angle
  rw [e, C44_round_trip u a.rev k j i h]
  rfl

theorem C44_round_trip_dcm2eul (u : Unit') (a : Ang) (i j k : Ax) (h : InRange u a i j k) :
    dcm2eul u (eul2dcm u a i j k) i j k = .ok a := by
  unfold dcm2eul eul2dcm
  rw [C44_round_trip_dcm u a.rev k j i h]
  rfl

/-- C44: for every rotation matrix and each of the twelve orders the recovered angles give the matrix back,
singular orientations included.  Missing from the full statement: middle angles strictly within 1e-10 of the
singularity, which are treated as singular (see `C44_near_singular_violated`). -/
theorem C44_reproduces_partial (u : Unit') (R : M3) (hR : IsRot R) (i j k : Ax) (hij : i ≠ j) (hjk : j ≠ k) :
    ∃ a, rot2angle u R i j k = .ok a ∧
      (i ≠ k → Real.cos (toRad u a.a1) = 0 ∨ 1 / 10 ^ 10 ≤ |Real.cos (toRad u a.a1)| → angle2rot u a i j k = R) ∧
      (i = k → Real.sin (toRad u a.a1) = 0 ∨ 1 / 10 ^ 10 ≤ |Real.sin (toRad u a.a1)| → angle2rot u a i j k = R) := by
  have back (a : Ang) : Ang.map (toRad u) (Ang.map (ofRad u) a) = a := by
    simp only [Ang.map, toRad_ofRad]
  unfold rot2angle rot2angleRad angle2rot
  by_cases hik : i = k
  · subst hik
    have en : tbTable R i j i = none := tbTable_none.2 (by simp)
    rw [en]
    cases e : peTable R i j i with
    | none => rw [peTable_none] at e; simp [hij] at e
    | some t =>
      refine ⟨_, rfl, fun h => absurd rfl h, fun _ hc => ?_⟩
      rw [back]
      apply pe_repro hR e
      simp only [Ang.map, toRad_ofRad] at hc
      exact hc
  · cases e : tbTable R i j k with
    | none => rw [tbTable_none] at e; simp [hij, hjk, hik] at e
    | some t =>
      refine ⟨_, rfl, fun _ hc => ?_, fun h => absurd h hik⟩
      rw [back]
      apply tb_repro hR e
      simp only [Ang.map, toRad_ofRad] at hc
      exact hc

/-- C44: an axis order with a repeated neighbour is an error. -/
theorem C44_bad_order (u : Unit') (R : M3) (i j k : Ax) (h : i = j ∨ j = k) :
    rot2angle u R i j k = .error .valueError := by
  have h1 : tbTable R i j k = none := by
    rw [tbTable_none]; rcases h with h | h <;> simp [h]
  have h2 : peTable R i j k = none := by
    rw [peTable_none]
    rcases h with rfl | rfl
    · simp
    · by_cases e : i = j
      · exact .inl e
      · exact .inr e
  unfold rot2angle rot2angleRad
  rw [h1, h2]; rfl

/-- C44: within 1e-10 of the singularity the angles do not give the matrix back exactly. -/
theorem C44_near_singular_violated : ∃ R a, IsRot R ∧ rot2angle .rad R .z .y .x = .ok a ∧
    angle2rot .rad a .z .y .x ≠ R := by
  let b : Ang := ⟨Real.pi / 2, Real.arccos (1 / 10 ^ 11), 0⟩
  have hcos : Real.cos b.a1 = 1 / 10 ^ 11 := Real.cos_arccos (by norm_num) (by norm_num)
  have hR := angle2rotRad_isRot b .z .y .x
  refine ⟨angle2rotRad b .z .y .x, _, hR, rfl, ?_⟩
  have h : tbTable (angle2rotRad b .z .y .x) .z .y .x = some _ := rfl
  have o := tb_of b h
  have h0 : (tbAngles ⟨angle2rotRad b .z .y .x 0 2, angle2rotRad b .z .y .x 0 0, -angle2rotRad b .z .y .x 0 1,
    -angle2rotRad b .z .y .x 1 2, angle2rotRad b .z .y .x 2 2, angle2rotRad b .z .y .x 2 1,
    angle2rotRad b .z .y .x 1 1⟩) =
      ⟨0, arctan2 (Real.sin b.a1) (1 / 10 ^ 11), arctan2 (clip (angle2rotRad b .z .y .x 2 1)) (clip (angle2rotRad b .z .y .x 1 1))⟩ := by
    have e1 := o.s1
    have e2 := o.c0c1
    have e3 := o.s0c1
    dsimp only at e1 e2 e3
    have hp0 : Real.cos b.a0 = 0 := Real.cos_pi_div_two
    have hp1 : Real.sin b.a0 = 1 := Real.sin_pi_div_two
    rw [hp0, hcos] at e2
    rw [hp1, hcos] at e3
    have hs : √((0 * (1 / 10 ^ 11)) ^ 2 + (1 * (1 / 10 ^ 11)) ^ 2 : ℝ) = 1 / 10 ^ 11 := by
      rw [zero_mul, one_mul, zero_pow two_ne_zero, zero_add]
      exact Real.sqrt_sq (by positivity)
    unfold tbAngles
    dsimp only
    rw [e1, e2, e3, hs, clip_id (by norm_num) (by norm_num), clip_id (Real.neg_one_le_sin _) (Real.sin_le_one _), if_pos]
    rw [abs_of_pos (by positivity)]
    unfold singularThreshold; norm_num
  intro e
  have e' : angle2rotRad (tbAngles ⟨angle2rotRad b .z .y .x 0 2, angle2rotRad b .z .y .x 0 0, -angle2rotRad b .z .y .x 0 1,
    -angle2rotRad b .z .y .x 1 2, angle2rotRad b .z .y .x 2 2, angle2rotRad b .z .y .x 2 1,
    angle2rotRad b .z .y .x 1 1⟩) .z .y .x = angle2rotRad b .z .y .x := e
  rw [h0] at e'
  have o' := tb_of _ (rfl : tbTable (angle2rotRad ⟨0, arctan2 (Real.sin b.a1) (1 / 10 ^ 11), arctan2 (clip (angle2rotRad b .z .y .x 2 1)) (clip (angle2rotRad b .z .y .x 1 1))⟩ .z .y .x) .z .y .x = some _)
  have q := o'.c0c1
  dsimp only at q
  rw [e'] at q
  have q2 := o.c0c1
  dsimp only at q2
  have hp0 : Real.cos b.a0 = 0 := Real.cos_pi_div_two
  rw [q, hp0, zero_mul, Real.cos_zero, one_mul] at q2
  obtain ⟨r1, -⟩ := arctan2_spec (s := Real.sin b.a1) (c := 1 / 10 ^ 11) (by rw [← hcos]; exact Real.cos_sq_add_sin_sq _)
  rw [r1] at q2
  norm_num at q2

end Viscid.Props
