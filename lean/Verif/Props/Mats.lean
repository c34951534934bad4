import Verif.Spec.Mats
import Verif.Props.AxisAngle
import Verif.Props.Angle
import Verif.Props.Cotr
/-! # C207: vectors with four components, rotations and translations; C208: axis and angle of a matrix -/
namespace Viscid.Props
open Viscid.Mats Viscid.Spec.Mats Viscid.Rotation Viscid.Spec.Rotation Matrix
open Viscid.Cotr (deg2rad rad2deg)

namespace Mt

theorem rad_eq (t : ℝ) : deg2rad t = rad t := by unfold deg2rad rad; ring

/-- The three axes. -/
inductive Which | x | y | z

def Which.ok : Which → Axis → Prop
  | .x, a => a = .text ['x'] ∨ a = .int 0
  | .y, a => a = .text ['y'] ∨ a = .int 1
  | .z, a => a = .text ['z'] ∨ a = .int 2

def Which.vec : Which → V3
  | .x => ![1, 0, 0]
  | .y => ![0, 1, 0]
  | .z => ![0, 0, 1]

def Which.sign : Which → ℝ
  | .x => -1
  | .y => 1
  | .z => -1

noncomputable def Which.mat (c s : ℝ) : Which → Matrix (Fin 4) (Fin 4) ℝ
  | .x => !![1, 0, 0, 0; 0, c, s, 0; 0, -s, c, 0; 0, 0, 0, 1]
  | .y => !![c, 0, s, 0; 0, 1, 0, 0; -s, 0, c, 0; 0, 0, 0, 1]
  | .z => !![c, s, 0, 0; -s, c, 0, 0; 0, 0, 1, 0; 0, 0, 0, 1]

theorem strip_around (a s b : List Char) (h : ∀ c ∈ a ++ b, c ∈ [' ', '\t', '\n', '\r', '\x0b', '\x0c']) :
    A2b.strip ((a ++ s ++ b)) = A2b.strip s := by
  have hs : ∀ c ∈ a ++ b, A2b.isSpace c = true := fun c hc => (Ang.space_iff c).2 (h c hc)
  unfold A2b.strip
  rw [List.append_assoc, Ang.drop_all _ _ _ fun x hx => hs x (by simp [hx])]
  by_cases hall : ∀ x ∈ s, A2b.isSpace x = true
  · rw [Ang.drop_all _ _ _ hall, show s = s ++ [] by simp, Ang.drop_all _ s [] hall]
    have := Ang.drop_all A2b.isSpace b [] fun x hx => hs x (by simp [hx])
    rw [List.append_nil] at this
    rw [this]
  · have : (s ++ b).dropWhile A2b.isSpace = s.dropWhile A2b.isSpace ++ b := by
      rw [List.dropWhile_append, if_neg]
      rw [List.isEmpty_iff]
      intro h0
      apply hall
      intro x hx
      have := List.takeWhile_append_dropWhile (p := A2b.isSpace) (l := s)
      rw [h0, List.append_nil] at this
      rw [← this] at hx
      exact Ang.takeWhile_all _ _ hx
    rw [this, List.reverse_append, Ang.drop_all _ _ _ fun x hx => hs x (by simp [List.mem_reverse.1 hx])]

theorem lower_blank (a : List Char) (h : ∀ c ∈ a, c ∈ [' ', '\t', '\n', '\r', '\x0b', '\x0c']) : a.map Char.toLower = a := by
  induction a with
  | nil => rfl
  | cons x a ih =>
    rw [List.map_cons, ih fun c hc => h c (by simp [hc])]
    have := h x (by simp)
    simp only [List.mem_cons, List.not_mem_nil, or_false] at this
    rcases this with rfl | rfl | rfl | rfl | rfl | rfl <;> rfl

theorem means_which (ax : Axis) (k : V3) (g : ℝ) (h : Means ax k g) : ∃ w : Which, w.ok ax.tidy ∧ w.vec = k ∧ w.sign = g := by
  induction h with
  | x s h => simp at h; rcases h with rfl | rfl <;> exact ⟨.x, .inl rfl, rfl, rfl⟩
  | y s h => simp at h; rcases h with rfl | rfl <;> exact ⟨.y, .inl rfl, rfl, rfl⟩
  | z s h => simp at h; rcases h with rfl | rfl <;> exact ⟨.z, .inl rfl, rfl, rfl⟩
  | zero => exact ⟨.x, .inr rfl, rfl, rfl⟩
  | one => exact ⟨.y, .inr rfl, rfl, rfl⟩
  | two => exact ⟨.z, .inr rfl, rfl, rfl⟩
  | blank s a b k g ha h ih =>
    obtain ⟨w, h1, h2⟩ := ih
    refine ⟨w, ?_, h2⟩
    unfold Axis.tidy at h1 ⊢
    dsimp only at h1 ⊢
    rw [List.map_append, List.map_append, lower_blank a fun c hc => ha c (by simp [hc]), lower_blank b fun c hc => ha c (by simp [hc]),
      strip_around a _ b ha]
    exact h1

theorem tidy_means (ax : Axis) (w : Which) (h : w.ok ax.tidy) : Means ax w.vec w.sign := by
  cases ax with
  | int n =>
    cases w <;> simp only [Axis.tidy, Which.ok, reduceCtorEq, false_or, Axis.int.injEq] at h <;> subst h
    · exact .zero
    · exact .one
    · exact .two
  | text s =>
    have key : ∀ l u : Char, l.val ≥ 97 → l.val ≤ 122 → u.val + 32 = l.val → A2b.strip (s.map Char.toLower) = [l] →
        ∃ a b c, s = a ++ [c] ++ b ∧ (c = l ∨ c = u) ∧ ∀ c ∈ a ++ b, c ∈ [' ', '\t', '\n', '\r', '\x0b', '\x0c'] := by
      intro l u h1 h2 h3 he
      have hd : s.map Char.toLower = (s.map Char.toLower).takeWhile A2b.isSpace ++ A2b.strip (s.map Char.toLower) ++
          (((s.map Char.toLower).dropWhile A2b.isSpace).reverse.takeWhile A2b.isSpace).reverse := by
        unfold A2b.strip
        rw [List.append_assoc, ← List.reverse_append, List.takeWhile_append_dropWhile, List.reverse_reverse, List.takeWhile_append_dropWhile]
      rw [he] at hd
      obtain ⟨ac, b, rfl, hac, hb⟩ := List.map_eq_append_iff.1 hd
      obtain ⟨a, cc, rfl, ha, hc⟩ := List.map_eq_append_iff.1 hac
      obtain ⟨c, rfl, hc⟩ := List.map_eq_singleton_iff.1 hc
      have hc : c.toLower = l := by simpa using hc
      have sp : ∀ x : Char, A2b.isSpace x.toLower = true → x ∈ [' ', '\t', '\n', '\r', '\x0b', '\x0c'] := by
        intro x hx
        rw [Ang.space_iff] at hx
        have : x.toLower = x := by
          unfold Char.toLower
          rw [dif_neg]
          intro hU
          have : x.toLower.toNat = x.toNat + 32 := by
            unfold Char.toLower
            rw [dif_pos hU]
            show (x.val + ('a'.val - 'A'.val)).toNat = x.toNat + 32
            rw [UInt32.toNat_add]
            have h5 : ('a'.val - 'A'.val).toNat = 32 := rfl
            have : x.val.toNat = x.toNat := rfl
            have : x.val.toNat ≤ 90 := hU.2
            omega
          have h65 : 65 ≤ x.toNat := hU.1
          simp only [List.mem_cons, List.not_mem_nil, or_false] at hx
          rcases hx with hx | hx | hx | hx | hx | hx <;> rw [hx] at this <;> simp at this <;> omega
        rwa [this] at hx
      refine ⟨a, b, c, rfl, (Ang.lower_iff c l u h1 h2 h3).1 hc, ?_⟩
      intro x hx
      rcases List.mem_append.1 hx with hx | hx
      · apply sp
        apply Ang.takeWhile_all ((List.map Char.toLower (a ++ [c] ++ b)))
        rw [← ha]; exact List.mem_map_of_mem hx
      · apply sp
        have : x.toLower ∈ List.map Char.toLower b := List.mem_map_of_mem hx
        rw [hb, List.mem_reverse] at this
        exact Ang.takeWhile_all _ _ this
    cases w <;> simp only [Axis.tidy, Which.ok, reduceCtorEq, or_false, Axis.text.injEq] at h
    · obtain ⟨a, b, c, rfl, hc, hab⟩ := key 'x' 'X' (by decide) (by decide) (by decide) h
      exact .blank [c] a b _ _ hab (.x [c] (by rcases hc with rfl | rfl <;> simp))
    · obtain ⟨a, b, c, rfl, hc, hab⟩ := key 'y' 'Y' (by decide) (by decide) (by decide) h
      exact .blank [c] a b _ _ hab (.y [c] (by rcases hc with rfl | rfl <;> simp))
    · obtain ⟨a, b, c, rfl, hc, hab⟩ := key 'z' 'Z' (by decide) (by decide) (by decide) h
      exact .blank [c] a b _ _ hab (.z [c] (by rcases hc with rfl | rfl <;> simp))

theorem mat_zero (w : Which) : w.mat 1 0 = 1 := by
  cases w <;> (ext i j; fin_cases i <;> fin_cases j <;> simp [Which.mat])

theorem rotation4_ok (t : ℝ) (ax : Axis) (w : Which) (h : w.ok ax) :
    rotation4 t ax = .ok (w.mat (Real.cos (rad t)) (Real.sin (rad t))) := by
  unfold rotation4
  rw [rad_eq]
  by_cases ht : t = 0
  · subst ht
    rw [if_pos rfl, show rad 0 = 0 by simp [rad], Real.cos_zero, Real.sin_zero, mat_zero]
  · rw [if_neg ht]
    cases w <;> rcases h with rfl | rfl <;> simp [Which.mat]

theorem rotation4_bad (t : ℝ) (ax : Axis) (ht : t ≠ 0) (h : ∀ w : Which, ¬ w.ok ax) : rotation4 t ax = .error .value := by
  unfold rotation4
  have hx : ¬ (ax = .text ['x'] ∨ ax = .int 0) := h .x
  have hy : ¬ (ax = .text ['y'] ∨ ax = .int 1) := h .y
  have hz : ¬ (ax = .text ['z'] ∨ ax = .int 2) := h .z
  dsimp only
  rw [if_neg ht, if_neg hx, if_neg hy, if_neg hz]

theorem make3 (t : ℝ) (ax : Axis) (w : Which) (h : w.ok ax.tidy) :
    makeRotation t ax 3 = .ok ((w.mat (Real.cos (rad t)) (Real.sin (rad t))).submatrix (Fin.castLE (by omega)) (Fin.castLE (by omega))) := by
  unfold makeRotation
  rw [dif_pos (by simp), rotation4_ok t _ w h]; rfl

theorem make4 (t : ℝ) (ax : Axis) (w : Which) (h : w.ok ax.tidy) :
    makeRotation t ax 4 = .ok (w.mat (Real.cos (rad t)) (Real.sin (rad t))) := by
  unfold makeRotation
  rw [dif_pos (by simp), rotation4_ok t _ w h]; rfl

theorem make2 (t : ℝ) (ax : Axis) (w : Which) (h : w.ok ax.tidy) :
    makeRotation t ax 2 = .ok ((w.mat (Real.cos (rad t)) (Real.sin (rad t))).submatrix (Fin.castLE (by omega)) (Fin.castLE (by omega))) := by
  unfold makeRotation
  rw [dif_pos (by simp), rotation4_ok t _ w h]; rfl

theorem mat_turned (t : ℝ) (w : Which) (v : V3) (x : ℝ) :
    w.mat (Real.cos t) (Real.sin t) *ᵥ with4 v x = with4 (turned (w.sign * t) w.vec v) x := by
  cases w <;> apply ext4 <;> rw [mulVec4] <;>
    simp [Which.mat, with4, turned, Which.sign, Which.vec] <;> ring

end Mt
open Mt

/-- C207: for an axis that is understood, `make_rotation` gives the matrix that turns vectors about it by so many degrees: right handed
about y, left handed about x and z. -/
theorem C207_rotation (t : ℝ) (ax : Axis) (k : V3) (g : ℝ) (h : Means ax k g) :
    ∃ m, makeRotation t ax 3 = .ok m ∧ ∀ v, m *ᵥ v = turned (g * rad t) k v := by
  obtain ⟨w, hw, rfl, rfl⟩ := means_which ax k g h
  refine ⟨_, make3 t ax w hw, fun v => ?_⟩
  have := mat_turned (rad t) w v 0
  apply ext3
  · have := congrFun this 0
    rw [mulVec4] at this
    rw [mulVec3]; simpa [with4] using this
  · have := congrFun this 1
    rw [mulVec4] at this
    rw [mulVec3]; simpa [with4] using this
  · have := congrFun this 2
    rw [mulVec4] at this
    rw [mulVec3]; simpa [with4] using this

/-- C207: with `rdim=4` so are the first three components turned, and the fourth stays. -/
theorem C207_rotation4 (t : ℝ) (ax : Axis) (k : V3) (g : ℝ) (h : Means ax k g) :
    ∃ m, makeRotation t ax 4 = .ok m ∧ ∀ v x, m *ᵥ with4 v x = with4 (turned (g * rad t) k v) x := by
  obtain ⟨w, hw, rfl, rfl⟩ := means_which ax k g h
  exact ⟨_, make4 t ax w hw, fun v x => mat_turned (rad t) w v x⟩

/-- C207: with `rdim=2` vectors in the plane are turned by rotations about z. Missing: the other axes, see `C207_plane_violated`. -/
theorem C207_plane_partial (t : ℝ) (ax : Axis) (g : ℝ) (h : Means ax ![0, 0, 1] g) :
    ∃ m, makeRotation t ax 2 = .ok m ∧ ∀ x y, m *ᵥ ![x, y] = ![turned (g * rad t) ![0, 0, 1] ![x, y, 0] 0, turned (g * rad t) ![0, 0, 1] ![x, y, 0] 1] := by
  obtain ⟨w, hw, hv, rfl⟩ := means_which ax _ g h
  have : w = .z := by
    cases w
    · have := congrFun hv 0; simp [Which.vec] at this
    · have := congrFun hv 1; simp [Which.vec] at this
    · rfl
  subst this
  refine ⟨_, make2 t ax .z hw, fun x y => ?_⟩
  ext i
  fin_cases i <;> simp [Matrix.mulVec, dotProduct, Fin.sum_univ_two, Which.mat, turned, Which.sign] <;> ring

/-- C207 is false: with `rdim=2`, about x and y, what is given back is no rotation: its determinant is the cosine. -/
theorem C207_plane_violated (t : ℝ) (ax : Axis) (k : V3) (g : ℝ) (h : Means ax k g) (hk : k ≠ ![0, 0, 1]) :
    ∃ m, makeRotation t ax 2 = .ok m ∧ m.det = Real.cos (rad t) := by
  obtain ⟨w, hw, rfl, rfl⟩ := means_which ax _ g h
  refine ⟨_, make2 t ax w hw, ?_⟩
  rw [Matrix.det_fin_two]
  cases w
  · simp [Which.mat]
  · simp [Which.mat]
  · exact absurd rfl hk

/-- C207: other sizes are refused, and so are other axes, if the angle is not 0. -/
theorem C207_refused_partial (t : ℝ) (ax : Axis) (rdim : Nat) (h : (rdim ≠ 2 ∧ rdim ≠ 3 ∧ rdim ≠ 4) ∨ t ≠ 0 ∧ ∀ k g, ¬ Means ax k g) :
    makeRotation t ax rdim = .error .value := by
  by_cases hr : rdim = 2 ∨ rdim = 3 ∨ rdim = 4
  · rcases h with h | ⟨ht, h⟩
    · omega
    · unfold makeRotation
      rw [dif_pos hr, rotation4_bad t _ ht fun w hw => h _ _ (tidy_means ax w hw)]; rfl
  · unfold makeRotation
    rw [dif_neg hr]

/-- C207 is false: an invalid axis is not noticed if the angle is 0. -/
theorem C207_axis_violated (ax : Axis) (rdim : Nat) (h : rdim = 2 ∨ rdim = 3 ∨ rdim = 4) : makeRotation 0 ax rdim = .ok 1 := by
  unfold makeRotation
  rw [dif_pos h]
  unfold rotation4
  rw [if_pos rfl]
  show Except.ok _ = _
  congr 1
  exact Matrix.submatrix_one _ (Fin.castLE_injective _)

/-- C207: turning by one angle and then by another is turning by their sum. -/
theorem C207_sum (s t : ℝ) (ax : Axis) (k : V3) (g : ℝ) (h : Means ax k g) :
    ∃ a b, makeRotation s ax 4 = .ok a ∧ makeRotation t ax 4 = .ok b ∧ makeRotation (s + t) ax 4 = .ok (a * b) := by
  obtain ⟨w, hw, rfl, rfl⟩ := means_which ax k g h
  refine ⟨_, _, make4 s ax w hw, make4 t ax w hw, ?_⟩
  rw [make4 (s + t) ax w hw, show rad (s + t) = rad s + rad t by unfold rad; ring, Real.cos_add, Real.sin_add]
  congr 1
  cases w <;> (ext i j; fin_cases i <;> fin_cases j <;> simp [Which.mat, Matrix.mul_apply, Fin.sum_univ_four] <;> ring)

/-- C207: turning back undoes it. -/
theorem C207_back (t : ℝ) (ax : Axis) (k : V3) (g : ℝ) (h : Means ax k g) :
    ∃ a b, makeRotation t ax 4 = .ok a ∧ makeRotation (-t) ax 4 = .ok b ∧ a * b = 1 := by
  obtain ⟨a, b, ha, hb, hab⟩ := C207_sum t (-t) ax k g h
  refine ⟨a, b, ha, hb, ?_⟩
  rw [add_neg_cancel, C207_axis_violated ax 4 (by simp)] at hab
  exact (Except.ok.inj hab).symm

/-- C207: the matrices of a translation move points by the vector, and back; directions (with 0 as fourth component) stay. -/
theorem C207_translation (x y z : ℝ) (more : List ℝ) :
    ∃ m i, makeTranslation (x :: y :: z :: more) = .ok (m, i) ∧ m * i = 1 ∧ i * m = 1 ∧
      (∀ v, m *ᵥ with4 v 1 = with4 ![v 0 + x, v 1 + y, v 2 + z] 1) ∧ (∀ v, m *ᵥ with4 v 0 = with4 v 0) := by
  refine ⟨_, _, rfl, ?_, ?_, ?_, ?_⟩
  · ext i j; fin_cases i <;> fin_cases j <;> simp [Matrix.mul_apply, Fin.sum_univ_four]
  · ext i j; fin_cases i <;> fin_cases j <;> simp [Matrix.mul_apply, Fin.sum_univ_four]
  · intro v; apply ext4 <;> rw [mulVec4] <;> simp [with4]
  · intro v; apply ext4 <;> rw [mulVec4] <;> simp [with4]

/-- C207: a vector for a translation must have three components. -/
theorem C207_translation_short (v : List ℝ) (h : v.length < 3) : makeTranslation v = .error .index := by
  match v, h with
  | [], _ => rfl
  | [_], _ => rfl
  | [_, _], _ => rfl

namespace Mt

theorem newRows_spec (fill : α → β) (init : List α) (n j : Nat) (h : j + n ≤ init.length) :
    (newRows fill init j n).length = n ∧ ∀ i < n, (newRows fill init j n)[i]? = (init[j + i]?).map fill := by
  induction n generalizing j with
  | zero => exact ⟨rfl, fun i hi => absurd hi (by omega)⟩
  | succ n ih =>
    obtain ⟨h1, h2⟩ := ih (j + 1) (by omega)
    have hj : init[j]? = some init[j] := List.getElem?_eq_getElem (by omega)
    unfold newRows
    rw [hj]
    refine ⟨by simp [h1], fun i hi => ?_⟩
    cases i with
    | zero => simp [hj]
    | succ i => rw [List.getElem?_cons_succ, h2 i (by omega)]; congr 2; omega

end Mt

/-- C207: `as_nvec` leaves the rows that are there, and adds rows of the initial values until there are `ndim`; if there are enough
already nothing is done, and if there are too few initial values there is a ValueError. -/
theorem C207_nvec (fill : α → β) (arr : List β) (ndim : Nat) (init : List α) :
    (ndim ≤ arr.length → asNvec fill arr ndim init = .ok arr) ∧
    (arr.length < ndim → init.length < ndim → asNvec fill arr ndim init = .error .value) ∧
    (arr.length < ndim → ndim ≤ init.length → ∃ r, asNvec fill arr ndim init = .ok r ∧ r.length = ndim ∧
      (∀ i < arr.length, r[i]? = arr[i]?) ∧ ∀ i, arr.length ≤ i → i < ndim → r[i]? = (init[i]?).map fill) := by
  unfold asNvec
  refine ⟨fun h => by rw [if_neg (by omega)], fun h h' => by rw [if_pos h, if_pos h'], fun h h' => ?_⟩
  rw [if_pos h, if_neg (by omega)]
  obtain ⟨h1, h2⟩ := newRows_spec fill init (ndim - arr.length) arr.length (by omega)
  refine ⟨_, rfl, by rw [List.length_append, h1]; omega, fun i hi => List.getElem?_append_left hi, fun i hi hi' => ?_⟩
  rw [List.getElem?_append_right hi, h2 _ (by omega)]
  congr 2; omega

/-- C207: a vector of three components is given 1 as its fourth, so that it can be moved. -/
theorem C207_nvec_point (x y z : ℝ) : asNvec id [x, y, z] 4 [0, 0, 0, 1] = .ok [x, y, z, 1] := rfl

/-- The hypotheses are met: ` Y ` is the second axis. -/
example : Means (.text [' ', 'Y', ' ']) ![0, 1, 0] 1 := .blank ['Y'] [' '] [' '] _ _ (by simp) (.y _ (by simp))

example : ∀ k g, ¬ Means (.int 3) k g := by
  rintro k g h
  cases h

/-! ### C208 -/

namespace Mt

theorem check_rot (R : M3) (hR : R * Rᵀ = 1) : checkInverse R = .ok () := by
  have hdet : R.det ≠ 0 := by
    have := congrArg Matrix.det hR
    rw [Matrix.det_mul, Matrix.det_transpose, Matrix.det_one] at this
    intro h; rw [h] at this; simp at this
  unfold checkInverse
  rw [if_neg hdet, Matrix.inv_eq_right_inv hR, if_pos]
  intro i j
  unfold isClose
  rw [sub_self, abs_zero]
  have := abs_nonneg (Rᵀ i j)
  positivity

theorem fixed_complex (R : M3) (hR : IsRot R) (e : Fin 3 → ℂ) (h : Eigen R e) :
    R *ᵥ (fun i => (e i).re) = (fun i => (e i).re) ∧ (fun i => (e i).re : V3) ≠ 0 := by
  obtain ⟨lam, he, heig, hreal, hmin⟩ := h
  obtain ⟨v, hv, hfv⟩ := exists_fixed hR
  have hl : lam = 1 := by
    have := hmin 1 (fun i => (v i : ℂ)) (fun h0 => hv (by
      funext i; have := congrFun h0 i; simpa using this)) (by
      funext i
      have := congrFun hfv i
      simp only [Matrix.mulVec, dotProduct, Fin.sum_univ_three, Matrix.map_apply, one_smul] at this ⊢
      rw [← this]; push_cast; rfl)
    rw [sub_self, norm_zero] at this
    have := norm_le_zero_iff.1 this
    exact sub_eq_zero.1 this
  subst hl
  have him := hreal rfl
  constructor
  · funext i
    have := congrFun heig i
    simp only [Matrix.mulVec, dotProduct, Fin.sum_univ_three, Matrix.map_apply, one_smul] at this ⊢
    have := congrArg Complex.re this
    simpa using this
  · intro h0
    apply he
    funext i
    apply Complex.ext
    · exact congrFun h0 i
    · exact him i

theorem eigen_exists (R : M3) (hR : IsRot R) : ∃ e, Eigen R e := by
  obtain ⟨v, hv, hfv⟩ := exists_fixed hR
  refine ⟨fun i => (v i : ℂ), 1, fun h0 => hv (by funext i; have := congrFun h0 i; simpa using this), ?_, fun _ i => by simp,
    fun mu e' _ _ => by simp⟩
  funext i
  have := congrFun hfv i
  simp only [Matrix.mulVec, dotProduct, Fin.sum_univ_three, Matrix.map_apply, one_smul] at this ⊢
  rw [← this]; push_cast; rfl

theorem angle_eq (R : M3) (u : V3) : Mats.angleAbout R u = (rad2deg (Rotation.angleAbout R u).1, (Rotation.angleAbout R u).2) := by
  have : ∀ c : ℝ, Real.arccos (clip c) = Real.arccos c := by
    intro c
    have := Real.arcsin_projIcc c
    rw [Set.coe_projIcc, min_comm] at this
    unfold Real.arccos clip
    rw [this]
  unfold Mats.angleAbout Rotation.angleAbout
  dsimp only
  rw [this]

theorem rodrigues_turned (φ : ℝ) (k v : V3) (hk : dot k k = 1) : rodrigues φ k *ᵥ v = turned φ k v := by
  rw [rodrigues_eq _ hk]
  unfold dot at hk
  apply ext3 <;> rw [mulVec3] <;> simp [rodM, turned] <;> ring

theorem deg_turn (t : ℝ) : rad (rad2deg t) = t := by
  unfold rad rad2deg
  field_simp [Real.pi_ne_zero]

end Mt

/-- C208: for every rotation matrix there is an answer, whether or not it is checked and whichever method is used; whichever
eigenvectors the solver finds, the answer is an angle from 0 to 180 degrees and a unit vector, such that the matrix turns all
vectors by that angle about that vector. -/
theorem C208_axis (R : M3) (hR : IsRot R) (check quick : Bool) :
    (∃ r, GetRotationWxyz check quick R r) ∧ ∀ r, GetRotationWxyz check quick R r →
      ∃ t k, r = .ok (t, k) ∧ 0 ≤ t ∧ t ≤ 180 ∧ k 0 ^ 2 + k 1 ^ 2 + k 2 ^ 2 = 1 ∧ ∀ v, R *ᵥ v = turned (rad t) k v := by
  have hc : (if check then checkInverse R else .ok ()) = .ok () := by
    cases check
    · rfl
    · exact check_rot R hR.1
  unfold GetRotationWxyz
  rw [hc]
  dsimp only
  constructor
  · obtain ⟨e, he⟩ := eigen_exists R hR
    by_cases h : isClose (len (if quick = true then quickAxis R else fun _ => 0)) 0
    · exact ⟨_, .inr ⟨h, e, he, rfl⟩⟩
    · exact ⟨_, .inl ⟨h, rfl⟩⟩
  · intro r hr
    have key : ∃ u, dot u u = 1 ∧ R *ᵥ u = u ∧ r = .ok (Mats.angleAbout R u) := by
      rcases hr with ⟨hcl, e⟩ | ⟨_, e, he, hre⟩
      · have hl : len (if quick = true then quickAxis R else fun _ => 0) ≠ 0 := by
          intro h0; apply hcl; rw [h0]; norm_num [isClose]
        cases quick with
        | false => exact absurd (by simp [len]) hl
        | true => exact ⟨_, unit_dot hl, fixed_unit (quickAxis_fixed hR), e⟩
      · obtain ⟨h1, h2⟩ := fixed_complex R hR e he
        exact ⟨_, unit_dot (len_ne_zero h2), fixed_unit h1, hre⟩
    obtain ⟨u, hu, hf, rfl⟩ := key
    obtain ⟨h1, h2, h3, h4⟩ := angleAbout_spec hR hu hf
    refine ⟨_, _, by rw [angle_eq], ?_, ?_, ?_, ?_⟩
    · unfold rad2deg; positivity
    · unfold rad2deg
      rw [mul_div_assoc', div_le_iff₀ Real.pi_pos]
      nlinarith
    · unfold dot at h3; linarith
    · intro v
      rw [deg_turn, ← rodrigues_turned _ _ _ h3, h4]

/-- C208: a matrix whose inverse is far from its transpose is refused, if it is checked. -/
theorem C208_refused (M : M3) (quick : Bool) (hdet : M.det ≠ 0) (i j : Fin 3)
    (h : 1 / 10 ^ 8 + 1 / 10 ^ 5 * |M⁻¹ i j| < |M j i - M⁻¹ i j|) (r) (hr : GetRotationWxyz true quick M r) : r = .error .value := by
  have hc : checkInverse M = .error .value := by
    unfold checkInverse
    rw [if_neg hdet, if_neg]
    intro hall
    have := hall i j
    unfold isClose at this
    rw [Matrix.transpose_apply] at this
    linarith
  unfold GetRotationWxyz at hr
  simp only [if_true] at hr
  rw [hc] at hr
  exact hr

/-- C208 is false: a matrix that mirrors (orthogonal, with determinant -1) is not noticed, although it is no rotation about
any axis: what is returned does not turn vectors as the matrix does. -/
theorem C208_mirror_violated (M : M3) (hM : M * Mᵀ = 1) (hdet : M.det = -1) (check quick : Bool) (r) (hr : GetRotationWxyz check quick M r) :
    ∃ t k, r = .ok (t, k) ∧ ¬ ∃ φ k', k' 0 ^ 2 + k' 1 ^ 2 + k' 2 ^ 2 = 1 ∧ ∀ v, M *ᵥ v = turned φ k' v := by
  have hc : (if check then checkInverse M else .ok ()) = .ok () := by
    cases check
    · rfl
    · exact check_rot M hM
  have hno : ¬ ∃ (φ : ℝ) (k' : V3), k' 0 ^ 2 + k' 1 ^ 2 + k' 2 ^ 2 = 1 ∧ ∀ v, M *ᵥ v = turned φ k' v := by
    rintro ⟨φ, k', hk, hv⟩
    have hk' : dot k' k' = 1 := by unfold dot; linarith
    have : M = rodrigues φ k' := by
      apply Matrix.ext_of_mulVec_single
      intro i
      rw [hv, rodrigues_turned _ _ _ hk']
    rw [this, (rodrigues_isRot φ hk').2] at hdet
    norm_num at hdet
  unfold GetRotationWxyz at hr
  rw [hc] at hr
  rcases hr with ⟨_, e⟩ | ⟨_, e, _, hre⟩
  · exact ⟨_, _, e, hno⟩
  · exact ⟨_, _, hre, hno⟩

/-- The hypotheses are met: a quarter turn about z is a rotation; the reversal of all axes mirrors, and something is returned for it. -/
example : IsRot !![0, -1, 0; 1, 0, 0; 0, 0, 1] := by apply isRot_of_entries <;> simp [Matrix.det_fin_three]

example : (-1 : M3) * (-1 : M3)ᵀ = 1 ∧ (-1 : M3).det = -1 ∧ ∃ r, GetRotationWxyz true true (-1) r := by
  refine ⟨by simp, by simp [Matrix.det_neg]; norm_num, ?_⟩
  unfold GetRotationWxyz
  have : checkInverse (-1 : M3) = .ok () := check_rot _ (by simp)
  simp only [if_true]
  rw [this]
  refine ⟨_, .inr ⟨by simp [quickAxis, len, isClose], fun i => if i = 0 then 1 else 0, ⟨-1, ?_, ?_, fun _ i => ?_, ?_⟩, rfl⟩⟩
  · intro h; have := congrFun h 0; simp at this
  · funext i; fin_cases i <;> simp [Matrix.mulVec, dotProduct, Fin.sum_univ_three]
  · dsimp only; split <;> simp
  · intro mu e' he' hmu
    have : mu = -1 := by
      obtain ⟨i, hi⟩ := Function.ne_iff.1 he'
      have := congrFun hmu i
      have h2 : ((-1 : M3).map Complex.ofReal *ᵥ e') i = - e' i := by
        fin_cases i <;> simp [Matrix.mulVec, dotProduct, Fin.sum_univ_three]
      rw [h2] at this
      simp only [Pi.smul_apply, smul_eq_mul] at this
      have h3 : (mu + 1) * e' i = 0 := by linear_combination -this
      rcases mul_eq_zero.1 h3 with h | h
      · exact eq_neg_of_add_eq_zero_left h
      · exact absurd h hi
    rw [this]

end Viscid.Props
