import Verif.Spec.A2b
import Verif.Props.RotStack
import Mathlib.Algebra.Order.BigOperators.Ring.Finset
import Mathlib.Tactic.FieldSimp
/-! # C202: angles between vectors -/
namespace Viscid.Props
open Viscid.RotStack Viscid.Spec.RotStack Viscid.A2b Viscid.Spec.A2b
open Viscid.Euler (Unit' toRad ofRad)

namespace Ang

theorem lower_iff (c : Char) (l u : Char) (hl : l.val ≥ 97) (hl' : l.val ≤ 122) (hu : u.val + 32 = l.val) : c.toLower = l ↔ (c = l ∨ c = u) := by
  have h2 : l.val.toNat ≥ 97 := hl
  have h3 : l.val.toNat ≤ 122 := hl'
  have hu' : u.val.toNat + 32 = l.val.toNat := by
    have := congrArg UInt32.toNat hu
    rw [UInt32.toNat_add] at this
    have h5 : (32 : UInt32).toNat = 32 := rfl
    have := u.valid
    simp only [UInt32.isValidChar, Nat.isValidChar] at this
    omega
  rw [← Char.toNat_inj, ← Char.toNat_inj, ← Char.toNat_inj]
  unfold Char.toLower
  split
  · rename_i h
    obtain ⟨ha, hb⟩ := h
    have ha' : c.val.toNat ≥ 65 := ha
    have hb' : c.val.toNat ≤ 90 := hb
    have : (c.val + ('a'.val - 'A'.val)).toNat = c.val.toNat + 32 := by
      rw [UInt32.toNat_add]
      have : ('a'.val - 'A'.val).toNat = 32 := rfl
      omega
    simp only [Char.toNat] at *
    omega
  · rename_i h
    have h : ¬ (c.val.toNat ≥ 65 ∧ c.val.toNat ≤ 90) := h
    simp only [Char.toNat] at *
    omega

theorem space_iff (c : Char) : isSpace c = true ↔ c ∈ [' ', '\t', '\n', '\r', '\x0b', '\x0c'] := by
  simp [isSpace, or_assoc]

theorem drop_all (p : Char → Bool) (l m : List Char) (h : ∀ x ∈ l, p x = true) : (l ++ m).dropWhile p = m.dropWhile p := by
  induction l with
  | nil => rfl
  | cons x l ih => rw [List.cons_append, List.dropWhile_cons_of_pos (h x (by simp))]; exact ih fun y hy => h y (by simp [hy])

theorem strip_spec (sp : List Char) (a b c : Char) (rest : List Char) (h : ∀ x ∈ sp, isSpace x = true) (ha : isSpace a = false)
    (hc : isSpace c = false) : ∃ rest', strip (sp ++ a :: b :: c :: rest) = a :: b :: c :: rest' := by
  unfold strip
  rw [drop_all _ _ _ h, List.dropWhile_cons_of_neg (by simp [ha])]
  have : (a :: b :: c :: rest).reverse = rest.reverse ++ [c, b, a] := by simp
  rw [this, List.dropWhile_append]
  split
  · rw [List.dropWhile_cons_of_neg (by simp [hc])]; exact ⟨[], rfl⟩
  · exact ⟨(rest.reverse.dropWhile isSpace).reverse, by simp⟩

theorem takeWhile_all (l : List Char) : ∀ x ∈ l.takeWhile isSpace, isSpace x = true := by
  induction l with
  | nil => simp
  | cons y l ih =>
    intro x hx
    rw [List.takeWhile_cons] at hx
    split at hx
    · rcases List.mem_cons.1 hx with rfl | hx
      · assumption
      · exact ih x hx
    · simp at hx

theorem strip_conv (s : List Char) : ∃ sp tl, s = sp ++ strip s ++ tl ∧ ∀ x ∈ sp, isSpace x = true := by
  refine ⟨s.takeWhile isSpace, ((s.dropWhile isSpace).reverse.takeWhile isSpace).reverse, ?_, fun x hx => takeWhile_all _ x hx⟩
  unfold strip
  rw [List.append_assoc, ← List.reverse_append, List.takeWhile_append_dropWhile, List.reverse_reverse, List.takeWhile_append_dropWhile]

theorem three (x y z : Char) (s : List Char) : [x, y, z].isPrefixOf s = true ↔ ∃ rest, s = x :: y :: z :: rest := by
  rw [List.isPrefixOf_iff_prefix]
  constructor
  · rintro ⟨t, rfl⟩; exact ⟨t, rfl⟩
  · rintro ⟨t, rfl⟩; exact ⟨t, rfl⟩

theorem starts_iff (x y z : Char) (s : List Char) : [x, y, z].isPrefixOf ((strip s).map Char.toLower) = true ↔
    ∃ a b c rest, strip s = a :: b :: c :: rest ∧ a.toLower = x ∧ b.toLower = y ∧ c.toLower = z := by
  rw [three]
  constructor
  · rintro ⟨rest, h⟩
    match hs : strip s, h with
    | a :: b :: c :: r, h =>
      simp only [List.map_cons, List.cons.injEq] at h
      exact ⟨a, b, c, r, rfl, h.1, h.2.1, h.2.2.1⟩
    | [], h => simp at h
    | [a], h => simp at h
    | [a, b], h => simp at h
  · rintro ⟨a, b, c, r, hs, rfl, rfl, rfl⟩
    rw [hs]; exact ⟨r.map Char.toLower, rfl⟩

theorem rad_iff (s : List Char) : ['r', 'a', 'd'].isPrefixOf ((strip s).map Char.toLower) = true ↔ Says s .rad := by
  rw [starts_iff]
  constructor
  · rintro ⟨a, b, c, r, hs, ha, hb, hc⟩
    obtain ⟨sp, tl, h1, h2⟩ := strip_conv s
    rw [hs] at h1
    refine ⟨sp, a, b, c, r ++ tl, by rw [h1]; simp, fun x hx => (space_iff x).1 (h2 x hx), ?_⟩
    exact ⟨(lower_iff a 'r' 'R' (by decide) (by decide) (by decide)).1 ha, (lower_iff b 'a' 'A' (by decide) (by decide) (by decide)).1 hb,
      (lower_iff c 'd' 'D' (by decide) (by decide) (by decide)).1 hc⟩
  · rintro ⟨sp, a, b, c, r, rfl, h2, ha, hb, hc⟩
    obtain ⟨r', h⟩ := strip_spec sp a b c r (fun x hx => (space_iff x).2 (h2 x hx)) (by rcases ha with rfl | rfl <;> decide)
      (by rcases hc with rfl | rfl <;> decide)
    exact ⟨a, b, c, r', h, (lower_iff a 'r' 'R' (by decide) (by decide) (by decide)).2 ha,
      (lower_iff b 'a' 'A' (by decide) (by decide) (by decide)).2 hb, (lower_iff c 'd' 'D' (by decide) (by decide) (by decide)).2 hc⟩

theorem deg_iff (s : List Char) : ['d', 'e', 'g'].isPrefixOf ((strip s).map Char.toLower) = true ↔ Says s .deg := by
  rw [starts_iff]
  constructor
  · rintro ⟨a, b, c, r, hs, ha, hb, hc⟩
    obtain ⟨sp, tl, h1, h2⟩ := strip_conv s
    rw [hs] at h1
    refine ⟨sp, a, b, c, r ++ tl, by rw [h1]; simp, fun x hx => (space_iff x).1 (h2 x hx), ?_⟩
    exact ⟨(lower_iff a 'd' 'D' (by decide) (by decide) (by decide)).1 ha, (lower_iff b 'e' 'E' (by decide) (by decide) (by decide)).1 hb,
      (lower_iff c 'g' 'G' (by decide) (by decide) (by decide)).1 hc⟩
  · rintro ⟨sp, a, b, c, r, rfl, h2, ha, hb, hc⟩
    obtain ⟨r', h⟩ := strip_spec sp a b c r (fun x hx => (space_iff x).2 (h2 x hx)) (by rcases ha with rfl | rfl <;> decide)
      (by rcases hc with rfl | rfl <;> decide)
    exact ⟨a, b, c, r', h, (lower_iff a 'd' 'D' (by decide) (by decide) (by decide)).2 ha,
      (lower_iff b 'e' 'E' (by decide) (by decide) (by decide)).2 hb, (lower_iff c 'g' 'G' (by decide) (by decide) (by decide)).2 hc⟩

theorem unit_iff (s : List Char) (u : Unit') : unitOf s = some u ↔ Says s u := by
  unfold unitOf
  simp only
  cases u with
  | rad =>
    rw [← rad_iff]
    split
    · simp_all
    · split <;> simp_all
  | deg =>
    rw [← deg_iff]
    split
    · rename_i h
      refine ⟨fun h => (by cases h), fun h' => ?_⟩
      rw [starts_iff] at h h'
      obtain ⟨a, b, c, r, h1, h2, _⟩ := h
      obtain ⟨a', b', c', r', h1', h2', _⟩ := h'
      rw [h1] at h1'
      simp only [List.cons.injEq] at h1'
      rw [h1'.1, h2'] at h2
      exact absurd h2 (by decide)
    · split <;> simp_all

theorem unit_same (s : List Char) (u v : Unit') (h : Says s u) (h' : Says s v) : u = v := by
  have a := (unit_iff s u).2 h
  have b := (unit_iff s v).2 h'
  rw [a] at b
  exact Option.some.inj b

theorem ofRad_eq (u : Unit') (r : ℝ) : ofRad u r = inUnit u r := by
  cases u with
  | rad => rfl
  | deg => show r * (180 / Real.pi) = r * 180 / Real.pi; ring

theorem nrm_zero (a : Fin d → ℝ) : nrm a = 0 ↔ a = 0 := by
  unfold nrm
  rw [Real.sqrt_eq_zero (Finset.sum_nonneg fun i _ => sq_nonneg _), Finset.sum_eq_zero_iff_of_nonneg fun i _ => sq_nonneg _]
  constructor
  · intro h; funext i; have := h i (Finset.mem_univ i); simpa using this
  · rintro rfl i _; simp

theorem nrm_nonneg (a : Fin d → ℝ) : 0 ≤ nrm a := Real.sqrt_nonneg _

theorem cs (a b : Fin d → ℝ) : |∑ i, a i * b i| ≤ nrm a * nrm b := by
  unfold nrm
  rw [← Real.sqrt_mul (Finset.sum_nonneg fun i _ => sq_nonneg _), ← Real.sqrt_sq_eq_abs]
  exact Real.sqrt_le_sqrt (Finset.sum_mul_sq_le_sq_mul_sq _ _ _)

theorem angle1_some (a b : Fin d → ℝ) (ha : a ≠ 0) (hb : b ≠ 0) : ∃ t, IsAngle a b t ∧ angle1 a b = some t := by
  have h : nrm a * nrm b ≠ 0 := mul_ne_zero (fun h => ha ((nrm_zero a).1 h)) (fun h => hb ((nrm_zero b).1 h))
  have hp : 0 < nrm a * nrm b := lt_of_le_of_ne (mul_nonneg (nrm_nonneg a) (nrm_nonneg b)) (Ne.symm h)
  have hc := abs_le.1 (cs a b)
  refine ⟨_, ⟨Real.arccos_nonneg _, Real.arccos_le_pi _, ?_⟩, by unfold angle1; rw [if_neg h]⟩
  rw [Real.cos_arccos (by rw [le_div_iff₀ hp]; linarith) (by rw [div_le_iff₀ hp]; linarith)]
  show _ * (nrm a * nrm b) = _
  exact div_mul_cancel₀ _ h

theorem angle1_none (a b : Fin d → ℝ) (h : a = 0 ∨ b = 0) : angle1 a b = none := by
  unfold angle1
  rw [if_pos]
  rcases h with h | h
  · rw [(nrm_zero a).2 h, zero_mul]
  · rw [(nrm_zero b).2 h, mul_zero]

theorem has_map (g : α → β) (l : List α) (k : Nat) (x : α) (h : RSt.Has l k x) : RSt.Has (l.map g) k (g x) := by
  rcases h with rfl | ⟨h1, h2⟩
  · left; rfl
  · right; refine ⟨by simpa using h1, by rw [List.getElem?_map, h2]; rfl⟩

theorem isAngle_unique (a b : Fin d → ℝ) (ha : a ≠ 0) (hb : b ≠ 0) (r t : ℝ) (h : IsAngle a b r) (h' : IsAngle a b t) : r = t := by
  have hz : nrm a * nrm b ≠ 0 := mul_ne_zero (fun h => ha ((nrm_zero a).1 h)) (fun h => hb ((nrm_zero b).1 h))
  refine Real.injOn_cos ⟨h.1, h.2.1⟩ ⟨h'.1, h'.2.1⟩ ?_
  exact mul_right_cancel₀ hz (h.2.2.trans h'.2.2.symm)

end Ang

/-- C202: the angle between vectors with any number of components, entry by entry: between 0 and pi, its cosine times the lengths is
the scalar product; nan if a vector is 0; in the unit that is asked for -/
theorem C202_angle (a b : Stk (Fin d → ℝ)) (s : List Char) (u : Unit') (n : Nat) (ha : Fits n a) (hb : Fits n b) (hs : Says s u) :
    ∃ r, angleBetween a b s = .ok r ∧ (IsOne r ↔ IsOne a ∧ IsOne b) ∧ (Size n a ∨ Size n b → Size n r) ∧
      ∀ k < n, ∀ x y, Entry a k x → Entry b k y →
        (x ≠ 0 → y ≠ 0 → ∃ t, IsAngle x y t ∧ Entry r k (some (inUnit u t))) ∧ (x = 0 ∨ y = 0 → Entry r k none) := by
  obtain ⟨c, g1, g2, g3, g4⟩ := RSt.bcast_spec angle1 n a.list b.list (RSt.fits_list n a ha) (RSt.fits_list n b hb)
  have hc : RSt.FitsL n c := by
    rcases RSt.fits_list n a ha with ha | ha
    · rcases RSt.fits_list n b hb with hb | hb
      · exact Or.inl (g3 ha hb)
      · exact Or.inr (g2 (Or.inr hb))
    · exact Or.inr (g2 (Or.inl ha))
  obtain ⟨r, f1, f2, f3, f4, f5⟩ := RSt.close_spec (a.single && b.single) n (c.map fun x => x.map (ofRad u)) (by
      unfold RSt.FitsL at *; simpa using hc) (by
    intro hb
    rw [Bool.and_eq_true, RSt.single_iff, RSt.single_iff] at hb
    obtain ⟨⟨x, rfl⟩, ⟨y, rfl⟩⟩ := hb
    rw [List.length_map]
    exact g3 rfl rfl)
  refine ⟨r, ?_, by rw [f2, Bool.and_eq_true, RSt.single_iff, RSt.single_iff], ?_, ?_⟩
  · unfold angleBetween
    rw [g1]
    simp only [bind, Except.bind]
    rw [(Ang.unit_iff s u).2 hs]
    exact f1
  · intro hsz
    refine f4 ?_ n ?_
    · rw [Bool.eq_false_iff, Ne, Bool.and_eq_true, RSt.single_iff, RSt.single_iff]
      rintro ⟨⟨x, rfl⟩, ⟨y, rfl⟩⟩
      rcases hsz with ⟨l, hl, _⟩ | ⟨l, hl, _⟩ <;> cases hl
    · rw [List.length_map]
      refine g2 ?_
      rcases hsz with ⟨l, rfl, hl⟩ | ⟨l, rfl, hl⟩
      · exact Or.inl hl
      · exact Or.inr hl
  · intro k hk x y hx hy
    have key := f5 k _ (Ang.has_map _ _ _ _ (g4 k hk _ _ (RSt.entry_has _ _ _ hx) (RSt.entry_has _ _ _ hy)))
    constructor
    · intro hx0 hy0
      obtain ⟨t, h1, h2⟩ := Ang.angle1_some x y hx0 hy0
      refine ⟨t, h1, ?_⟩
      rw [h2] at key
      rw [← Ang.ofRad_eq]
      exact key
    · intro h0
      rw [Ang.angle1_none x y h0] at key
      exact key

/-- C202: a text that is no unit, and stacks of different sizes, are errors -/
theorem C202_refused (a b : Stk (Fin d → ℝ)) (s : List Char)
    (h : (∀ u, ¬ Says s u) ∨ ∃ m n, 1 < m ∧ 1 < n ∧ m ≠ n ∧ Size m a ∧ Size n b) : angleBetween a b s = .error .value := by
  unfold angleBetween
  simp only [bind, Except.bind]
  cases hbc : bcast angle1 a.list b.list with
  | error e => cases e; rfl
  | ok c =>
    simp only
    rcases h with h | ⟨m, n, hm, hn, hne, ⟨la, rfl, hla⟩, ⟨lb, rfl, hlb⟩⟩
    · cases hu : unitOf s with
      | none => rfl
      | some u => exact absurd ((Ang.unit_iff s u).1 hu) (h u)
    · obtain ⟨h1, h2⟩ := RSt.bcast_len angle1 _ _ c hbc
      simp only [Stk.list] at h1 h2
      have := h1 (by omega)
      have := h2 (by omega)
      omega

namespace Ang

theorem angle1_comm (a b : Fin d → ℝ) : angle1 a b = angle1 b a := by
  unfold angle1
  rw [mul_comm (nrm a), show (∑ i, a i * b i) = ∑ i, b i * a i from Finset.sum_congr rfl fun i _ => mul_comm _ _]

theorem zip_comm (g : α → β → γ) (a : List α) (b : List β) : List.zipWith g a b = List.zipWith (fun y x => g x y) b a := by
  induction a generalizing b with
  | nil => simp
  | cons x a ih => cases b with
    | nil => rfl
    | cons y b => simp [ih]

theorem bcast_comm (g : α → β → γ) (a : List α) (b : List β) : bcast g a b = bcast (fun y x => g x y) b a := by
  unfold bcast
  by_cases h : a.length = b.length
  · rw [if_pos h, if_pos h.symm, zip_comm]
  · rw [if_neg h, if_neg (Ne.symm h)]
    match a, b with
    | [], [] => simp at h
    | [], [y] => rfl
    | [], y :: y' :: b => rfl
    | [x], [] => rfl
    | [x], [y] => simp at h
    | [x], y :: y' :: b => rfl
    | x :: x' :: a, [] => rfl
    | x :: x' :: a, [y] => rfl
    | x :: x' :: a, y :: y' :: b => rfl

theorem nrm_smul (c : ℝ) (hc : 0 < c) (a : Fin d → ℝ) : nrm (fun i => c * a i) = c * nrm a := by
  unfold nrm
  simp only [mul_pow, ← Finset.mul_sum]
  rw [Real.sqrt_mul (sq_nonneg c), Real.sqrt_sq hc.le]

theorem angle1_smul (c : ℝ) (hc : 0 < c) (a b : Fin d → ℝ) : angle1 (fun i => c * a i) b = angle1 a b := by
  unfold angle1
  rw [nrm_smul c hc]
  simp only [mul_assoc, ← Finset.mul_sum]
  by_cases h : nrm a * nrm b = 0
  · rw [if_pos h, if_pos (by rw [h, mul_zero])]
  · rw [if_neg h, if_neg (mul_ne_zero hc.ne' h), mul_div_mul_left _ _ hc.ne']

end Ang

/-- C202: the order of the arguments does not matter -/
theorem C202_symmetric (a b : Stk (Fin d → ℝ)) (s : List Char) : angleBetween a b s = angleBetween b a s := by
  unfold angleBetween
  rw [Ang.bcast_comm, Bool.and_comm]
  simp only [Ang.angle1_comm]

/-- C202: nor do the lengths of the vectors -/
theorem C202_lengths (c : ℝ) (hc : 0 < c) (a b : Stk (Fin d → ℝ)) (s : List Char) :
    angleBetween (match a with | .one x => .one fun i => c * x i | .many l => .many (l.map fun x i => c * x i)) b s = angleBetween a b s := by
  have e : ∀ l : List (Fin d → ℝ), bcast angle1 (l.map fun x i => c * x i) b.list = bcast angle1 l b.list := by
    intro l
    unfold bcast
    rw [List.length_map]
    split
    · rw [List.zipWith_map_left]
      simp only [Ang.angle1_smul c hc]
    · match l, b.list with
      | [], [] => rfl
      | [], [y] => rfl
      | [], y :: y' :: b => rfl
      | [x], b =>
        have : angle1 (fun i => c * x i) = angle1 x := funext fun y => Ang.angle1_smul c hc x y
        simp only [List.map_cons, List.map_nil, this]
      | x :: x' :: a, [] => rfl
      | x :: x' :: a, [y] => simp only [List.map_cons, List.map_map, Function.comp_def, Ang.angle1_smul c hc]
      | x :: x' :: a, y :: y' :: b => rfl
  cases a with
  | one x =>
    unfold angleBetween
    show (bcast angle1 ([x].map fun x i => c * x i) b.list >>= _) = (bcast angle1 [x] b.list >>= _)
    rw [e]
    rfl
  | many l =>
    unfold angleBetween
    show (bcast angle1 (l.map fun x i => c * x i) b.list >>= _) = (bcast angle1 l b.list >>= _)
    rw [e]
    rfl

/-- C202: 0 exactly between vectors in the same direction -/
theorem C202_same_direction (a b : Fin d → ℝ) (ha : a ≠ 0) (hb : b ≠ 0) (s : List Char) (u : Unit') (hs : Says s u) :
    angleBetween (.one a) (.one b) s = .ok (.one (some 0)) ↔ ∃ c > 0, b = fun i => c * a i := by
  obtain ⟨t, h1, h2⟩ := Ang.angle1_some a b ha hb
  have e : angleBetween (.one a) (.one b) s = .ok (.one (some (inUnit u t))) := by
    unfold angleBetween
    simp only [Stk.list, bcast, List.length_cons, List.zipWith_cons_cons, List.zipWith_nil_left, bind, Except.bind, if_true]
    rw [h2, (Ang.unit_iff s u).2 hs]
    simp only [List.map_cons, Option.map_some, Ang.ofRad_eq]
    rfl
  rw [e]
  have hna : 0 < nrm a := lt_of_le_of_ne (Ang.nrm_nonneg a) fun h => ha ((Ang.nrm_zero a).1 h.symm)
  have hnb : 0 < nrm b := lt_of_le_of_ne (Ang.nrm_nonneg b) fun h => hb ((Ang.nrm_zero b).1 h.symm)
  have sqa : nrm a ^ 2 = ∑ i, a i ^ 2 := Real.sq_sqrt (Finset.sum_nonneg fun i _ => sq_nonneg _)
  have sqb : nrm b ^ 2 = ∑ i, b i ^ 2 := Real.sq_sqrt (Finset.sum_nonneg fun i _ => sq_nonneg _)
  constructor
  · intro h
    have h0 : t = 0 := by
      have : inUnit u t = 0 := by simpa using h
      cases u with
      | rad => exact this
      | deg =>
        have : t * 180 / Real.pi = 0 := this
        rw [div_eq_zero_iff] at this
        rcases this with h | h
        · linarith
        · exact absurd h Real.pi_ne_zero
    subst h0
    have hd : nrm a * nrm b = ∑ i, a i * b i := by have := h1.2.2; rw [Real.cos_zero, one_mul] at this; exact this
    refine ⟨nrm b / nrm a, div_pos hnb hna, ?_⟩
    have hz : ∑ i, (nrm a * b i - nrm b * a i) ^ 2 = 0 := by
      have : ∀ i, (nrm a * b i - nrm b * a i) ^ 2 = nrm a ^ 2 * b i ^ 2 - 2 * (nrm a * nrm b) * (a i * b i) + nrm b ^ 2 * a i ^ 2 := fun i => by ring
      simp only [this, Finset.sum_add_distrib, Finset.sum_sub_distrib, ← Finset.mul_sum]
      rw [← sqa, ← sqb, ← hd]
      ring
    rw [Finset.sum_eq_zero_iff_of_nonneg fun i _ => sq_nonneg _] at hz
    funext i
    have := hz i (Finset.mem_univ i)
    have : nrm a * b i - nrm b * a i = 0 := by simpa using this
    field_simp
    linarith
  · rintro ⟨c, hc, rfl⟩
    have : IsAngle a (fun i => c * a i) 0 := by
      refine ⟨le_refl _, Real.pi_pos.le, ?_⟩
      show Real.cos 0 * (nrm a * nrm fun i => c * a i) = _
      rw [Real.cos_zero, one_mul, Ang.nrm_smul c hc]
      have e2 : ∀ i, a i * (c * a i) = c * a i ^ 2 := fun i => by ring
      simp only [e2, ← Finset.mul_sum, ← sqa]
      ring
    rw [Ang.isAngle_unique _ _ ha hb _ _ h1 this]
    cases u <;> simp [inUnit]

/-! ### examples -/

example : Says "Degrees".toList .deg := ⟨[], 'D', 'e', 'g', "rees".toList, rfl, by simp, by decide⟩
example : Says " rad ".toList .rad := ⟨[' '], 'r', 'a', 'd', [' '], rfl, by simp, by decide⟩
example : ∀ u, ¬ Says "grad".toList u := by
  intro u h
  have := (Ang.unit_iff _ _).2 h
  rw [show unitOf "grad".toList = none by decide] at this
  cases this
/-- a right angle in degrees, between a vector and a stack of two -/
example : ∃ r, angleBetween (.one ![1, 0]) (.many [![0, 2], ![0, 0]]) "deg".toList = .ok r ∧ Entry r 0 (some 90) ∧ Entry r 1 none := by
  obtain ⟨r, h1, _, _, h4⟩ := C202_angle (.one ![1, 0]) (.many [![0, 2], ![0, 0]]) "deg".toList .deg 2 (Or.inl ⟨_, rfl⟩)
    (Or.inr (Or.inr ⟨_, rfl, rfl⟩)) ⟨[], 'd', 'e', 'g', [], rfl, by simp, by decide⟩
  refine ⟨r, h1, ?_, (h4 1 (by decide) _ _ (.one _ _) (.many _ _ _ (by simp) rfl)).2 (Or.inr (by simp))⟩
  have n1 : (![1, 0] : Fin 2 → ℝ) ≠ 0 := fun h => by simpa using congrFun h 0
  have n2 : (![0, 2] : Fin 2 → ℝ) ≠ 0 := fun h => by simpa using congrFun h 1
  obtain ⟨t, h5, h6⟩ := (h4 0 (by decide) _ _ (.one _ _) (.many _ _ _ (by simp) rfl)).1 n1 n2
  have : t = Real.pi / 2 := Ang.isAngle_unique _ _ n1 n2 _ _ h5 ⟨by positivity, by linarith [Real.pi_pos], by simp⟩
  rw [this] at h6
  have e : inUnit .deg (Real.pi / 2) = 90 := by
    show Real.pi / 2 * 180 / Real.pi = 90
    field_simp; norm_num
  rwa [e] at h6

end Viscid.Props
