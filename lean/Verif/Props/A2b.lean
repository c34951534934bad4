import Verif.Props.Angle
import Verif.Props.AxisAngle
/-! # C203: rotations from vectors to vectors, for stacks -/
namespace Viscid.Props
open Viscid.RotStack Viscid.Spec.RotStack Viscid.A2b Viscid.Spec.A2b
open Viscid.Euler (Unit' toRad ofRad)
open Viscid.Rotation (M3 V3 len cross dot ex ey vsub vsmul)
open scoped Matrix

namespace A2

open RSt (Has FitsL)

/-- every value of a product comes from entries -/
theorem bcast_elem (g : α → β → γ) (n : Nat) (hn : 0 < n) (a : List α) (b : List β) (c : List γ) (ha : FitsL n a) (hb : FitsL n b)
    (h : bcast g a b = .ok c) (v : γ) (hv : v ∈ c) : ∃ k < n, ∃ x y, Has a k x ∧ Has b k y ∧ v = g x y := by
  unfold bcast at h
  by_cases hl : a.length = b.length
  · rw [if_pos hl] at h
    cases h
    obtain ⟨k, hk, e⟩ := List.mem_iff_getElem.1 hv
    rw [List.length_zipWith] at hk
    rw [List.getElem_zipWith] at e
    by_cases h1 : a.length = 1
    · obtain ⟨x, rfl⟩ := List.length_eq_one_iff.1 h1
      obtain ⟨y, rfl⟩ := List.length_eq_one_iff.1 (hl.symm.trans h1)
      refine ⟨0, hn, x, y, Or.inl rfl, Or.inl rfl, ?_⟩
      have : k = 0 := by simp at hk; exact hk
      subst this
      exact e.symm
    · have : a.length = n := by rcases ha with h | h <;> omega
      refine ⟨k, by omega, a[k]'(by omega), b[k]'(by omega), Or.inr ⟨by omega, by simp⟩, Or.inr ⟨by omega, by simp⟩, e.symm⟩
  · rw [if_neg hl] at h
    rcases ha with ha | ha
    · obtain ⟨x, rfl⟩ := List.length_eq_one_iff.1 ha
      simp only at h
      cases h
      obtain ⟨k, hk, e⟩ := List.mem_iff_getElem.1 hv
      rw [List.length_map] at hk
      rw [List.getElem_map] at e
      have h1 : b.length ≠ 1 := by simp at hl; omega
      have : b.length = n := by rcases hb with h | h <;> omega
      exact ⟨k, by omega, x, b[k], Or.inl rfl, Or.inr ⟨by omega, by simp⟩, e.symm⟩
    · rcases hb with hb | hb
      · obtain ⟨y, rfl⟩ := List.length_eq_one_iff.1 hb
        have hne : ∀ w, a ≠ [w] := by rintro w rfl; simp at hl
        have h := (RSt.bcast_right g a y hne).symm.trans h
        cases h
        obtain ⟨k, hk, e⟩ := List.mem_iff_getElem.1 hv
        rw [List.length_map] at hk
        rw [List.getElem_map] at e
        have h1 : a.length ≠ 1 := by simp at hl; omega
        exact ⟨k, by omega, a[k], y, Or.inr ⟨by omega, by simp⟩, Or.inl rfl, e.symm⟩
      · omega

theorem bcast_fit (g : α → β → γ) (n : Nat) (a : List α) (b : List β) (ha : FitsL n a) (hb : FitsL n b) :
    ∃ c, bcast g a b = .ok c ∧ FitsL n c ∧ (a.length = n ∨ b.length = n → c.length = n) ∧ (a.length = 1 → b.length = 1 → c.length = 1) ∧
      ∀ k < n, ∀ x y, Has a k x → Has b k y → Has c k (g x y) := by
  obtain ⟨c, h1, h2, h3, h4⟩ := RSt.bcast_spec g n a b ha hb
  refine ⟨c, h1, ?_, h2, h3, h4⟩
  rcases ha with ha | ha
  · rcases hb with hb | hb
    · exact Or.inl (h3 ha hb)
    · exact Or.inr (h2 (Or.inr hb))
  · exact Or.inr (h2 (Or.inl ha))

theorem has_mem (l : List α) (k : Nat) (x : α) (h : Has l k x) : x ∈ l := by
  rcases h with rfl | ⟨_, h⟩
  · simp
  · exact List.mem_of_getElem? h

theorem np_ok {α : Type} (x : Except RotStack.Err α) (c : α) (h : x = .ok c) : np x = .ok c := by rw [h]; rfl

/-! ### axes -/

theorem fix_spec (as ax : List (Option V3)) (e : V3) (hl : as.length = ax.length) (k : Nat) (a v : Option V3) (ha : Has as k a) (hv : Has ax k v) :
    (fix (ax.map isNull) as e ax).length = ax.length ∧
      Has (fix (ax.map isNull) as e ax) k (if isNull v then a.map fun a => cross a e else v) := by
  unfold fix
  refine ⟨by simp; omega, ?_⟩
  rcases ha with rfl | ⟨h1, h2⟩
  · rcases hv with rfl | ⟨h3, _⟩
    · left; simp
    · simp at hl; omega
  · rcases hv with rfl | ⟨h3, h4⟩
    · simp at hl; omega
    · right
      refine ⟨by simp; omega, ?_⟩
      rw [List.getElem?_zipWith, h4, (List.getElem?_zip_eq_some (z := (isNull v, a))).2 ⟨by rw [List.getElem?_map, h4]; rfl, h2⟩]

noncomputable def axis1 (a b : Option V3) : Option V3 :=
  if isNull (cross2 a b) then
    if isNull (a.map fun a => cross a ex) then a.map fun a => cross a ey else a.map fun a => cross a ex
  else cross2 a b

theorem any_false (l : List (Option V3)) (h : (l.map isNull).any id = false) (v : Option V3) (hv : v ∈ l) : isNull v = false := by
  rw [List.any_eq_false] at h
  have := h (isNull v) (List.mem_map.2 ⟨v, hv, rfl⟩)
  simpa using this

theorem axes_spec (n : Nat) (hn : 0 < n) (as bs : List (Option V3)) (ha : FitsL n as) (hb : FitsL n bs)
    (hpar : as.length = n ∨ ∀ k < n, ∀ a b, Has as k a → Has bs k b → isNull (cross2 a b) = false) :
    ∃ ax, axes as bs = .ok ax ∧ FitsL n ax ∧ (as.length = n ∨ bs.length = n → ax.length = n) ∧ (as.length = 1 → bs.length = 1 → ax.length = 1) ∧
      ∀ k < n, ∀ a b, Has as k a → Has bs k b → Has ax k (axis1 a b) := by
  obtain ⟨c, h1, h2, h3, h4, h5⟩ := bcast_fit cross2 n as bs ha hb
  unfold axes
  rw [np_ok _ _ h1]
  simp only [bind, Except.bind]
  cases hany : (c.map isNull).any id with
  | false =>
    refine ⟨c, by simp, h2, h3, h4, ?_⟩
    intro k hk a b hka hkb
    have hc := h5 k hk a b hka hkb
    have := any_false c hany _ (has_mem _ _ _ hc)
    unfold axis1
    rw [this]
    simpa using hc
  | true =>
    have hlen : as.length = c.length := by
      rcases hpar with h | h
      · rw [h, h3 (Or.inl h)]
      · exfalso
        rw [List.any_eq_true] at hany
        obtain ⟨q, hq, hq'⟩ := hany
        obtain ⟨v, hv, rfl⟩ := List.mem_map.1 hq
        obtain ⟨k, hk, a, b, e1, e2, rfl⟩ := bcast_elem cross2 n hn as bs c ha hb h1 v hv
        rw [h k hk a b e1 e2] at hq'
        cases hq'
    rw [if_pos rfl, if_pos hlen]
    have hf1 : ∀ (e : V3) (as' ax' : List (Option V3)), as'.length = ax'.length → (fix (ax'.map isNull) as' e ax').length = ax'.length := by
      intro e as' ax' h; unfold fix; simp; omega
    have hl1 := hf1 ex as c hlen
    cases hany2 : ((fix (c.map isNull) as ex c).map isNull).any id with
    | false =>
      refine ⟨fix (c.map isNull) as ex c, by simp, ?_, ?_, ?_, ?_⟩
      · unfold FitsL at *; rw [hl1]; exact h2
      · rw [hl1]; exact h3
      · rw [hl1]; exact h4
      · intro k hk a b hka hkb
        have hf := (fix_spec as c ex hlen k a _ hka (h5 k hk a b hka hkb)).2
        have hnn := any_false _ hany2 _ (has_mem _ _ _ hf)
        unfold axis1
        by_cases hz : isNull (cross2 a b) = true
        · rw [if_pos hz] at hf hnn ⊢
          rw [hnn]
          simpa using hf
        · rw [if_neg hz] at hf ⊢
          exact hf
    | true =>
      have hl2 := hf1 ey as (fix (c.map isNull) as ex c) (by rw [hl1]; exact hlen)
      refine ⟨fix ((fix (c.map isNull) as ex c).map isNull) as ey (fix (c.map isNull) as ex c), by simp, ?_, ?_, ?_, ?_⟩
      · unfold FitsL at *; rw [hl2, hl1]; exact h2
      · rw [hl2, hl1]; exact h3
      · rw [hl2, hl1]; exact h4
      · intro k hk a b hka hkb
        have hf := (fix_spec as c ex hlen k a _ hka (h5 k hk a b hka hkb)).2
        have hf2 := (fix_spec as _ ey (by rw [hl1]; exact hlen) k a _ hka hf).2
        unfold axis1
        by_cases hz : isNull (cross2 a b) = true
        · rw [if_pos hz] at hf2 ⊢
          exact hf2
        · rw [if_neg hz] at hf2 ⊢
          rw [if_neg hz] at hf2
          exact hf2

/-! ### without roll -/

noncomputable def base1 (a b : Option V3) : Option M3 := rotO (theta a b) (axis1 a b)

theorem zip_has (g : α → β → γ) (a : List α) (b : List β) (hl : a.length = b.length) (k : Nat) (x : α) (y : β) (hx : Has a k x) (hy : Has b k y) :
    Has (List.zipWith g a b) k (g x y) := by
  rcases hx with rfl | ⟨h1, h2⟩
  · rcases hy with rfl | ⟨h3, h4⟩
    · left; rfl
    · simp at hl; omega
  · rcases hy with rfl | ⟨h3, h4⟩
    · simp at hl; omega
    · right; refine ⟨by simp; omega, by rw [List.getElem?_zipWith, h2, h4]⟩

theorem base_spec (n : Nat) (hn : 0 < n) (as bs : List (Option V3)) (ha : FitsL n as) (hb : FitsL n bs)
    (hpar : as.length = n ∨ ∀ k < n, ∀ a b, Has as k a → Has bs k b → isNull (cross2 a b) = false) :
    ∃ R, base as bs = .ok R ∧ FitsL n R ∧ (as.length = n ∨ bs.length = n → R.length = n) ∧ (as.length = 1 → bs.length = 1 → R.length = 1) ∧
      ∀ k < n, ∀ a b, Has as k a → Has bs k b → Has R k (base1 a b) := by
  obtain ⟨ax, h1, h2, h3, h4, h5⟩ := axes_spec n hn as bs ha hb hpar
  obtain ⟨th, g1, g2, g3, g4, g5⟩ := bcast_fit theta n as bs ha hb
  have hl : th.length = ax.length := by
    by_cases h : as.length = n ∨ bs.length = n
    · rw [h3 h, g3 h]
    · have e1 : as.length = 1 := by unfold FitsL at ha; omega
      have e2 : bs.length = 1 := by unfold FitsL at hb; omega
      rw [h4 e1 e2, g4 e1 e2]
  have hlz : (List.zipWith rotO th ax).length = ax.length := by simp; omega
  unfold base
  rw [np_ok _ _ g1]
  simp only [bind, Except.bind]
  rw [h1]
  refine ⟨List.zipWith rotO th ax, rfl, ?_, ?_, ?_, ?_⟩
  · unfold FitsL at *; rw [hlz]; exact h2
  · rw [hlz]; exact h3
  · rw [hlz]; exact h4
  · intro k hk a b hka hkb
    exact zip_has rotO th ax hl k _ _ (g5 k hk a b hka hkb) (h5 k hk a b hka hkb)

/-! ### roll -/

open Classical in
noncomputable def rolled1 (t : Option ℝ) (b : Option V3) (R : Option M3) : Option M3 := if t = some 0 then R else mulO (rotO t b) R

theorem rot_zero (v : V3) (h : len v ≠ 0) : Rotation.wxyz2rot 0 v = some 1 := by
  unfold Rotation.wxyz2rot
  rw [if_neg h]
  unfold Rotation.rodrigues
  simp

theorem rolled_spec (n : Nat) (hn : 0 < n) (roll : List (Option ℝ)) (bs : List (Option V3)) (R : List (Option M3)) (hr : FitsL n roll) (hb : FitsL n bs) (hR : FitsL n R) :
    ∃ R', rolled roll bs R = .ok R' ∧ FitsL n R' ∧ (R.length = n → R'.length = n) ∧ (roll.length = 1 → bs.length = 1 → R.length = 1 → R'.length = 1) ∧
      ∀ k < n, ∀ t b r, Has roll k t → Has bs k b → Has R k r → (b = none → r = none) → (∀ v, b = some v → len v ≠ 0) → Has R' k (rolled1 t b r) := by
  unfold rolled
  by_cases hall : roll.all (fun t => decide (t = some 0)) = true
  · rw [if_pos hall]
    refine ⟨R, rfl, hR, fun h => h, fun _ _ h => h, ?_⟩
    intro k hk t b r ht hb' hr' _ _
    rw [List.all_eq_true] at hall
    have : t = some 0 := by simpa using hall t (has_mem _ _ _ ht)
    unfold rolled1
    rw [if_pos this]
    exact hr'
  · rw [if_neg hall]
    have hfit : FitsL (max roll.length bs.length) bs ∧ FitsL (max roll.length bs.length) roll ∧ 0 < max roll.length bs.length := by
      unfold FitsL at *; omega
    obtain ⟨ks, h1, h2, h3⟩ := RSt.assign_spec _ hfit.2.2 bs hfit.1
    have hksn : FitsL n ks := by unfold FitsL at *; rw [h2]; omega
    obtain ⟨Rr, g1, g2, g3, g4, g5⟩ := bcast_fit rotO n roll ks hr hksn
    obtain ⟨R', f1, f2, f3, f4, f5⟩ := bcast_fit mulO n Rr R g2 hR
    have hks : ∀ k < n, ∀ b, Has bs k b → Has ks k b := by
      intro k hk b hb'
      by_cases hk' : k < max roll.length bs.length
      · exact h3 k hk' b hb'
      · have l1 : bs.length = 1 := by unfold FitsL at *; omega
        have l2 : ks.length = 1 := by unfold FitsL at *; omega
        rcases hb' with rfl | ⟨h, _⟩
        · rcases h3 0 (by omega) b (Or.inl rfl) with h | ⟨h, _⟩
          · exact Or.inl h
          · omega
        · omega
    refine ⟨R', ?_, f2, fun h => f3 (Or.inr h), ?_, ?_⟩
    · rw [np_ok _ _ h1]
      simp only [bind, Except.bind]
      rw [np_ok _ _ g1]
      exact np_ok _ _ f1
    · intro e1 e2 e3
      exact f4 (g4 e1 (by rw [h2, e1, e2]; rfl)) e3
    · intro k hk t b r ht hb' hr' hn1 hn2
      have key := f5 k hk _ _ (g5 k hk _ _ ht (hks k hk b hb')) hr'
      unfold rolled1
      by_cases h0 : t = some 0
      · rw [if_pos h0]
        rw [h0] at key
        cases b with
        | none => rw [hn1 rfl] at key ⊢; exact key
        | some v =>
          have : rotO (some 0) (some v) = some 1 := rot_zero v (hn2 v rfl)
          rw [this] at key
          cases r with
          | none => exact key
          | some r => have e : mulO (some 1) (some r) = some r := by show some (1 * r) = some r; rw [Matrix.one_mul]
                      rw [e] at key; exact key
      · rw [if_neg h0]; exact key

/-! ### unit vectors -/

theorem unitO_len (v w : V3) (h : unitO v = some w) : len w ≠ 0 := by
  unfold unitO at h
  split at h
  · cases h
  · rename_i hv
    cases h
    rw [Rotation.len_eq_one (Rotation.unit_dot hv)]; exact one_ne_zero

theorem base1_none (a : Option V3) : base1 a none = none := by
  cases a <;> rfl

theorem has_unit (l : List V3) (k : Nat) (x : V3) (h : Has l k x) : Has (l.map unitO) k (unitO x) := Ang.has_map unitO l k x h

theorem map_has (g : α → β) (l : List α) (k : Nat) (y : β) (h : Has (l.map g) k y) : ∃ x, Has l k x ∧ y = g x := by
  rcases h with h | ⟨h1, h2⟩
  · have : l.length = 1 := by have := congrArg List.length h; simpa using this
    obtain ⟨x, rfl⟩ := List.length_eq_one_iff.1 this
    simp only [List.map_cons, List.map_nil, List.cons.injEq, and_true] at h
    exact ⟨x, Or.inl rfl, h.symm⟩
  · rw [List.getElem?_map] at h2
    cases hx : l[k]? with
    | none => rw [hx] at h2; cases h2
    | some x => rw [hx] at h2; exact ⟨x, Or.inr ⟨by simpa using h1, hx⟩, by simpa using h2.symm⟩

/-- the result for one of each -/
theorem a2b_one (a b : V3) (t : ℝ) (u : Unit') :
    a2b (.one a) (.one b) (.one t) u none = .ok (.one (rolled1 (some (toRad u t)) (unitO b) (base1 (unitO a) (unitO b)))) := by
  obtain ⟨R, h1, h2, h3, h4, h5⟩ := base_spec 1 (by decide) [unitO a] [unitO b] (Or.inl rfl) (Or.inl rfl) (Or.inl rfl)
  obtain ⟨R', g1, g2, g3, g4, g5⟩ := rolled_spec 1 (by decide) [some (toRad u t)] [unitO b] R (Or.inl rfl) (Or.inl rfl) h2
  have hR := h5 0 (by decide) _ _ (Or.inl rfl) (Or.inl rfl)
  have hR' := g5 0 (by decide) _ _ _ (Or.inl rfl) (Or.inl rfl) hR (by rintro e; rw [e]; exact base1_none _) (fun v hv => unitO_len _ _ hv)
  have l1 : R'.length = 1 := g4 rfl rfl (h4 rfl rfl)
  rcases hR' with hR' | ⟨h, _⟩
  · unfold a2b a2bOn
    simp only [Stk.list, List.map_cons, List.map_nil, bind, Except.bind]
    rw [h1]
    simp only
    rw [g1, hR']
    rfl
  · omega

theorem par_list (n : Nat) (a b : Stk V3) (fa : FitsL n (a.list.map unitO))
    (hpar : Size n a ∨ n = 1 ∨ ∀ k < n, ∀ x y, Entry a k x → Entry b k y → len x ≠ 0 → len y ≠ 0 →
      1 / 10 ^ 8 < len (cross (Rotation.unit x) (Rotation.unit y))) :
    (a.list.map unitO).length = n ∨ ∀ k < n, ∀ x y, Has (a.list.map unitO) k x → Has (b.list.map unitO) k y → isNull (cross2 x y) = false := by
  rcases hpar with ⟨l, rfl, h⟩ | h | h
  · left; simpa [Stk.list] using h
  · left; subst h; rcases fa with h | h <;> exact h
  · right
    intro k hk x y hx hy
    obtain ⟨x', hx', rfl⟩ := map_has _ _ _ _ hx
    obtain ⟨y', hy', rfl⟩ := map_has _ _ _ _ hy
    unfold unitO
    by_cases h1 : len x' = 0
    · rw [if_pos h1]; rfl
    · by_cases h2 : len y' = 0
      · rw [if_pos h2, if_neg h1]; rfl
      · rw [if_neg h1, if_neg h2]
        have := h k hk x' y' (RSt.has_entry _ _ _ hx') (RSt.has_entry _ _ _ hy') h1 h2
        unfold cross2 isNull
        simp only [Option.bind_some, Option.map_some, decide_eq_false_iff_not]
        rw [isClose_zero (Rotation.len_nonneg _)]
        linarith

end A2

/-- C203: `a2b_rot` of one vector, one vector and one angle is the rotation of C59 (nan for a vector 0) -/
theorem C203_single (a b : V3) (t : ℝ) (u : Unit') : a2b (.one a) (.one b) (.one t) u none = .ok (.one (Rotation.a2bRot a b (toRad u t))) := by
  rw [A2.a2b_one]
  congr 2
  unfold Rotation.a2bRot
  by_cases ha : len a = 0
  · rw [if_pos (Or.inl ha)]
    have : unitO a = none := by unfold unitO; rw [if_pos ha]
    rw [this]
    have : A2.base1 none (unitO b) = none := by cases unitO b <;> rfl
    rw [this]
    unfold A2.rolled1
    split
    · rfl
    · unfold mulO; cases rotO (some (toRad u t)) (unitO b) <;> rfl
  · by_cases hb : len b = 0
    · rw [if_pos (Or.inr hb)]
      have : unitO b = none := by unfold unitO; rw [if_pos hb]
      rw [this, A2.base1_none]
      unfold A2.rolled1
      split <;> rfl
    · rw [if_neg (by push Not; exact ⟨ha, hb⟩)]
      have ea : unitO a = some (Rotation.unit a) := by unfold unitO; rw [if_neg ha]
      have eb : unitO b = some (Rotation.unit b) := by unfold unitO; rw [if_neg hb]
      rw [ea, eb]
      have e1 : A2.base1 (some (Rotation.unit a)) (some (Rotation.unit b)) = Rotation.a2bUnit (Rotation.unit a) (Rotation.unit b) := by
        unfold A2.base1 A2.axis1 Rotation.a2bUnit Rotation.a2bAxis
        simp only [cross2, theta, Option.bind_some, Option.map_some, isNull]
        by_cases h1 : Rotation.isClose (len (cross (Rotation.unit a) (Rotation.unit b))) 0
        · by_cases h2 : Rotation.isClose (len (cross (Rotation.unit a) ex)) 0
          · simp [h1, h2, rotO]
          · simp [h1, h2, rotO]
        · simp [h1, rotO]
      rw [e1]
      unfold A2.rolled1
      by_cases h0 : toRad u t = 0
      · rw [if_pos (by rw [h0])]
        cases Rotation.a2bUnit (Rotation.unit a) (Rotation.unit b) with
        | none => rfl
        | some R => show some R = Rotation.applyRoll _ _ _; unfold Rotation.applyRoll; rw [if_pos h0]
      · rw [if_neg (by simpa using h0)]
        cases Rotation.a2bUnit (Rotation.unit a) (Rotation.unit b) with
        | none => unfold mulO rotO; simp
        | some R =>
          show _ = Rotation.applyRoll _ _ _; unfold Rotation.applyRoll; rw [if_neg h0]
          unfold mulO rotO
          simp only [Option.bind_some, Option.map_some]
          cases Rotation.wxyz2rot (toRad u t) (Rotation.unit b) <;> rfl

/-- C203: stacks are handled entry by entry: entry `k` is the rotation for entries `k` alone. There have to be as many `a` as rotations,
or no `b` (nearly) along the one `a` -/
theorem C203_stacks_partial (a b : Stk V3) (roll : Stk ℝ) (u : Unit') (n : Nat) (hn : 0 < n) (ha : Fits n a) (hb : Fits n b) (hr : Fits n roll)
    (hpar : Size n a ∨ n = 1 ∨ ∀ k < n, ∀ x y, Entry a k x → Entry b k y → len x ≠ 0 → len y ≠ 0 →
      1 / 10 ^ 8 < len (cross (Rotation.unit x) (Rotation.unit y))) :
    ∃ r, a2b a b roll u none = .ok r ∧ (IsOne r ↔ IsOne a ∧ IsOne b ∧ IsOne roll) ∧ (Size n a ∨ Size n b → Size n r) ∧
      ∀ k < n, ∀ x y t, Entry a k x → Entry b k y → Entry roll k t →
        ∃ R, a2b (.one x) (.one y) (.one t) u none = .ok (.one R) ∧ Entry r k R := by
  have fa : RSt.FitsL n (a.list.map unitO) := by have := RSt.fits_list n a ha; unfold RSt.FitsL at *; simpa using this
  have fb : RSt.FitsL n (b.list.map unitO) := by have := RSt.fits_list n b hb; unfold RSt.FitsL at *; simpa using this
  have fr : RSt.FitsL n (roll.list.map fun t => some (toRad u t)) := by have := RSt.fits_list n roll hr; unfold RSt.FitsL at *; simpa using this
  have hpar' := A2.par_list n a b fa hpar
  obtain ⟨R, h1, h2, h3, h4, h5⟩ := A2.base_spec n hn _ _ fa fb hpar'
  obtain ⟨R', g1, g2, g3, g4, g5⟩ := A2.rolled_spec n hn _ _ R fr fb h2
  obtain ⟨r, f1, f2, f3, f4, f5⟩ := RSt.close_spec (a.single && b.single && roll.single) n R' g2 (by
    intro hb
    rw [Bool.and_eq_true, Bool.and_eq_true, RSt.single_iff, RSt.single_iff, RSt.single_iff] at hb
    obtain ⟨⟨⟨x, rfl⟩, ⟨y, rfl⟩⟩, ⟨z, rfl⟩⟩ := hb
    exact g4 rfl rfl (h4 rfl rfl))
  refine ⟨r, ?_, by rw [f2, Bool.and_eq_true, Bool.and_eq_true, RSt.single_iff, RSt.single_iff, RSt.single_iff, and_assoc], ?_, ?_⟩
  · unfold a2b a2bOn
    simp only [bind, Except.bind]
    rw [h1]
    simp only
    rw [g1]
    exact A2.np_ok _ _ f1
  · intro hsz
    refine f4 ?_ n (g3 (h3 ?_))
    · rw [Bool.eq_false_iff, Ne, Bool.and_eq_true, Bool.and_eq_true, RSt.single_iff, RSt.single_iff]
      rintro ⟨⟨⟨x, rfl⟩, ⟨y, rfl⟩⟩, _⟩
      rcases hsz with ⟨l, hl, _⟩ | ⟨l, hl, _⟩ <;> cases hl
    · rcases hsz with ⟨l, rfl, hl⟩ | ⟨l, rfl, hl⟩
      · left; simpa [Stk.list] using hl
      · right; simpa [Stk.list] using hl
  · intro k hk x y t hx hy ht
    refine ⟨_, A2.a2b_one x y t u, f5 k _ ?_⟩
    have e1 := A2.has_unit _ _ _ (RSt.entry_has _ _ _ hx)
    have e2 := A2.has_unit _ _ _ (RSt.entry_has _ _ _ hy)
    have e3 := Ang.has_map (fun t => some (toRad u t)) _ _ _ (RSt.entry_has _ _ _ ht)
    exact g5 k hk _ _ _ e3 e2 (h5 k hk _ _ e1 e2) (by rintro e; rw [e]; exact A2.base1_none _) (fun v hv => A2.unitO_len _ _ hv)

/-- C203 is violated: a rotation from one vector to several is an IndexError if any of them is along it or opposite -/
theorem C203_one_start_violated (x : V3) (ys : List V3) (roll : Stk ℝ) (u : Unit') (newx : Option (List V3)) (hx : len x ≠ 0) (hy : 1 < ys.length)
    (c : ℝ) (hc : c ≠ 0) (hm : vsmul c x ∈ ys) : a2b (.one x) (.many ys) roll u newx = .error .index := by
  have hz : len (vsmul c x) ≠ 0 := by
    intro h
    obtain ⟨z0, z1, z2⟩ := Rotation.eq_zero_of_len h
    unfold vsmul at z0 z1 z2
    apply hx
    unfold len
    rw [(mul_eq_zero.1 z0).resolve_left hc, (mul_eq_zero.1 z1).resolve_left hc, (mul_eq_zero.1 z2).resolve_left hc]
    simp
  have hnull : isNull (cross2 (unitO x) (unitO (vsmul c x))) = true := by
    unfold unitO cross2 isNull
    rw [if_neg hx, if_neg hz]
    simp only [Option.bind_some, Option.map_some, decide_eq_true_eq]
    have : cross (Rotation.unit x) (Rotation.unit (vsmul c x)) = ![0, 0, 0] := by
      apply Rotation.ext3 <;> simp only [cross, Rotation.unit, vsmul, Matrix.cons_val] <;> ring
    rw [this]
    have : len ![0, 0, 0] = 0 := by unfold len; simp [Matrix.cons_val]
    rw [this]
    norm_num [Rotation.isClose]
  unfold a2b a2bOn base axes
  simp only [Stk.list, List.map_cons, List.map_nil, bind, Except.bind]
  rw [A2.np_ok _ _ (by unfold bcast; rw [if_neg (by simp; omega)])]
  simp only
  rw [A2.np_ok _ _ (by unfold bcast; rw [if_neg (by simp; omega)])]
  simp only
  rw [if_pos, if_neg]
  · simp; omega
  · rw [List.any_eq_true]
    refine ⟨true, ?_, rfl⟩
    simp only [List.mem_map]
    exact ⟨_, ⟨_, ⟨_, hm, rfl⟩, rfl⟩, hnull⟩

namespace A2

open RSt (Has FitsL)

noncomputable def newRoll1 (x : V3) (b : Option V3) (R : Option M3) : Option ℝ :=
  if isNull (project x b) then some 0 else rollOf (R.bind fun R => unitO (R *ᵥ ex)) ((project x b).bind unitO) b

theorem scatter_false (no : List Bool) (vs : List (Option ℝ)) (h : ∀ x ∈ no, x = false) (hl : no.length = vs.length) : scatter no vs = vs := by
  induction no generalizing vs with
  | nil => cases vs with
    | nil => rfl
    | cons v vs => simp at hl
  | cons x no ih =>
    cases vs with
    | nil => simp at hl
    | cons v vs =>
      rw [h x (by simp)]
      show v :: scatter no vs = v :: vs
      rw [ih vs (fun y hy => h y (by simp [hy])) (by simpa using hl)]

theorem newRoll_spec (n : Nat) (hn : 0 < n) (xs : List V3) (bs : List (Option V3)) (R : List (Option M3)) (hx : FitsL n xs) (hb : FitsL n bs) (hR : FitsL n R)
    (hsz : xs.length = n ∨ bs.length = n) (q : Bool) (hq : ∀ k < n, ∀ x b, Has xs k x → Has bs k b → isNull (project x b) = q) :
    ∃ roll, newRoll xs bs R = .ok roll ∧ roll.length = n ∧
      ∀ k < n, ∀ x b r, Has xs k x → Has bs k b → Has R k r → Has roll k (newRoll1 x b r) := by
  obtain ⟨nx, h1, h2, h3, h4, h5⟩ := bcast_fit project n xs bs hx hb
  have hnx : ∀ v ∈ nx, isNull v = q := by
    intro v hv
    obtain ⟨k, hk, x, b, e1, e2, rfl⟩ := bcast_elem project n hn xs bs nx hx hb h1 v hv
    exact hq k hk x b e1 e2
  have hno : ∀ z ∈ nx.map isNull, z = q := by
    intro z hz
    obtain ⟨v, hv, rfl⟩ := List.mem_map.1 hz
    exact hnx v hv
  have hlen := h3 hsz
  unfold newRoll
  rw [np_ok _ _ h1]
  simp only [bind, Except.bind]
  cases q with
  | true =>
    rw [if_pos (by rw [List.all_eq_true]; intro z hz; exact hno z hz)]
    refine ⟨_, rfl, by simpa using hlen, ?_⟩
    intro k hk x b r hkx hkb hkr
    have := Ang.has_map (fun _ => (some 0 : Option ℝ)) _ _ _ (Ang.has_map isNull _ _ _ (h5 k hk x b hkx hkb))
    unfold newRoll1
    rw [hq k hk x b hkx hkb]
    exact this
  | false =>
    have hne : (nx.map isNull).all id = false := by
      match nx, hno, hlen with
      | [], _, h => simp at h; omega
      | v :: l, hno, _ => rw [List.map_cons, List.all_cons, hno (isNull v) (by simp)]; rfl
    rw [if_neg (by rw [hne]; simp)]
    have fnx : FitsL n (nx.map fun x => x.bind unitO) := Or.inr (by simpa using hlen)
    have fR : FitsL n (R.map fun R => R.bind fun R => unitO (R *ᵥ ex)) := by unfold FitsL at *; simpa using hR
    obtain ⟨pr, g1, g2, g3, g4, g5⟩ := bcast_fit Prod.mk n _ _ fR fnx
    have lpr := g3 (Or.inr (by simpa using hlen))
    obtain ⟨vs, e1, e2, e3, e4, e5⟩ := bcast_fit (fun (p : Option V3 × Option V3) b => rollOf p.1 p.2 b) n pr bs g2 hb
    have lvs := e3 (Or.inl lpr)
    have hcount : (nx.map isNull).countP (fun x => !x) = n := by
      rw [List.countP_eq_length.2 (by intro z hz; rw [hno z hz]; rfl)]
      simpa using hlen
    have has : assign n vs = .ok vs := by unfold assign; rw [if_pos lvs]
    refine ⟨vs, ?_, lvs, ?_⟩
    · rw [np_ok _ _ g1]
      simp only
      rw [np_ok _ _ e1]
      simp only
      rw [hcount, np_ok _ _ has]
      simp only
      rw [scatter_false _ _ hno (by rw [lvs]; simpa using hlen)]
    · intro k hk x b r hkx hkb hkr
      unfold newRoll1
      rw [hq k hk x b hkx hkb]
      exact e5 k hk _ _ (g5 k hk _ _ (Ang.has_map (fun R : Option M3 => R.bind fun R => unitO (R *ᵥ ex)) _ _ _ hkr)
        (Ang.has_map (fun x : Option V3 => x.bind unitO) _ _ _ (h5 k hk x b hkx hkb))) hkb

/-- the result for one of each -/
theorem newx_one (a b x : V3) (u : Unit') :
    a2b (.one a) (.one b) (.one 0) u (some [x]) = .ok (.one (rolled1 (newRoll1 x (unitO b) (base1 (unitO a) (unitO b))) (unitO b) (base1 (unitO a) (unitO b)))) := by
  obtain ⟨R, h1, h2, h3, h4, h5⟩ := base_spec 1 (by decide) [unitO a] [unitO b] (Or.inl rfl) (Or.inl rfl) (Or.inl rfl)
  have hR := h5 0 (by decide) _ _ (Or.inl rfl) (Or.inl rfl)
  obtain ⟨roll, e1, e2, e3⟩ := newRoll_spec 1 (by decide) [x] [unitO b] R (Or.inl rfl) (Or.inl rfl) h2 (Or.inl rfl) (isNull (project x (unitO b))) (by
    intro k hk y z hy hz
    rcases hy with hy | ⟨hy, _⟩
    · rcases hz with hz | ⟨hz, _⟩
      · simp only [List.cons.injEq, and_true] at hy hz; rw [hy, hz]
      · simp at hz
    · simp at hy)
  have hroll := e3 0 (by decide) _ _ _ (Or.inl rfl) (Or.inl rfl) hR
  obtain ⟨R', g1, g2, g3, g4, g5⟩ := rolled_spec 1 (by decide) roll [unitO b] R (Or.inl e2) (Or.inl rfl) h2
  have hR' := g5 0 (by decide) _ _ _ hroll (Or.inl rfl) hR (by rintro e; rw [e]; exact base1_none _) (fun v hv => unitO_len _ _ hv)
  have l1 : R'.length = 1 := g4 e2 rfl (h4 rfl rfl)
  rcases hR' with hR' | ⟨h, _⟩
  · unfold a2b a2bOn
    simp only [Stk.list, List.map_cons, List.map_nil, bind, Except.bind]
    rw [h1]
    simp only [noRoll, if_true]
    rw [e1]
    simp only
    rw [g1, hR']
    rfl
  · omega

theorem rot_ex (R : M3) (h : Spec.Rotation.IsRot R) : unitO (R *ᵥ ex) = some (Rotation.unit (R *ᵥ ex)) := by
  unfold unitO
  rw [if_neg]
  rw [Rotation.len_eq_one (by rw [Rotation.IsRot_dot h]; simp [dot, ex])]
  exact one_ne_zero

end A2

/-- C203: with `new_x`, for one of each, it is the rotation of C70 -/
theorem C203_new_x_single (a b x : V3) (u : Unit') : a2b (.one a) (.one b) (.one 0) u (some [x]) = .ok (.one (Rotation.a2bRotNewX a b x)) := by
  rw [A2.newx_one]
  congr 2
  unfold Rotation.a2bRotNewX
  by_cases ha : len a = 0
  · rw [if_pos (Or.inl ha)]
    have : unitO a = none := by unfold unitO; rw [if_pos ha]
    rw [this]
    have : A2.base1 none (unitO b) = none := by cases unitO b <;> rfl
    rw [this]
    unfold A2.rolled1
    split
    · rfl
    · unfold mulO; cases rotO (A2.newRoll1 x (unitO b) none) (unitO b) <;> rfl
  · by_cases hb : len b = 0
    · rw [if_pos (Or.inr hb)]
      have : unitO b = none := by unfold unitO; rw [if_pos hb]
      rw [this, A2.base1_none]
      unfold A2.rolled1
      split
      · rfl
      · unfold mulO; cases rotO (A2.newRoll1 x none none) none <;> rfl
    · rw [if_neg (by push Not; exact ⟨ha, hb⟩)]
      have ea : unitO a = some (Rotation.unit a) := by unfold unitO; rw [if_neg ha]
      have eb : unitO b = some (Rotation.unit b) := by unfold unitO; rw [if_neg hb]
      have ua := Rotation.unit_dot ha
      have ub := Rotation.unit_dot hb
      have e1 : A2.base1 (unitO a) (unitO b) = Rotation.a2bUnit (Rotation.unit a) (Rotation.unit b) := by
        have h := A2.a2b_one a b 0 .rad
        rw [C203_single] at h
        unfold A2.rolled1 at h
        rw [if_pos (by simp [toRad])] at h
        simp only [Except.ok.injEq, Stk.one.injEq] at h
        rw [← h]
        unfold Rotation.a2bRot
        rw [if_neg (by push Not; exact ⟨ha, hb⟩), a2bUnit_eq ua ub]
        show Rotation.applyRoll _ _ _ = _
        unfold Rotation.applyRoll
        rw [if_pos (by simp [toRad])]
      rw [e1, a2bUnit_eq ua ub, eb]
      have hR := a2bUnit_isRot ua ub
      generalize Rotation.rodM (dot (Rotation.unit a) (Rotation.unit b)) (len (cross (Rotation.unit a) (Rotation.unit b)))
        (Rotation.unit (Rotation.a2bAxis (Rotation.unit a) (Rotation.unit b))) = R at *
      have e2 : A2.newRoll1 x (some (Rotation.unit b)) (some R) = some (Rotation.newXRoll (Rotation.unit b) x R) := by
        unfold A2.newRoll1 Rotation.newXRoll project
        simp only [Option.map_some, isNull]
        by_cases h : Rotation.isClose (len (vsub x (vsmul (dot x (Rotation.unit b)) (Rotation.unit b)))) 0
        · simp [h]
        · simp only [h, decide_false, if_false, Option.bind_some, A2.rot_ex R hR]
          have : unitO (vsub x (vsmul (dot x (Rotation.unit b)) (Rotation.unit b))) = some (Rotation.unit (vsub x (vsmul (dot x (Rotation.unit b)) (Rotation.unit b)))) := by
            unfold unitO
            rw [if_neg]
            intro h0
            apply h
            rw [h0]; norm_num [Rotation.isClose]
          rw [this]
          simp [rollOf]
      rw [e2]
      show _ = Rotation.applyRoll _ _ _
      unfold A2.rolled1 Rotation.applyRoll
      by_cases h0 : Rotation.newXRoll (Rotation.unit b) x R = 0
      · rw [if_pos (by rw [h0]), if_pos h0]
      · rw [if_neg (by simpa using h0), if_neg h0]
        unfold mulO rotO
        simp only [Option.bind_some, Option.map_some]
        cases Rotation.wxyz2rot (Rotation.newXRoll (Rotation.unit b) x R) (Rotation.unit b) <;> rfl

/-- C203: stacks with `new_x`, entry by entry: for as many `b` or `new_x` as rotations, if all or none of the `new_x` are (nearly)
along their `b`, and not one `a` and one `b` for several `new_x` -/
theorem C203_new_x_partial (a b : Stk V3) (x : List V3) (u : Unit') (n : Nat) (hn : 0 < n) (ha : Fits n a) (hb : Fits n b) (hx : x.length = 1 ∨ x.length = n)
    (hpar : Size n a ∨ n = 1 ∨ ∀ k < n, ∀ x y, Entry a k x → Entry b k y → len x ≠ 0 → len y ≠ 0 →
      1 / 10 ^ 8 < len (cross (Rotation.unit x) (Rotation.unit y)))
    (hsz : Size n b ∨ x.length = n) (hone : n = 1 ∨ ¬ (IsOne a ∧ IsOne b)) (hz : ∀ y ∈ b.list, len y ≠ 0)
    (hq : (∀ k < n, ∀ y z, Entry b k y → Entry (.many x) k z → len (vsub z (vsmul (dot z (Rotation.unit y)) (Rotation.unit y))) ≤ 1 / 10 ^ 8) ∨
      (∀ k < n, ∀ y z, Entry b k y → Entry (.many x) k z → 1 / 10 ^ 8 < len (vsub z (vsmul (dot z (Rotation.unit y)) (Rotation.unit y))))) :
    ∃ r, a2b a b (.one 0) u (some x) = .ok r ∧ (IsOne r ↔ IsOne a ∧ IsOne b) ∧ (Size n a ∨ Size n b → Size n r) ∧
      ∀ k < n, ∀ y z w, Entry a k y → Entry b k z → Entry (.many x) k w →
        ∃ R, a2b (.one y) (.one z) (.one 0) u (some [w]) = .ok (.one R) ∧ Entry r k R := by
  have fa : RSt.FitsL n (a.list.map unitO) := by have := RSt.fits_list n a ha; unfold RSt.FitsL at *; simpa using this
  have fb : RSt.FitsL n (b.list.map unitO) := by have := RSt.fits_list n b hb; unfold RSt.FitsL at *; simpa using this
  have hpar' := A2.par_list n a b fa hpar
  obtain ⟨R, h1, h2, h3, h4, h5⟩ := A2.base_spec n hn _ _ fa fb hpar'
  have hproj : ∀ k y z, RSt.Has x k z → RSt.Has (b.list.map unitO) k y → ∃ y', Entry b k y' ∧ Entry (.many x) k z ∧
      project z y = some (vsub z (vsmul (dot z (Rotation.unit y')) (Rotation.unit y'))) := by
    intro k y z hzk hyk
    obtain ⟨y', hy', rfl⟩ := A2.map_has _ _ _ _ hyk
    refine ⟨y', RSt.has_entry _ _ _ hy', RSt.has_entry (.many x) _ _ hzk, ?_⟩
    unfold unitO
    rw [if_neg (hz y' (A2.has_mem _ _ _ hy'))]
    rfl
  have hq' : ∃ q, ∀ k < n, ∀ z y, RSt.Has x k z → RSt.Has (b.list.map unitO) k y → isNull (project z y) = q := by
    rcases hq with hq | hq
    · refine ⟨true, fun k hk z y hzk hyk => ?_⟩
      obtain ⟨y', e1, e2, e3⟩ := hproj k y z hzk hyk
      rw [e3]
      unfold isNull
      simp only [decide_eq_true_eq]
      rw [isClose_zero (Rotation.len_nonneg _)]
      exact hq k hk y' z e1 e2
    · refine ⟨false, fun k hk z y hzk hyk => ?_⟩
      obtain ⟨y', e1, e2, e3⟩ := hproj k y z hzk hyk
      rw [e3]
      unfold isNull
      simp only [decide_eq_false_iff_not]
      rw [isClose_zero (Rotation.len_nonneg _)]
      have := hq k hk y' z e1 e2
      linarith
  obtain ⟨q, hq'⟩ := hq'
  have hsz' : x.length = n ∨ (b.list.map unitO).length = n := by
    rcases hsz with ⟨l, rfl, h⟩ | h
    · right; simpa [Stk.list] using h
    · left; exact h
  obtain ⟨roll, e1, e2, e3⟩ := A2.newRoll_spec n hn x _ R hx fb h2 hsz' q hq'
  obtain ⟨R', g1, g2, g3, g4, g5⟩ := A2.rolled_spec n hn roll _ R (Or.inr e2) fb h2
  obtain ⟨r, f1, f2, f3, f4, f5⟩ := RSt.close_spec (a.single && b.single && (Stk.one (0 : ℝ)).single) n R' g2 (by
    intro hb
    rw [Bool.and_eq_true, Bool.and_eq_true, RSt.single_iff, RSt.single_iff] at hb
    rcases hone with rfl | h
    · rcases g2 with h | h <;> exact h
    · exact absurd hb.1 h)
  refine ⟨r, ?_, by rw [f2, Bool.and_eq_true, Bool.and_eq_true, RSt.single_iff, RSt.single_iff]; simp [Stk.single], ?_, ?_⟩
  · unfold a2b a2bOn
    simp only [bind, Except.bind]
    rw [h1]
    simp only [Stk.list, noRoll, if_true]
    simp only [Stk.list] at e1 g1
    rw [e1]
    simp only
    rw [g1]
    exact A2.np_ok _ _ f1
  · intro hsz
    refine f4 ?_ n (g3 (h3 ?_))
    · rw [Bool.eq_false_iff, Ne, Bool.and_eq_true, Bool.and_eq_true, RSt.single_iff, RSt.single_iff]
      rintro ⟨⟨⟨x, rfl⟩, ⟨y, rfl⟩⟩, _⟩
      rcases hsz with ⟨l, hl, _⟩ | ⟨l, hl, _⟩ <;> cases hl
    · rcases hsz with ⟨l, rfl, hl⟩ | ⟨l, rfl, hl⟩
      · left; simpa [Stk.list] using hl
      · right; simpa [Stk.list] using hl
  · intro k hk y z w hy hz hw
    refine ⟨_, A2.newx_one y z w u, f5 k _ ?_⟩
    have i1 := A2.has_unit _ _ _ (RSt.entry_has _ _ _ hy)
    have i2 := A2.has_unit _ _ _ (RSt.entry_has _ _ _ hz)
    have i3 := RSt.entry_has _ _ _ hw
    have i4 := h5 k hk _ _ i1 i2
    exact g5 k hk _ _ _ (e3 k hk _ _ _ i3 i2 i4) i2 i4 (by rintro e; rw [e]; exact A2.base1_none _) (fun v hv => A2.unitO_len _ _ hv)

namespace A2

theorem newRoll_len (xs : List V3) (b : Option V3) (R : List (Option M3)) (hR : R.length = 1) (nulls : xs.countP (fun x => !isNull (project x b)) ≠ xs.length)
    (hpos : xs.countP (fun x => !isNull (project x b)) ≠ 0) (h1 : 1 < xs.length) : newRoll xs [b] R = .error .value := by
  have e : bcast project xs [b] = .ok (xs.map fun x => project x b) := by
    unfold bcast
    rw [if_neg (by simp; omega)]
    match xs, h1 with
    | x :: y :: l, _ => rfl
  unfold newRoll
  rw [np_ok _ _ e]
  simp only [bind, Except.bind]
  have hc : (List.map isNull (xs.map fun x => project x b)).countP (fun x => !x) = xs.countP (fun x => !isNull (project x b)) := by
    rw [List.map_map, List.countP_map]; rfl
  rw [if_neg (by
    intro hall
    apply hpos
    rw [← hc, List.countP_eq_zero]
    intro z hz
    rw [List.all_eq_true] at hall
    have : z = true := hall z hz
    rw [this]; simp), hc]
  obtain ⟨r, rfl⟩ := List.length_eq_one_iff.1 hR
  have e2 : ∀ (l : List (Option V3)) (z : Option V3), l.length = xs.length → bcast Prod.mk [z] l = .ok (l.map fun y => (z, y)) := by
    intro l z hl
    unfold bcast
    rw [if_neg (by simp; omega)]
  simp only [List.map_cons, List.map_nil]
  rw [np_ok _ _ (e2 _ _ (by simp))]
  simp only
  have e3 : ∀ (g : Option V3 × Option V3 → Option V3 → Option ℝ) (l : List (Option V3 × Option V3)), l.length = xs.length → bcast g l [b] = .ok (l.map fun p => g p b) := by
    intro g l hl
    unfold bcast
    rw [if_neg (by simp; omega)]
    match l, (by omega : 1 < l.length) with
    | x :: y :: l, _ => rfl
  rw [np_ok _ _ (e3 _ _ (by simp))]
  simp only
  have e4 : ∀ (m : Nat) (l : List (Option ℝ)), l.length = xs.length → m ≠ xs.length → assign m l = .error .value := by
    intro m l hl hm
    unfold assign
    rw [if_neg (by omega)]
    match l, (by omega : 1 < l.length) with
    | x :: y :: l, _ => rfl
  rw [e4 _ _ (by simp) nulls]
  rfl

end A2

/-- C203 is violated: for several `new_x`, some along `b` and some not, it is a ValueError -/
theorem C203_new_x_mixed_violated (a b : V3) (x : List V3) (u : Unit') (hb : len b ≠ 0) (y z : V3) (hy : y ∈ x) (hz : z ∈ x)
    (h1 : len (vsub y (vsmul (dot y (Rotation.unit b)) (Rotation.unit b))) = 0)
    (h2 : 1 / 10 ^ 8 < len (vsub z (vsmul (dot z (Rotation.unit b)) (Rotation.unit b)))) :
    a2b (.one a) (.one b) (.one 0) u (some x) = .error .value := by
  obtain ⟨R, g1, g2, g3, g4, g5⟩ := A2.base_spec 1 (by decide) [unitO a] [unitO b] (Or.inl rfl) (Or.inl rfl) (Or.inl rfl)
  have eb : unitO b = some (Rotation.unit b) := by unfold unitO; rw [if_neg hb]
  have n1 : isNull (project y (unitO b)) = true := by
    rw [eb]; unfold project isNull; simp only [Option.map_some, decide_eq_true_eq]; rw [h1]; norm_num [Rotation.isClose]
  have n2 : isNull (project z (unitO b)) = false := by
    rw [eb]; unfold project isNull; simp only [Option.map_some, decide_eq_false_iff_not]
    rw [isClose_zero (Rotation.len_nonneg _)]; linarith
  have hlen : 1 < x.length := by
    match x, hy, hz with
    | [w], hy, hz =>
      rw [List.mem_singleton] at hy hz
      rw [hy, ← hz, n2] at n1; cases n1
    | p :: q :: l, _, _ => simp
  have := A2.newRoll_len x (unitO b) R (g4 rfl rfl) (by
      intro h
      rw [List.countP_eq_length] at h
      have := h y hy
      rw [n1] at this; cases this) (by
      intro h
      rw [List.countP_eq_zero] at h
      have := h z hz
      rw [n2] at this; exact this rfl) hlen
  unfold a2b a2bOn
  simp only [Stk.list, List.map_cons, List.map_nil, bind, Except.bind]
  rw [g1]
  simp only [noRoll, if_true]
  rw [this]

/-- C203 is violated: for several `a`, one `b` and one `new_x` not along it, it is a ValueError -/
theorem C203_new_x_starts_violated (a : List V3) (b x : V3) (u : Unit') (ha : 1 < a.length) (hb : len b ≠ 0)
    (h : 1 / 10 ^ 8 < len (vsub x (vsmul (dot x (Rotation.unit b)) (Rotation.unit b)))) :
    a2b (.many a) (.one b) (.one 0) u (some [x]) = .error .value := by
  obtain ⟨R, g1, g2, g3, g4, g5⟩ := A2.base_spec a.length (by omega) (a.map unitO) [unitO b] (Or.inr (by simp)) (Or.inl rfl) (Or.inl (by simp))
  have hR := g3 (Or.inl (by simp))
  have n2 : isNull (project x (unitO b)) = false := by
    unfold unitO
    rw [if_neg hb]; unfold project isNull; simp only [Option.map_some, decide_eq_false_iff_not]
    rw [isClose_zero (Rotation.len_nonneg _)]; linarith
  have : newRoll [x] [unitO b] R = .error .value := by
    unfold newRoll
    simp only [bcast, List.length_cons, List.length_nil, if_true, List.zipWith_cons_cons, List.zipWith_nil_left, np, bind, Except.bind, List.map_cons, List.map_nil,
      n2, List.all_cons, id, Bool.false_and, Bool.false_eq_true, if_false, List.countP_cons, List.countP_nil, Bool.not_false]
    match R, (by omega : 1 < R.length) with
    | p :: q :: l, _ => simp [assign]
  unfold a2b a2bOn
  simp only [Stk.list, List.map_cons, List.map_nil, bind, Except.bind]
  rw [g1]
  simp only [noRoll, if_true]
  rw [this]

/-- C203 is violated: for one `a`, one `b` and several `new_x`, only the rotation for the first one is returned -/
theorem C203_new_x_first_violated (a b w : V3) (x : List V3) (u : Unit') (hx : x ≠ []) (hb : len b ≠ 0)
    (h : ∀ z ∈ w :: x, 1 / 10 ^ 8 < len (vsub z (vsmul (dot z (Rotation.unit b)) (Rotation.unit b)))) :
    a2b (.one a) (.one b) (.one 0) u (some (w :: x)) = a2b (.one a) (.one b) (.one 0) u (some [w]) := by
  have hl : 1 < (w :: x).length := by cases x with | nil => exact absurd rfl hx | cons y l => simp
  obtain ⟨R, h1, h2, h3, h4, h5⟩ := A2.base_spec 1 (by decide) [unitO a] [unitO b] (Or.inl rfl) (Or.inl rfl) (Or.inl rfl)
  have hR : RSt.Has R 0 (A2.base1 (unitO a) (unitO b)) := h5 0 (by decide) _ _ (Or.inl rfl) (Or.inl rfl)
  have lR := h4 rfl rfl
  have hproj : ∀ z ∈ w :: x, isNull (project z (unitO b)) = false := by
    intro z hz
    unfold unitO
    rw [if_neg hb]; unfold project isNull; simp only [Option.map_some, decide_eq_false_iff_not]
    rw [isClose_zero (Rotation.len_nonneg _)]
    have := h z hz
    linarith
  obtain ⟨roll, e1, e2, e3⟩ := A2.newRoll_spec (w :: x).length (by omega) (w :: x) [unitO b] R (Or.inr rfl) (Or.inl rfl) (Or.inl lR) (Or.inl rfl) false (by
    intro k hk z y hz hy
    rcases hy with hy | ⟨hy, _⟩
    · simp only [List.cons.injEq, and_true] at hy
      rw [← hy]
      exact hproj z (A2.has_mem _ _ _ hz)
    · simp at hy)
  obtain ⟨R', g1, g2, g3, g4, g5⟩ := A2.rolled_spec (w :: x).length (by omega) roll [unitO b] R (Or.inr e2) (Or.inl rfl) (Or.inl lR)
  have hw : RSt.Has (w :: x) 0 w := Or.inr ⟨hl, rfl⟩
  have key := g5 0 (by omega) _ _ _ (e3 0 (by omega) _ _ _ hw (Or.inl rfl) hR) (Or.inl rfl) hR (by rintro e; rw [e]; exact A2.base1_none _)
    (fun v hv => A2.unitO_len _ _ hv)
  rw [A2.newx_one]
  unfold a2b a2bOn
  simp only [Stk.list, List.map_cons, List.map_nil, bind, Except.bind]
  rw [h1]
  simp only [noRoll, if_true]
  rw [e1]
  simp only
  rw [g1]
  simp only [Stk.single, Bool.and_true]
  rcases key with key | ⟨k1, k2⟩
  · rw [key]; rfl
  · match R', k1, k2 with
    | p :: l, _, k2 =>
      simp only [List.getElem?_cons_zero, Option.some.injEq] at k2
      rw [k2]; rfl

/-- C203: a roll and `new_x` together are refused -/
theorem C203_roll_and_new_x (a b : V3) (t : ℝ) (x : List V3) (u : Unit') (h : t ≠ 0) : a2b (.one a) (.one b) (.one t) u (some x) = .error .assertion := by
  obtain ⟨R, h1, _⟩ := A2.base_spec 1 (by decide) [unitO a] [unitO b] (Or.inl rfl) (Or.inl rfl) (Or.inl rfl)
  unfold a2b a2bOn
  simp only [Stk.list, List.map_cons, List.map_nil, bind, Except.bind]
  rw [h1]
  simp only [noRoll, if_neg h]

/-- C203 is violated: for several rolls, all 0, one rotation is returned -/
theorem C203_rolls_violated (x y : V3) (n : Nat) (u : Unit') : ∃ R, a2b (.one x) (.one y) (.many (List.replicate n 0)) u none = .ok (.many [R]) := by
  obtain ⟨R, h1, h2, h3, h4, h5⟩ := A2.base_spec 1 (by decide) [unitO x] [unitO y] (Or.inl rfl) (Or.inl rfl) (Or.inl rfl)
  obtain ⟨z, rfl⟩ := List.length_eq_one_iff.1 (h4 rfl rfl)
  refine ⟨z, ?_⟩
  unfold a2b a2bOn
  simp only [Stk.list, List.map_cons, List.map_nil, bind, Except.bind]
  rw [h1]
  simp only
  have : rolled ((List.replicate n (0 : ℝ)).map fun t => some (toRad u t)) [unitO y] [z] = .ok [z] := by
    unfold rolled
    rw [if_pos]
    rw [List.all_eq_true]
    intro t ht
    simp only [List.map_replicate, List.mem_replicate] at ht
    rw [ht.2]
    cases u <;> simp [toRad]
  rw [this]
  rfl

/-! ### examples -/

/-- two vectors, one of them along `b`, meet the hypotheses of `C203_stacks_partial` -/
example : Size 2 (.many [![1, 0, 0], ![0, 0, 1]] : Stk V3) ∧ Fits 2 (.one ![0, 0, 2] : Stk V3) ∧ Fits 2 (.many [0, 1] : Stk ℝ) :=
  ⟨⟨_, rfl, rfl⟩, Or.inl ⟨_, rfl⟩, Or.inr (Or.inr ⟨_, rfl, rfl⟩)⟩
/-- from x to y and z: no `b` is along `a` -/
example : ∀ k < 2, ∀ x y, Entry (.one ![1, 0, 0] : Stk V3) k x → Entry (.many [![0, 1, 0], ![0, 0, 1]] : Stk V3) k y → len x ≠ 0 → len y ≠ 0 →
      1 / 10 ^ 8 < len (cross (Rotation.unit x) (Rotation.unit y)) := by
  intro k hk x y hx hy _ _
  cases hx
  cases hy with
  | many _ _ _ h1 h2 =>
    match k, hk with
    | 0, _ =>
      simp only [List.getElem?_cons_zero, Option.some.injEq] at h2
      subst h2
      simp only [len, cross, Rotation.unit, Matrix.cons_val]; norm_num
    | 1, _ =>
      simp only [List.getElem?_cons_succ, List.getElem?_cons_zero, Option.some.injEq] at h2
      subst h2
      simp only [len, cross, Rotation.unit, Matrix.cons_val]; norm_num
/-- from x to x and y fails -/
example (u : Unit') : a2b (.one ![1, 0, 0]) (.many [![1, 0, 0], ![0, 1, 0]]) (.one 0) u none = .error .index :=
  C203_one_start_violated _ _ _ _ _ (by simp only [len, Matrix.cons_val]; norm_num) (by simp) 1 one_ne_zero (by
    have : vsmul 1 ![1, 0, 0] = ![1, 0, 0] := by funext i; unfold vsmul; rw [one_mul]
    rw [this]; simp)
/-- x and y along and across x -/
example : len (vsub ![1, 0, 0] (vsmul (dot ![1, 0, 0] (Rotation.unit ![1, 0, 0])) (Rotation.unit ![1, 0, 0]))) = 0 ∧
    1 / 10 ^ 8 < len (vsub ![0, 1, 0] (vsmul (dot ![0, 1, 0] (Rotation.unit ![1, 0, 0])) (Rotation.unit ![1, 0, 0]))) := by
  constructor <;> simp only [len, vsub, vsmul, dot, Rotation.unit, Matrix.cons_val] <;> norm_num


end Viscid.Props
