import Verif.Model.Region
import Verif.Spec.Region
import Verif.Props.Arith
import Mathlib.Tactic.NormNum
/-!
# C177: set_in_region
-/
namespace Viscid.Props
open Viscid.Region Viscid.Spec.Region
open Viscid.Arith
open Viscid.Spec.Arith (Within)
open Viscid.Layout (Arr prod)
open Viscid.Resample (store)

theorem assign_same {w : Bool} {out a : Arr ℚ} (h : a.shape = out.shape) :
    assign w out a = .ok ⟨out.shape, fun idx => store w (a.get (bidx out.shape idx))⟩ := by
  unfold assign
  rw [h, if_pos (bcast_self _)]

theorem apply_same {op : α → β → γ} {a : Arr α} {b : Arr β} (h : a.shape = b.shape) :
    apply op a b = .ok ⟨b.shape, fun idx => op (a.get (bidx b.shape idx)) (b.get (bidx b.shape idx))⟩ := by
  unfold apply
  rw [h, bcast_self]

theorem store_float (x : ℚ) : store false x = x := rfl

/-- everything but the mask -/
theorem vals_eq {a b : Arr ℚ} (h : a.shape = b.shape) (al be : ℚ) :
    apply (fun x y => al * x + be * y) a b = .ok ⟨a.shape, fun idx => al * a.get (bidx a.shape idx) + be * b.get (bidx a.shape idx)⟩ := by
  rw [apply_same h, h]

theorem choose_eq {m : Arr Bool} {o v : Arr α} (h : v.shape = o.shape) :
    choose m o v = apply (fun m (x : α × α) => if m then x.2 else x.1) m ⟨o.shape, fun idx => (o.get (bidx o.shape idx), v.get (bidx o.shape idx))⟩ := by
  unfold choose
  rw [apply_same h.symm, h]
  rfl

/-- C177: without a mask the result is `alpha a + beta b` everywhere -/
theorem C177_all_partial (s : List Nat) (a b : Arr ℚ) (u w : List Nat → ℚ) (ha : OnPoints s a u) (hb : OnPoints s b w) (alpha beta : ℚ)
    (out : Option (Arr ℚ)) (ho : ∀ o, out = some o → o.shape = s) (junk : List Nat → ℚ) :
    ∃ r, setInRegion false a b alpha beta .none (out.map fun o => (false, o)) junk = .ok r ∧ OnPoints s r fun idx => alpha * u idx + beta * w idx := by
  obtain ⟨ha1, ha2⟩ := ha
  obtain ⟨hb1, hb2⟩ := hb
  have hs : ((out.map fun o => (false, o)).getD (false, ⟨a.shape, junk⟩)).2.shape = s ∧ ((out.map fun o => (false, o)).getD (false, ⟨a.shape, junk⟩)).1 = false := by
    cases out with
    | none => exact ⟨ha1, rfl⟩
    | some o => exact ⟨ho o rfl, rfl⟩
  unfold setInRegion
  simp only [store_float]
  rw [vals_eq (ha1.trans hb1.symm)]
  show ∃ r, assign _ _ _ = .ok r ∧ _
  rw [assign_same (by rw [hs.1]; exact ha1)]
  refine ⟨_, rfl, hs.1, fun idx hi => ?_⟩
  rw [hs.1, hs.2]
  simp only [ha1, bidx_self hi, store_float]
  rw [ha2 idx hi, hb2 idx hi]

/-- a mask of the shape of the data -/
theorem region_same {s : List Nat} {a b o : Arr ℚ} {m : Arr Bool} (ha : a.shape = s) (hb : b.shape = s) (ho : o.shape = s) (hm : m.shape = s) (al be : ℚ) :
    ∃ r, ((apply (fun x y => al * x + be * y) a b).bind fun v => choose m o v >>= assign false o) = .ok r ∧ r.shape = s ∧
      ∀ idx, Within s idx → r.get idx = if m.get idx then al * a.get idx + be * b.get idx else o.get idx := by
  rw [vals_eq (ha.trans hb.symm)]
  show ∃ r, choose m o _ >>= assign false o = .ok r ∧ _
  rw [choose_eq (by simp [ha, ho]), apply_same (by simp [hm, ho])]
  show ∃ r, assign false o _ = .ok r ∧ _
  rw [assign_same (by rfl)]
  refine ⟨_, rfl, ho, fun idx hi => ?_⟩
  simp only [ho, ha, bidx_self hi, store_float]

/-- C177: with a mask, scalar fields have `alpha a + beta b` where it is True and are left alone elsewhere -/
theorem C177_scalar_partial (s : List Nat) (a b o : Arr ℚ) (m : Arr Bool) (u w v : List Nat → ℚ) (q : List Nat → Bool)
    (ha : OnPoints s a u) (hb : OnPoints s b w) (ho : OnPoints s o v) (hm : OnPoints s m q) (alpha beta : ℚ) (junk : List Nat → ℚ) :
    ∃ r, setInRegion false a b alpha beta (.scalar m) (some (false, o)) junk = .ok r ∧
      OnPoints s r fun idx => if q idx then alpha * u idx + beta * w idx else v idx := by
  obtain ⟨r, h1, h2, h3⟩ := region_same ha.1 hb.1 ho.1 hm.1 alpha beta
  refine ⟨r, ?_, h2, fun idx hi => ?_⟩
  · unfold setInRegion
    simp only [store_float, Option.getD_some]
    rw [vals_eq (ha.1.trans hb.1.symm)] at h1 ⊢
    have h1' : (choose m o ⟨a.shape, fun idx => alpha * a.get (bidx a.shape idx) + beta * b.get (bidx a.shape idx)⟩ >>= assign false o) = .ok r := h1
    show (match (choose m o _ >>= assign false o) with | .error .value => _ | r => r) = _
    rw [h1']
  · rw [h3 idx hi, ha.2 idx hi, hb.2 idx hi, ho.2 idx hi, hm.2 idx hi]

/-- C177: and so have vector fields with the components first -/
theorem C177_first_partial (n : Nat) (s : List Nat) (a b o : Arr ℚ) (m : Arr Bool) (u w v : Nat → List Nat → ℚ) (q : List Nat → Bool)
    (ha : First n s a u) (hb : First n s b w) (ho : First n s o v) (hm : OnPoints s m q) (alpha beta : ℚ) (junk : List Nat → ℚ) :
    ∃ r, setInRegion false a b alpha beta (.scalar m) (some (false, o)) junk = .ok r ∧
      First n s r fun c idx => if q idx then alpha * u c idx + beta * w c idx else v c idx := by
  have key : ∃ r, (choose m o ⟨a.shape, fun idx => alpha * a.get (bidx a.shape idx) + beta * b.get (bidx a.shape idx)⟩ >>= assign false o) = .ok r ∧
      First n s r fun c idx => if q idx then alpha * u c idx + beta * w c idx else v c idx := by
    rw [choose_eq (by simp [ha.1, ho.1])]
    unfold apply
    simp only [hm.1, ho.1]
    rw [bcast_scalar_flat]
    show ∃ r, assign false o _ = .ok r ∧ _
    rw [assign_same (by simp [ho.1])]
    refine ⟨_, rfl, by simp [ho.1], fun c idx hc hi => ?_⟩
    have hw := within_cons hc hi
    simp only [ho.1, ha.1, bidx_self hw, bidx_drop_cons c hi, store_float]
    rw [ha.2 c idx hc hi, hb.2 c idx hc hi, ho.2 c idx hc hi, hm.2 idx hi]
  obtain ⟨r, h1, h2⟩ := key
  refine ⟨r, ?_, h2⟩
  unfold setInRegion
  simp only [store_float, Option.getD_some]
  rw [vals_eq (ha.1.trans hb.1.symm)]
  show (match (choose m o _ >>= assign false o) with | .error .value => _ | r => r) = _
  rw [h1]

theorem bcast1_second (a b : Nat) : bcast1 a b = some b ↔ a = 1 ∨ a = b := by
  unfold bcast1
  split
  · next h => simp [h]
  · next h =>
    split
    · next h1 => simp [h1]
    · next h1 =>
      split
      · next h2 => subst h2; constructor <;> intro h3 <;> simp_all
      · simp_all

theorem bcastRev_second : ∀ (l m : List Nat), m.length = l.length + 1 → (bcastRev l m = some m ↔ List.Forall₂ (fun a b => a = 1 ∨ a = b) l (m.take l.length))
  | [], m, _ => by simp [bcastRev]
  | a :: l, [], h => by simp at h
  | a :: l, b :: m, h => by
    have ih := bcastRev_second l m (by simpa using h)
    rw [bcastRev, List.length_cons, List.take_succ_cons, List.forall₂_cons, ← ih, ← bcast1_second]
    cases h1 : bcast1 a b <;> cases h2 : bcastRev l m <;> simp

theorem shifted_iff (s : List Nat) (n : Nat) : bcast s (s ++ [n]) = some (s ++ [n]) ↔ Shifted s n := by
  unfold bcast Shifted
  have : (bcastRev s.reverse (s ++ [n]).reverse).map List.reverse = some (s ++ [n]) ↔ bcastRev s.reverse (s ++ [n]).reverse = some (s ++ [n]).reverse := by
    cases bcastRev s.reverse (s ++ [n]).reverse with
    | none => simp
    | some r =>
      simp only [Option.map_some, Option.some.injEq]
      constructor
      · intro h; rw [← h, List.reverse_reverse]
      · intro h; rw [h, List.reverse_reverse]
  rw [this, bcastRev_second _ _ (by simp)]
  have e : (s ++ [n]).reverse.take s.reverse.length = ((s ++ [n]).drop 1).reverse := by
    cases s with
    | nil => simp
    | cons a s => simp
  rw [e, List.forall₂_reverse_iff]

/-- shapes that are broadcast to something else are not broadcast back -/
theorem no_back {s t : List Nat} {n : Nat} (hs : ¬ Shifted s n) (hb : bcast s (s ++ [n]) = some t) : bcast t (s ++ [n]) ≠ some (s ++ [n]) := by
  intro h
  apply hs
  rw [← shifted_iff, hb]
  -- the broadcast shape is at least as long, and equal if it broadcasts back
  have len : ∀ (l m r : List Nat), bcastRev l m = some r → bcastRev r m = some m → r = m := by
    intro l
    induction l with
    | nil => intro m r h1 _; simp [bcastRev] at h1; exact h1.symm
    | cons x l ih =>
      intro m r h1 h2
      cases m with
      | nil => simp [bcastRev] at h1; subst h1; simp [bcastRev] at h2
      | cons y m =>
        rw [bcastRev] at h1
        cases h3 : bcast1 x y with
        | none => rw [h3] at h1; simp at h1
        | some z =>
          cases h4 : bcastRev l m with
          | none => rw [h3, h4] at h1; simp at h1
          | some r' =>
            rw [h3, h4] at h1
            simp only [Option.some.injEq] at h1
            subst h1
            rw [bcastRev] at h2
            cases h5 : bcast1 z y with
            | none => rw [h5] at h2; simp at h2
            | some z' =>
              cases h6 : bcastRev r' m with
              | none => rw [h5, h6] at h2; simp at h2
              | some r'' =>
                rw [h5, h6] at h2
                simp only [Option.some.injEq, List.cons.injEq] at h2
                obtain ⟨rfl, rfl⟩ := h2
                rw [ih _ r' h4 h6]
                congr 1
                rcases (bcast1_second z z').mp h5 with h7 | h7
                · subst h7
                  unfold bcast1 at h3
                  split at h3
                  · simp_all
                  · split at h3
                    · simp_all
                    · split at h3 <;> simp_all
                · exact h7
  unfold bcast at hb h
  cases h1 : bcastRev s.reverse (s ++ [n]).reverse with
  | none => rw [h1] at hb; simp at hb
  | some r =>
    rw [h1] at hb
    simp only [Option.map_some, Option.some.injEq] at hb
    subst hb
    rw [List.reverse_reverse] at h
    cases h2 : bcastRev r (s ++ [n]).reverse with
    | none => rw [h2] at h; simp at h
    | some r2 =>
      rw [h2] at h
      simp only [Option.map_some, Option.some.injEq] at h
      have : r2 = (s ++ [n]).reverse := by rw [← h, List.reverse_reverse]
      subst this
      rw [len _ _ _ h1 h2, List.reverse_reverse]

/-- C177: and so have vector fields with the components last, unless the shape of the grid is one that broadcasts with the sizes shifted by one. -/
theorem C177_last_partial (n : Nat) (s : List Nat) (a b o : Arr ℚ) (m : Arr Bool) (u w v : Nat → List Nat → ℚ) (q : List Nat → Bool)
    (ha : Last n s a u) (hb : Last n s b w) (ho : Last n s o v) (hm : OnPoints s m q) (hs : ¬ Shifted s n) (alpha beta : ℚ) (junk : List Nat → ℚ) :
    ∃ r, setInRegion false a b alpha beta (.scalar m) (some (false, o)) junk = .ok r ∧
      Last n s r fun c idx => if q idx then alpha * u c idx + beta * w c idx else v c idx := by
  have fail : (choose m o ⟨a.shape, fun idx => alpha * a.get (bidx a.shape idx) + beta * b.get (bidx a.shape idx)⟩ >>= assign false o) = .error .value := by
    rw [choose_eq (by simp [ha.1, ho.1])]
    unfold apply
    simp only [hm.1, ho.1]
    cases hb : bcast s (s ++ [n]) with
    | none => rfl
    | some t =>
      show assign false o _ = _
      unfold assign
      rw [if_neg]
      intro h
      simp only [ho.1] at h
      exact no_back hs hb h
  have key : ∃ r, (choose (column m) o ⟨a.shape, fun idx => alpha * a.get (bidx a.shape idx) + beta * b.get (bidx a.shape idx)⟩ >>= assign false o) = .ok r ∧
      Last n s r fun c idx => if q idx then alpha * u c idx + beta * w c idx else v c idx := by
    rw [choose_eq (by simp [ha.1, ho.1])]
    have hbc : bcast (s ++ [1]) (s ++ [n]) = some (s ++ [n]) := by
      unfold bcast
      simp only [List.reverse_append, List.reverse_cons, List.reverse_nil, List.nil_append, List.singleton_append, bcastRev, bcastRev_self]
      rw [(bcast1_second 1 n).mpr (Or.inl rfl)]
      simp
    unfold apply column
    simp only [hm.1, ho.1]
    rw [hbc]
    show ∃ r, assign false o _ = .ok r ∧ _
    rw [assign_same (by simp [ho.1])]
    refine ⟨_, rfl, by simp [ho.1], fun c idx hc hi => ?_⟩
    have hw := within_snoc hc hi
    simp only [ho.1, ha.1, bidx_self hw, bidx_one_snoc c hi, store_float, List.dropLast_concat]
    rw [ha.2 c idx hc hi, hb.2 c idx hc hi, ho.2 c idx hc hi, hm.2 idx hi]
  obtain ⟨r, h1, h2⟩ := key
  refine ⟨r, ?_, h2⟩
  unfold setInRegion
  simp only [store_float, Option.getD_some]
  rw [vals_eq (ha.1.trans hb.1.symm)]
  show (match (choose m o _ >>= assign false o) with
    | .error .value => choose (column m) o _ >>= assign false o
    | r => r) = _
  rw [fail]
  exact h1

/-- C177: a mask of the shape of the data, component by component -/
theorem C177_vector_partial (s : List Nat) (a b o : Arr ℚ) (m : Arr Bool) (u w v : List Nat → ℚ) (q : List Nat → Bool)
    (ha : OnPoints s a u) (hb : OnPoints s b w) (ho : OnPoints s o v) (hm : OnPoints s m q) (alpha beta : ℚ) (junk : List Nat → ℚ) :
    ∃ r, setInRegion false a b alpha beta (.vector m) (some (false, o)) junk = .ok r ∧
      OnPoints s r fun idx => if q idx then alpha * u idx + beta * w idx else v idx := by
  obtain ⟨r, h1, h2, h3⟩ := region_same ha.1 hb.1 ho.1 hm.1 alpha beta
  refine ⟨r, h1, h2, fun idx hi => ?_⟩
  rw [h3 idx hi, ha.2 idx hi, hb.2 idx hi, ho.2 idx hi, hm.2 idx hi]

/-- C177 is violated: on such grids (a cube with as many points along each axis as there are components, for example) the mask of another point is used:
the one with the indices shifted by one -/
theorem C177_shifted_violated (n : Nat) (s : List Nat) (a b o : Arr ℚ) (m : Arr Bool) (u w v : Nat → List Nat → ℚ)
    (ha : Last n s a u) (hb : Last n s b w) (ho : Last n s o v) (hm : m.shape = s) (hs : Shifted s n) (h2 : ∀ k ∈ s, k ≠ 1) (alpha beta : ℚ)
    (junk : List Nat → ℚ) :
    ∃ r, setInRegion false a b alpha beta (.scalar m) (some (false, o)) junk = .ok r ∧
      Last n s r fun c idx => if m.get ((idx ++ [c]).drop 1) then alpha * u c idx + beta * w c idx else v c idx := by
  have key : ∃ r, (choose m o ⟨a.shape, fun idx => alpha * a.get (bidx a.shape idx) + beta * b.get (bidx a.shape idx)⟩ >>= assign false o) = .ok r ∧
      Last n s r fun c idx => if m.get ((idx ++ [c]).drop 1) then alpha * u c idx + beta * w c idx else v c idx := by
    rw [choose_eq (by simp [ha.1, ho.1])]
    unfold apply
    simp only [hm, ho.1]
    rw [(shifted_iff s n).mpr hs]
    show ∃ r, assign false o _ = .ok r ∧ _
    rw [assign_same (by simp [ho.1])]
    refine ⟨_, rfl, by simp [ho.1], fun c idx hc hi => ?_⟩
    have hw := within_snoc hc hi
    have hb1 : bidx s (idx ++ [c]) = (idx ++ [c]).drop 1 := by
      unfold bidx
      have hl := within_length hi
      rw [List.length_append, List.length_singleton, hl, Nat.add_sub_cancel_left]
      have : ∀ (s l : List Nat), (∀ k ∈ s, k ≠ 1) → l.length = s.length → List.zipWith (fun n i => if n = 1 then 0 else i) s l = l := by
        intro s
        induction s with
        | nil => intro l _ h; cases l <;> simp_all
        | cons x s ih =>
          intro l h1 h2
          cases l with
          | nil => simp at h2
          | cons y l =>
            rw [List.zipWith_cons_cons, if_neg (h1 x (by simp)), ih l (fun k hk => h1 k (List.mem_cons_of_mem _ hk)) (by simpa using h2)]
      exact this s _ h2 (by simp [hl])
    simp only [ho.1, ha.1, bidx_self hw, hb1, store_float]
    rw [ha.2 c idx hc hi, hb.2 c idx hc hi, ho.2 c idx hc hi]
  obtain ⟨r, h1, h3⟩ := key
  refine ⟨r, ?_, h3⟩
  unfold setInRegion
  simp only [store_float, Option.getD_some]
  rw [vals_eq (ha.1.trans hb.1.symm)]
  show (match (choose m o _ >>= assign false o) with | .error .value => _ | r => r) = _
  rw [h1]

/-- cubes are such grids -/
theorem C177_cube (k n : Nat) : Shifted (List.replicate (k + 1) n) n := by
  unfold Shifted
  have : (List.replicate (k + 1) n ++ [n]).drop 1 = List.replicate (k + 1) n := by
    rw [← List.replicate_succ', List.replicate_succ, List.drop_one, List.tail_cons]
  rw [this]
  exact List.forall₂_same.mpr fun _ _ => Or.inr rfl

/-- grids of unequal sizes along the last two axes, with more than one point along the last, are not -/
example : ¬ Shifted [4, 5, 6] 3 := by unfold Shifted; simp

/-- C177 is violated: without `out`, what is outside the mask is whatever was in memory -/
theorem C177_no_out_violated (s : List Nat) (a b : Arr ℚ) (m : Arr Bool) (u w : List Nat → ℚ) (q : List Nat → Bool)
    (ha : OnPoints s a u) (hb : OnPoints s b w) (hm : OnPoints s m q) (alpha beta : ℚ) (junk : List Nat → ℚ) :
    ∃ r, setInRegion false a b alpha beta (.scalar m) none junk = .ok r ∧
      OnPoints s r fun idx => if q idx then alpha * u idx + beta * w idx else junk idx := by
  have h := C177_scalar_partial s a b ⟨a.shape, junk⟩ m u w junk q ha hb ⟨ha.1, fun _ _ => rfl⟩ hm alpha beta junk
  exact h

/-- C177 is violated: factors are made integers if the field `a` holds integers: half of it is 0 -/
theorem C177_integers_violated (s : List Nat) (a b : Arr ℚ) (u w : List Nat → ℚ) (ha : OnPoints s a u) (hb : OnPoints s b w) (junk : List Nat → ℚ) :
    ∃ r, setInRegion true a b (1 / 2) (1 / 2) .none none junk = .ok r ∧ OnPoints s r fun _ => 0 := by
  have e : store true (1 / 2) = 0 := by unfold store; norm_num
  have e0 : store true 0 = 0 := by unfold store; norm_num
  unfold setInRegion
  simp only [e, Option.getD_none]
  rw [vals_eq (ha.1.trans hb.1.symm)]
  show ∃ r, assign _ _ _ = .ok r ∧ _
  rw [assign_same (by rfl)]
  refine ⟨_, rfl, ha.1, fun idx _ => ?_⟩
  simp [e0]

/-- C177: an array of another shape as mask is an AttributeError -/
theorem C177_array (a b o : Arr ℚ) (m : Arr Bool) (hab : a.shape = b.shape) (ho : o.shape = a.shape) (h : bcast m.shape o.shape = none) (alpha beta : ℚ)
    (junk : List Nat → ℚ) : setInRegion false a b alpha beta (.array m) (some (false, o)) junk = .error .attribute := by
  have fail : (choose m o ⟨a.shape, fun idx => alpha * a.get (bidx a.shape idx) + beta * b.get (bidx a.shape idx)⟩ >>= assign false o) = .error .value := by
    rw [choose_eq (by simpa using ho.symm)]
    unfold apply
    simp only [h]
    rfl
  unfold setInRegion
  simp only [store_float, Option.getD_some]
  rw [vals_eq hab]
  show (match (choose m o _ >>= assign false o) with
    | .error .value => (.error .attribute : Except Exc (Arr ℚ))
    | r => r) = _
  rw [fail]

end Viscid.Props
