import Verif.Props.Arith
/-!
# C160 reductions along an axis
-/
namespace Viscid.Props
open Viscid.Arith Viscid.Spec.Arith
open Viscid.Layout (Arr prod reshape new detect ravel unravel)
open Viscid.Hdf5 (Center)

/-! ## lists -/

theorem pos_nat {n k : Nat} (h : k < n) : pos n (k : Int) = some k := by
  unfold pos
  rw [if_pos ⟨by omega, by omega⟩]
  simp

theorem pos_neg {n k : Nat} (h : k < n) : pos n ((k : Int) - n) = some k := by
  unfold pos
  rw [if_neg (by omega), if_pos ⟨by omega, by omega⟩]
  congr 1
  omega

theorem pos_last {n : Nat} (h : 0 < n) : pos n (-1) = some (n - 1) := by
  have := @pos_neg n (n - 1) (by omega)
  rwa [show ((n - 1 : Nat) : Int) - n = -1 by omega] at this

theorem pos_over (n : Nat) : pos n (n : Int) = none := by
  unfold pos
  rw [if_neg (by omega), if_neg (by omega)]

theorem points_erase (axes : List (String × List ℚ)) (k : Nat) : points (axes.eraseIdx k) = (points axes).eraseIdx k := by
  unfold points
  induction axes generalizing k with
  | nil => rfl
  | cons a axes ih => cases k with
    | zero => rfl
    | succ k => simp [ih k]

theorem points_keep (axes : List (String × List ℚ)) (k : Nat) (h : ∀ n, (points axes)[k]? = some n → 1 ≤ n) :
    points (sliceKeep axes k) = (points axes).set k 1 := by
  unfold points sliceKeep at *
  induction axes generalizing k with
  | nil => cases k <;> rfl
  | cons a axes ih => cases k with
    | zero =>
      have := h a.2.length rfl
      simp only [List.modify_zero_cons, List.map_cons, List.set_cons_zero, List.length_take, List.cons.injEq, and_true]
      omega
    | succ k =>
      simp only [List.modify_succ_cons, List.map_cons, List.set_cons_succ, List.cons.injEq, true_and]
      exact ih k (by simpa using h)

theorem prod_set (s : List Nat) (k : Nat) (h : k < s.length) : prod (s.set k 1) = prod (s.eraseIdx k) := by
  induction s generalizing k with
  | nil => simp at h
  | cons a s ih => cases k with
    | zero => simp [prod_cons]
    | succ k =>
      simp only [List.set_cons_succ, List.eraseIdx_cons_succ, prod_cons]
      rw [ih k (by simpa using h)]

theorem prod_erase (s : List Nat) (k : Nat) (h : k < s.length) : prod s = s.getD k 0 * prod (s.eraseIdx k) := by
  induction s generalizing k with
  | nil => simp at h
  | cons a s ih => cases k with
    | zero => simp [prod_cons]
    | succ k =>
      simp only [List.getD_cons_succ, List.eraseIdx_cons_succ, prod_cons]
      rw [ih k (by simpa using h)]
      exact Nat.mul_left_comm _ _ _

theorem ravel_erase (s : List Nat) (k : Nat) (hk : k < s.length) (idx : List Nat) (h : Within (s.set k 1) idx) :
    ravel (s.set k 1) idx = ravel (s.eraseIdx k) (idx.eraseIdx k) := by
  induction s generalizing k idx with
  | nil => simp at hk
  | cons a s ih => cases k with
    | zero =>
      simp only [List.set_cons_zero] at h
      cases h with
      | @cons i _ t _ h1 h2 =>
        have : i = 0 := by omega
        subst this
        simp [ravel]
    | succ k =>
      simp only [List.set_cons_succ] at h
      cases h with
      | @cons i _ t _ h1 h2 =>
        have hk' : k < s.length := by simpa using hk
        simp only [List.set_cons_succ, List.eraseIdx_cons_succ, ravel]
        rw [ih k hk' t h2, prod_set s k hk']

theorem within_erase (s : List Nat) (k : Nat) (idx : List Nat) (h : Within (s.set k 1) idx) : Within (s.eraseIdx k) (idx.eraseIdx k) := by
  induction s generalizing k idx with
  | nil => cases h; cases k <;> exact .nil
  | cons a s ih => cases k with
    | zero => cases h with
      | @cons i _ t _ h1 h2 => exact h2
    | succ k => cases h with
      | @cons i _ t _ h1 h2 => exact .cons h1 (ih k t h2)

theorem within_insert (s : List Nat) (k : Nat) (hk : k < s.length) (i : Nat) (hi : i < s.getD k 0) (idx : List Nat) (h : Within (s.eraseIdx k) idx) :
    Within s (idx.insertIdx k i) := by
  induction s generalizing k idx with
  | nil => simp at hk
  | cons a s ih => cases k with
    | zero => exact .cons hi h
    | succ k => cases h with
      | @cons j _ t _ h1 h2 => exact .cons h1 (ih k (by simpa using hk) (by simpa using hi) t h2)

theorem within_set (s : List Nat) (k : Nat) (m i : Nat) (hi : i < s.getD k 0) (idx : List Nat) (h : Within (s.set k m) idx) :
    Within s (idx.set k i) := by
  induction s generalizing k idx with
  | nil => simp at hi
  | cons a s ih => cases k with
    | zero => cases h with
      | @cons j _ t _ h1 h2 => exact .cons hi h2
    | succ k => cases h with
      | @cons j _ t _ h1 h2 => exact .cons h1 (ih k (by simpa using hi) t h2)

theorem insert_erase (idx : List Nat) (k i : Nat) (hk : k < idx.length) : (idx.eraseIdx k).insertIdx k i = idx.set k i := by
  induction idx generalizing k with
  | nil => simp at hk
  | cons a idx ih => cases k with
    | zero => rfl
    | succ k =>
      simp only [List.eraseIdx_cons_succ, List.insertIdx_succ_cons, List.set_cons_succ, List.cons.injEq, true_and]
      exact ih k (by simpa using hk)

theorem erase_ne_nil {s : List Nat} {k : Nat} (h : k < s.length) (t : List Nat) (ht : t.length = s.length) : s.eraseIdx k ≠ t := by
  intro e
  have := congrArg List.length e
  rw [List.length_eraseIdx_of_lt h] at this
  omega

theorem erase_snoc (s : List Nat) (n k : Nat) (h : k < s.length) : (s ++ [n]).eraseIdx k = s.eraseIdx k ++ [n] := by
  rw [List.eraseIdx_append_of_lt_length h]

theorem insert_snoc (l : List Nat) (c k i : Nat) (h : k ≤ l.length) : (l ++ [c]).insertIdx k i = l.insertIdx k i ++ [c] := by
  induction l generalizing k with
  | nil =>
    have : k = 0 := by simpa using h
    subst this
    rfl
  | cons a l ih => cases k with
    | zero => rfl
    | succ k =>
      simp only [List.cons_append, List.insertIdx_succ_cons, List.cons.injEq, true_and]
      exact ih k (by simpa using h)

theorem getD_snoc (s : List Nat) (n k : Nat) (h : k < s.length) : (s ++ [n]).getD k 0 = s.getD k 0 := by
  rw [List.getD_eq_getElem?_getD, List.getD_eq_getElem?_getD, List.getElem?_append_left h]

theorem reduce_none (axes : List (String × List ℚ)) (k : Nat) (h : ∀ n ∈ points (axes.eraseIdx k), n ≠ 1) :
    sliceReduce axes k = axes.eraseIdx k := by
  unfold sliceReduce
  rw [List.filter_eq_self]
  intro a ha
  have := h a.2.length (List.mem_map.2 ⟨a, ha, rfl⟩)
  simpa using this

theorem points_length (axes : List (String × List ℚ)) : (points axes).length = axes.length := by simp [points]

/-! ## C160 -/

theorem wrapOn_reduced (c : Center) (axes : List (String × List ℚ)) (k : Nat) (hk : k < axes.length) (hpt : 1 ≤ (points axes).getD k 0) (a : Arr α)
    (h : a.shape = (points axes).eraseIdx k) (hp : prod a.shape ≠ 1) :
    ∃ r, wrapOn false c (sliceKeep axes k) a = .ok (.field r) ∧ r.axes = sliceKeep axes k ∧ r.center = c ∧ Scalar r (fun idx => a.get (idx.eraseIdx k)) := by
  have hk' : k < (points axes).length := by rw [points_length]; exact hk
  have hkeep : points (sliceKeep axes k) = (points axes).set k 1 := points_keep axes k (by
    intro n hn
    rw [List.getD_eq_getElem?_getD, hn] at hpt
    exact hpt)
  have hlen : (points (sliceKeep axes k)).length = (points axes).length := by rw [hkeep, List.length_set]
  refine ⟨⟨sliceKeep axes k, c, false, .default, a⟩, ?_, rfl, rfl, rfl, ⟨points (sliceKeep axes k), fun idx => a.get (unravel a.shape (ravel (points (sliceKeep axes k)) idx))⟩, ?_, rfl, ?_⟩
  · unfold wrapOn
    rw [if_neg hp]
    have hcs : ((sliceKeep axes k).map fun a => a.2.length) = points (sliceKeep axes k) := rfl
    simp only [hcs]
    have e1 : ¬ a.shape = points (sliceKeep axes k) := by
      rw [h]; exact erase_ne_nil hk' _ hlen
    have hl : a.shape.length = (points axes).length - 1 := by rw [h, List.length_eraseIdx_of_lt hk']
    have e2 : ¬ (a.shape.tail = points (sliceKeep axes k) ∨ a.shape.dropLast = points (sliceKeep axes k)) := by
      rintro (e | e)
      · have := congrArg List.length e
        rw [List.length_tail, hl, hlen] at this
        omega
      · have := congrArg List.length e
        rw [List.length_dropLast, hl, hlen] at this
        omega
    simp only [if_neg e1, if_neg e2]
    simp [Fld.nrComps]
  · unfold Fld.data reshape
    have hss : (Fld.mk (sliceKeep axes k) c false .default a).sshape = points (sliceKeep axes k) := rfl
    rw [hss]
    simp only [Bool.false_eq_true, if_false]
    rw [if_neg (by rw [h]; exact erase_ne_nil hk' _ hlen), if_pos (by rw [h, hkeep, prod_set _ _ hk'])]
    rfl
  · intro idx hi
    have hi : Within ((points axes).set k 1) idx := by rw [← hkeep]; exact hi
    simp only
    rw [h, hkeep, ravel_erase _ k hk' idx hi, Hdf5.unravel_ravel _ _ (within_erase _ k idx hi)]

/-- C160: `f.sum(axis)` and the like of a scalar field: at each point of what is left the reduction of the line along the axis through it; the axis
stays, with its first coordinate. Positive and negative axes are the same -/
theorem C160_scalar (F : List α → β) (f : Fld α) (u : List Nat → α) (hf : Scalar f u) (k : Nat) (hk : k < f.axes.length)
    (hpt : 1 ≤ (points f.axes).getD k 0) (hp : prod ((points f.axes).eraseIdx k) ≠ 1) :
    (∃ r, f.reduce F k none = .ok (.field r) ∧ r.axes = f.axes.modify k (fun a => (a.1, a.2.take 1)) ∧ r.center = f.center ∧
      Scalar r (fun idx => F ((List.range ((points f.axes).getD k 0)).map fun i => u (idx.set k i)))) ∧
    f.reduce F ((k : Int) - f.axes.length) none = f.reduce F k none := by
  obtain ⟨hv, a, ha, has, hau⟩ := hf
  have hlen : a.shape.length = f.axes.length := by rw [has, points_length]
  have hk' : k < (points f.axes).length := by rw [points_length]; exact hk
  have hred : ∀ axis : Int, pos f.axes.length axis = some k → f.reduce F axis none = wrapOn false f.center (sliceKeep f.axes k) (reduceArr F k false a) := by
    intro axis hax
    have hsh : (reduceArr F k false a).shape = (points f.axes).eraseIdx k := by simp [reduceArr, has]
    unfold Fld.reduce
    rw [ha]
    simp only [hlen, hax]
    unfold Fld.wrapAxis
    simp only [Option.getD_none]
    rw [if_neg (by rw [hsh]; exact hp), ha]
    unfold Fld.nrComp
    simp only [hv, hax, hlen, Bool.false_eq_true, if_false, Option.map_none, reduceCtorEq, decide_true, if_true]
  refine ⟨?_, by rw [hred _ (pos_neg hk), hred _ (pos_nat hk)]⟩
  obtain ⟨r, hr, hax, hc, hsc⟩ := wrapOn_reduced f.center f.axes k hk hpt (reduceArr F k false a) (by simp [reduceArr, has]) (by
    simpa [reduceArr, has] using hp)
  refine ⟨r, by rw [hred _ (pos_nat hk), hr], hax, hc, hsc.congr fun idx hi => ?_⟩
  rw [hax, points_keep f.axes k (by
    intro n hn
    rw [List.getD_eq_getElem?_getD, hn] at hpt
    exact hpt)] at hi
  have hil : k < idx.length := by rw [within_length hi, List.length_set]; exact hk'
  simp only [reduceArr, Bool.false_eq_true, if_false]
  rw [has]
  congr 1
  apply List.map_congr_left
  intro i him
  rw [insert_erase idx k i hil]
  exact hau _ (within_set _ k 1 i (List.mem_range.1 him) idx hi)

/-- C160: with `keepdims` too -/
theorem C160_keepdims (F : List α → β) (f : Fld α) (u : List Nat → α) (hf : Scalar f u) (k : Nat) (hk : k < f.axes.length)
    (hpt : 1 ≤ (points f.axes).getD k 0) (hp : prod ((points f.axes).eraseIdx k) ≠ 1) :
    ∃ r, f.reduce F k (some true) = .ok (.field r) ∧ r.axes = f.axes.modify k (fun a => (a.1, a.2.take 1)) ∧ r.center = f.center ∧
      Scalar r (fun idx => F ((List.range ((points f.axes).getD k 0)).map fun i => u (idx.set k i))) := by
  obtain ⟨hv, a, ha, has, hau⟩ := hf
  have hlen : a.shape.length = f.axes.length := by rw [has, points_length]
  have hk' : k < (points f.axes).length := by rw [points_length]; exact hk
  have hsh : (reduceArr F k true a).shape = (points f.axes).set k 1 := by simp [reduceArr, has]
  have hp' : prod (reduceArr F k true a).shape ≠ 1 := by rw [hsh, prod_set _ _ hk']; exact hp
  have hkeep : points (sliceKeep f.axes k) = (points f.axes).set k 1 := points_keep f.axes k (by
    intro n hn
    rw [List.getD_eq_getElem?_getD, hn] at hpt
    exact hpt)
  obtain ⟨r, hr, hax, hc, hsc⟩ := wrapOn_scalar false f.center (sliceKeep f.axes k) (reduceArr F k true a) (by rw [hsh, hkeep]) hp'
  refine ⟨r, ?_, hax, hc, hsc.congr fun idx hi => ?_⟩
  · unfold Fld.reduce
    rw [ha]
    simp only [hlen, pos_nat hk]
    unfold Fld.wrapAxis
    simp only [Option.getD_some]
    rw [if_neg hp', ha]
    unfold Fld.nrComp
    simp only [hv, pos_nat hk, Bool.false_eq_true, if_false, Option.map_none, reduceCtorEq, if_true]
    exact hr
  · rw [hax, hkeep] at hi
    simp only [reduceArr, if_true]
    rw [has]
    congr 1
    apply List.map_congr_left
    intro i him
    exact hau _ (within_set _ k 1 i (List.mem_range.1 him) idx hi)

theorem nrComp_flat' {f : Fld α} (hv : f.vector = true) (hl : f.layout = .flat) : f.nrComp = .ok (some 0) := by
  unfold Fld.layout at hl
  rw [if_pos hv] at hl
  unfold Fld.nrComp Layout.Fld.nrComp
  rw [if_pos hv, hl]
  rfl

theorem nrComp_interlaced' {f : Fld α} (hv : f.vector = true) (hl : f.layout = .interlaced) : f.nrComp = .ok (some f.axes.length) := by
  unfold Fld.layout at hl
  rw [if_pos hv] at hl
  unfold Fld.nrComp Layout.Fld.nrComp
  rw [if_pos hv, hl]
  simp [new, lift, Fld.sshape]

/-- C160: a reduction over the components gives a scalar field -/
theorem C160_components (F : List α → β) (f : Fld α) (n : Nat) (u : Nat → List Nat → α) (hp : prod (points f.axes) ≠ 1) :
    (Flat f n u → ∃ r, f.reduce F 0 none = .ok (.field r) ∧ r.axes = f.axes ∧ r.center = f.center ∧
      Scalar r (fun idx => F ((List.range n).map fun c => u c idx))) ∧
    (Interlaced f n u → ∃ r, f.reduce F f.axes.length none = .ok (.field r) ∧ r.axes = f.axes ∧ r.center = f.center ∧
      Scalar r (fun idx => F ((List.range n).map fun c => u c idx))) := by
  constructor
  · rintro ⟨hv, hl, a, ha, has, hau⟩
    have hsh : (reduceArr F 0 false a).shape = points f.axes := by simp [reduceArr, has]
    obtain ⟨r, hr, hax, hc, hsc⟩ := wrapOn_scalar f.vector f.center f.axes (reduceArr F 0 false a) hsh (by rw [hsh]; exact hp)
    refine ⟨r, ?_, hax, hc, hsc.congr fun idx hi => ?_⟩
    · unfold Fld.reduce
      rw [ha]
      have h0 : pos a.shape.length 0 = some 0 := by
        rw [has]; exact pos_nat (by simp)
      simp only [h0]
      unfold Fld.wrapAxis
      simp only [Option.getD_none]
      rw [if_neg (by rw [hsh]; exact hp), ha, nrComp_flat' hv hl]
      simp only [Option.map_some, Int.natCast_zero, if_true]
      exact hr
    · rw [hax] at hi
      simp only [reduceArr, Bool.false_eq_true, if_false]
      rw [has, List.getD_cons_zero]
      congr 1
      apply List.map_congr_left
      intro i him
      rw [List.insertIdx_zero]
      exact hau i idx (List.mem_range.1 him) hi
  · rintro ⟨hv, hl, a, ha, has, hau⟩
    have hpl := points_length f.axes
    have hsh : (reduceArr F f.axes.length false a).shape = points f.axes := by
      simp only [reduceArr, Bool.false_eq_true, if_false]
      rw [has, ← hpl, List.eraseIdx_append_of_length_le (Nat.le_refl _), Nat.sub_self]
      simp
    obtain ⟨r, hr, hax, hc, hsc⟩ := wrapOn_scalar f.vector f.center f.axes (reduceArr F f.axes.length false a) hsh (by rw [hsh]; exact hp)
    refine ⟨r, ?_, hax, hc, hsc.congr fun idx hi => ?_⟩
    · unfold Fld.reduce
      rw [ha]
      have h0 : pos a.shape.length f.axes.length = some f.axes.length := by
        rw [has]; exact pos_nat (by simp [hpl])
      simp only [h0]
      unfold Fld.wrapAxis
      simp only [Option.getD_none]
      rw [if_neg (by rw [hsh]; exact hp), ha, nrComp_interlaced' hv hl]
      simp only [Option.map_some, if_true]
      exact hr
    · rw [hax] at hi
      simp only [reduceArr, Bool.false_eq_true, if_false]
      have hg : a.shape.getD f.axes.length 0 = n := by
        rw [has, ← hpl]; simp
      rw [hg]
      congr 1
      apply List.map_congr_left
      intro i him
      have : idx.insertIdx f.axes.length i = idx ++ [i] := by
        rw [← hpl, ← within_length hi, List.insertIdx_length_self]
      rw [this]
      exact hau i idx (List.mem_range.1 him) hi

/-- C160: the reduction of a vector field with the components last along axis `k`, if no other axis has one point -/
theorem C160_interlaced_partial (F : List α → β) (f : Fld α) (n : Nat) (hn : 2 ≤ n) (u : Nat → List Nat → α) (hf : Interlaced f n u) (k : Nat)
    (hk : k < f.axes.length) (h1 : ∀ m ∈ points (f.axes.eraseIdx k), m ≠ 1)
    (hne : points (f.axes.eraseIdx k) ≠ List.replicate (f.axes.eraseIdx k).length n) :
    ∃ r, f.reduce F k none = .ok (.field r) ∧ r.axes = f.axes.eraseIdx k ∧ r.center = f.center ∧
      Interlaced r n (fun c idx => F ((List.range ((points f.axes).getD k 0)).map fun i => u c (idx.insertIdx k i))) := by
  obtain ⟨hv, hl, a, ha, has, hau⟩ := hf
  have hk' : k < (points f.axes).length := by rw [points_length]; exact hk
  have hsh : (reduceArr F k false a).shape = points (f.axes.eraseIdx k) ++ [n] := by
    simp only [reduceArr, Bool.false_eq_true, if_false]
    rw [has, erase_snoc _ _ _ hk', points_erase]
  obtain ⟨r, hr, hax, hc, hsc⟩ := wrapOn_interlaced f.vector f.center (f.axes.eraseIdx k) (reduceArr F k false a) n hn hsh hne
  refine ⟨r, ?_, hax, hc, hsc.congr fun c idx hcn hi => ?_⟩
  · unfold Fld.reduce
    rw [ha]
    have h0 : pos a.shape.length k = some k := by
      rw [has]; exact pos_nat (by simp [points_length]; omega)
    simp only [h0]
    unfold Fld.wrapAxis
    simp only [Option.getD_none]
    rw [if_neg (by rw [hsh]; exact big_snoc hn _), ha, nrComp_interlaced' hv hl]
    simp only [Option.map_some, Option.some.injEq]
    rw [if_neg (by omega), pos_nat hk]
    have hlen : ¬ a.shape.length = f.axes.length := by rw [has]; simp [points_length]
    simp only [hlen, decide_false, Bool.false_eq_true, if_false]
    rw [reduce_none _ _ h1]
    exact hr
  · rw [hax, points_erase] at hi
    have hil : idx.length = (points f.axes).length - 1 := by rw [within_length hi, List.length_eraseIdx_of_lt hk']
    simp only [reduceArr, Bool.false_eq_true, if_false]
    rw [has, getD_snoc _ _ _ hk']
    congr 1
    apply List.map_congr_left
    intro i him
    rw [insert_snoc _ _ _ _ (by omega)]
    exact hau c _ hcn (within_insert _ k hk' i (List.mem_range.1 him) idx hi)

/-- C160 is violated by vector fields with the components first: axes are counted with the components in the data but without in the coordinates, so
that the last axis is an IndexError -/
theorem C160_flat_last_violated (F : List α → β) (f : Fld α) (n : Nat) (hn : 2 ≤ n) (u : Nat → List Nat → α) (hf : Flat f n u) (hd : 0 < f.axes.length) :
    f.reduce F f.axes.length none = .error .index := by
  obtain ⟨hv, hl, a, ha, has, hau⟩ := hf
  unfold Fld.reduce
  rw [ha]
  have h0 : pos a.shape.length f.axes.length = some f.axes.length := by
    rw [has]; exact pos_nat (by simp [points_length])
  simp only [h0]
  unfold Fld.wrapAxis
  obtain ⟨d, hd'⟩ : ∃ d, f.axes.length = d + 1 := ⟨f.axes.length - 1, by omega⟩
  have hsh : (reduceArr F f.axes.length false a).shape = n :: (points f.axes).eraseIdx d := by
    simp only [reduceArr, Bool.false_eq_true, if_false]
    rw [has, hd', List.eraseIdx_cons_succ]
  simp only [Option.getD_none]
  rw [if_neg (by rw [hsh]; exact big_cons hn _), ha, nrComp_flat' hv hl]
  simp only [Option.map_some, Option.some.injEq]
  rw [if_neg (by omega), pos_over]

theorem erase_same (s : List Nat) (k : Nat) (h : k + 1 < s.length) (he : s.getD k 0 = s.getD (k + 1) 0) : s.eraseIdx k = s.eraseIdx (k + 1) := by
  induction s generalizing k with
  | nil => simp at h
  | cons a s ih => cases k with
    | zero =>
      cases s with
      | nil => simp at h
      | cons b s =>
        simp only [List.getD_cons_zero, List.getD_cons_succ] at he
        simp [he]
    | succ k =>
      simp only [List.eraseIdx_cons_succ, List.cons.injEq, true_and]
      exact ih k (by simpa using h) (by simpa using he)

/-- C160: and other axes are the wrong ones: data is reduced along axis `k` but it is the coordinates of axis `k + 1` that go -/
theorem C160_flat_axis_violated (F : List α → β) (f : Fld α) (n : Nat) (hn : 2 ≤ n) (u : Nat → List Nat → α) (hf : Flat f n u) (k : Nat)
    (hk : k + 1 < f.axes.length) (h1 : ∀ m ∈ points (f.axes.eraseIdx (k + 1)), m ≠ 1)
    (he : (points f.axes).getD k 0 = (points f.axes).getD (k + 1) 0) :
    ∃ r, f.reduce F ((k + 1 : Nat) : Int) none = .ok (.field r) ∧ r.axes = f.axes.eraseIdx (k + 1) ∧
      Flat r n (fun c idx => F ((List.range ((points f.axes).getD k 0)).map fun i => u c (idx.insertIdx k i))) := by
  obtain ⟨hv, hl, a, ha, has, hau⟩ := hf
  have hk' : k + 1 < (points f.axes).length := by rw [points_length]; exact hk
  have hsh : (reduceArr F (k + 1) false a).shape = n :: points (f.axes.eraseIdx (k + 1)) := by
    simp only [reduceArr, Bool.false_eq_true, if_false]
    rw [has, List.eraseIdx_cons_succ, points_erase, erase_same _ _ hk' he]
  obtain ⟨r, hr, hax, hc, hsc⟩ := wrapOn_flat f.vector f.center (f.axes.eraseIdx (k + 1)) (reduceArr F (k + 1) false a) n hn hsh
  refine ⟨r, ?_, hax, hsc.congr fun c idx hcn hi => ?_⟩
  · unfold Fld.reduce
    rw [ha]
    have h0 : pos a.shape.length ((k + 1 : Nat) : Int) = some (k + 1) := by
      rw [has]; exact pos_nat (by simp [points_length]; omega)
    simp only [h0]
    unfold Fld.wrapAxis
    simp only [Option.getD_none]
    rw [if_neg (by rw [hsh]; exact big_cons hn _), ha, nrComp_flat' hv hl]
    simp only [Option.map_some, Option.some.injEq]
    rw [if_neg (by omega), pos_nat hk]
    have hlen : ¬ a.shape.length = f.axes.length := by rw [has]; simp [points_length]
    simp only [hlen, decide_false, Bool.false_eq_true, if_false]
    rw [reduce_none _ _ h1]
    exact hr
  · rw [hax, points_erase, ← erase_same _ _ hk' he] at hi
    simp only [reduceArr, Bool.false_eq_true, if_false]
    rw [has, List.getD_cons_succ]
    congr 1
    apply List.map_congr_left
    intro i him
    rw [List.insertIdx_succ_cons]
    exact hau c _ hcn (within_insert _ k (by omega) i (List.mem_range.1 him) idx hi)

theorem getLast_points {axes : List (String × List ℚ)} (hd : 0 < axes.length) :
    points axes = points (axes.eraseIdx (axes.length - 1)) ++ [(points axes).getLastD 0] := by
  have hne : points axes ≠ [] := by
    intro e
    have := points_length axes
    rw [e] at this
    simp at this
    omega
  rw [points_erase, ← points_length axes, List.eraseIdx_length_sub_one]
  have : (points axes).getLastD 0 = (points axes).getLast hne := by
    rw [List.getLastD_eq_getLast?, List.getLast?_eq_some_getLast hne]
    rfl
  rw [this, List.dropLast_append_getLast]

/-- C160: `axis=-1` of a vector field with the components last reduces the components, but takes the last coordinate away: the points along the last
axis become the components -/
theorem C160_last_violated (F : List α → β) (f : Fld α) (n : Nat) (u : Nat → List Nat → α) (hf : Interlaced f n u) (hd : 0 < f.axes.length)
    (h1 : ∀ m ∈ points f.axes, 2 ≤ m)
    (hne : points (f.axes.eraseIdx (f.axes.length - 1)) ≠ List.replicate (f.axes.eraseIdx (f.axes.length - 1)).length ((points f.axes).getLastD 0)) :
    ∃ r, f.reduce F (-1) none = .ok (.field r) ∧ r.axes = f.axes.eraseIdx (f.axes.length - 1) ∧
      Interlaced r ((points f.axes).getLastD 0) (fun j idx => F ((List.range n).map fun c => u c (idx ++ [j]))) := by
  obtain ⟨hv, hl, a, ha, has, hau⟩ := hf
  have hpl := points_length f.axes
  have hsplit := getLast_points hd
  have hlast : 2 ≤ (points f.axes).getLastD 0 := h1 _ (by
    have : (points f.axes).getLastD 0 ∈ points (f.axes.eraseIdx (f.axes.length - 1)) ++ [(points f.axes).getLastD 0] := by simp
    rwa [← hsplit] at this)
  have hal : a.shape.length = f.axes.length + 1 := by rw [has]; simp [hpl]
  have h0 : pos a.shape.length (-1) = some f.axes.length := by
    rw [pos_last (by omega), hal]; rfl
  have hsh : (reduceArr F f.axes.length false a).shape = points (f.axes.eraseIdx (f.axes.length - 1)) ++ [(points f.axes).getLastD 0] := by
    simp only [reduceArr, Bool.false_eq_true, if_false]
    rw [← hsplit, has, ← hpl, List.eraseIdx_append_of_length_le (Nat.le_refl _), Nat.sub_self]
    simp
  obtain ⟨r, hr, hax, hc, hsc⟩ := wrapOn_interlaced f.vector f.center _ (reduceArr F f.axes.length false a) _ hlast hsh hne
  refine ⟨r, ?_, hax, hsc.congr fun j idx hj hi => ?_⟩
  · unfold Fld.reduce
    rw [ha]
    simp only [h0]
    unfold Fld.wrapAxis
    simp only [Option.getD_none]
    rw [if_neg (by rw [hsh]; exact big_snoc hlast _), ha, nrComp_interlaced' hv hl]
    simp only [Option.map_some, Option.some.injEq]
    rw [if_neg (by omega), pos_last hd]
    have hlen : ¬ a.shape.length = f.axes.length := by omega
    simp only [hlen, decide_false, Bool.false_eq_true, if_false]
    rw [reduce_none]
    · exact hr
    · intro m hm
      have := h1 m (by rw [hsplit]; exact List.mem_append_left _ hm)
      omega
  · rw [hax] at hi
    have hw := within_snoc hj hi
    rw [← hsplit] at hw
    simp only [reduceArr, Bool.false_eq_true, if_false]
    have hg : a.shape.getD f.axes.length 0 = n := by
      rw [has, ← hpl]; simp
    rw [hg]
    congr 1
    apply List.map_congr_left
    intro i him
    have : (idx ++ [j]).insertIdx f.axes.length i = (idx ++ [j]) ++ [i] := by
      rw [← hpl, ← within_length hw, List.insertIdx_length_self]
    rw [this]
    exact hau i _ (List.mem_range.1 him) hw

/-- C160 is violated by `argsort` along an axis: the data of the result cannot be read -/
theorem C160_argsort_violated (F : List α → List β) (d : β) (f : Fld α) (u : List Nat → α) (hf : Scalar f u) (k : Nat) (hk : k < f.axes.length)
    (hm : 2 ≤ (points f.axes).getD k 0) (hpos : prod ((points f.axes).eraseIdx k) ≠ 0) :
    ∃ r, f.along F d k = .ok (.field r) ∧ r.data = .error .value := by
  obtain ⟨hv, a, ha, has, hau⟩ := hf
  have hlen : a.shape.length = f.axes.length := by rw [has, points_length]
  have hk' : k < (points f.axes).length := by rw [points_length]; exact hk
  have hkeep : points (sliceKeep f.axes k) = (points f.axes).set k 1 := points_keep f.axes k (by
    intro n hn
    rw [List.getD_eq_getElem?_getD, hn] at hm
    simp at hm
    omega)
  have hprod := prod_erase (points f.axes) k hk'
  have hbig : prod (points f.axes) ≠ 1 := by
    rw [hprod]
    intro e
    have := Nat.eq_one_of_mul_eq_one_right e
    omega
  have hne : prod (points f.axes) ≠ prod (points (sliceKeep f.axes k)) := by
    rw [hkeep, prod_set _ _ hk', hprod]
    intro e
    have : ((points f.axes).getD k 0 - 1) * prod ((points f.axes).eraseIdx k) = 0 := by
      rw [Nat.sub_mul]; omega
    rcases Nat.mul_eq_zero.1 this with h | h
    · omega
    · exact hpos h
  refine ⟨⟨sliceKeep f.axes k, f.center, false, .default,
    ⟨a.shape, fun idx => (F ((List.range (a.shape.getD k 0)).map fun i => a.get (idx.set k i))).getD (idx.getD k 0) d⟩⟩, ?_, ?_⟩
  · unfold Fld.along
    rw [ha]
    simp only [hlen, pos_nat hk]
    unfold Fld.wrapAxis
    simp only
    rw [if_neg (by rw [has]; exact hbig), ha]
    unfold Fld.nrComp
    simp only [hv, pos_nat hk, hlen, Bool.false_eq_true, if_false, Option.map_none, reduceCtorEq, Option.getD_none, decide_true, if_true]
    unfold wrapOn
    simp only
    rw [if_neg (by rw [has]; exact hbig)]
    have hcs : ((sliceKeep f.axes k).map fun a => a.2.length) = points (sliceKeep f.axes k) := rfl
    rw [hcs]
    have e1 : ¬ a.shape = points (sliceKeep f.axes k) := by
      rw [has]
      intro e
      exact hne (by rw [← e])
    have hl : (points (sliceKeep f.axes k)).length = (points f.axes).length := by rw [hkeep, List.length_set]
    have e2 : ¬ (a.shape.tail = points (sliceKeep f.axes k) ∨ a.shape.dropLast = points (sliceKeep f.axes k)) := by
      rw [has]
      rintro (e | e)
      · have := congrArg List.length e
        rw [List.length_tail, hl] at this
        omega
      · have := congrArg List.length e
        rw [List.length_dropLast, hl] at this
        omega
    simp only [if_neg e1, if_neg e2]
    simp [Fld.nrComps]
  · unfold Fld.data reshape
    simp only [Bool.false_eq_true, if_false]
    have hss : ∀ (c : Center) (b : Arr β), (Fld.mk (sliceKeep f.axes k) c false .default b).sshape = points (sliceKeep f.axes k) := fun _ _ => rfl
    rw [hss]
    rw [if_neg (by rw [has]; intro e; exact hne (by rw [← e])), if_neg (by rw [has]; exact hne)]
    rfl

section
private def exS : Fld ℚ := ⟨[("x", [0, 1, 3]), ("y", [0, 2])], .node, false, .default, ⟨[3, 2], fun idx => (idx.getD 0 0 : ℚ) + 10 * idx.getD 1 0⟩⟩
private def exI : Fld ℚ := ⟨[("x", [0, 1, 3]), ("y", [0, 2])], .node, true, .default, ⟨[3, 2, 4], fun idx => idx.getLastD 0⟩⟩
private def exC : Fld ℚ := ⟨[("x", [0, 1, 3]), ("y", [0, 2, 4])], .node, true, .default, ⟨[4, 3, 3], fun idx => idx.headD 0⟩⟩

example : ∃ u, Scalar exS u ∧ 1 < exS.axes.length ∧ 2 ≤ (points exS.axes).getD 1 0 ∧ prod ((points exS.axes).eraseIdx 1) ≠ 1 ∧
    prod ((points exS.axes).eraseIdx 1) ≠ 0 := ⟨_, scalar_mk _ _ _ _ rfl, by decide, by decide, by decide, by decide⟩
example : ∃ u, Interlaced exI 4 u ∧ prod (points exI.axes) ≠ 1 ∧ (∀ m ∈ points exI.axes, 2 ≤ m) ∧
    points (exI.axes.eraseIdx 1) ≠ List.replicate (exI.axes.eraseIdx 1).length 4 ∧
    points (exI.axes.eraseIdx 1) ≠ List.replicate (exI.axes.eraseIdx 1).length ((points exI.axes).getLastD 0) :=
  ⟨_, interlaced_mk _ _ _ 4 rfl (by decide), by decide, by decide, by decide, by decide⟩
example : ∃ u, Flat exC 4 u ∧ (∀ m ∈ points (exC.axes.eraseIdx 1), m ≠ 1) ∧ (points exC.axes).getD 0 0 = (points exC.axes).getD 1 0 :=
  ⟨_, flat_mk _ _ _ 4 rfl, by decide, by decide⟩
end

end Viscid.Props
