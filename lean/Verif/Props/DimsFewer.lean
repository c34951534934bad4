import Verif.Props.Dims
/-!
# C165: fields with at most n axes; C166: fields with other coordinates
-/
namespace Viscid.Props
open Viscid.Dims
open Viscid.Spec.Arith (points Within)
open Viscid.Layout (prod)

/-- how many axes are not cut -/
def falses (l : List Bool) : Nat := (l.filter fun b => !b).length

/-- `cutLast` from the front -/
def cutFwd (d : Nat) : List Bool → List (Option Cut)
  | [] => []
  | true :: l => some .first :: cutFwd d l
  | false :: l => (if falses l < d then some .zero else none) :: cutFwd d l

theorem cutLast_snoc (d : Nat) (a : List Bool) (b : Bool) :
    cutLast d (a ++ [b]) = cutLast d a ++ [if b then some .first else if falses a < d then some .zero else none] := by
  induction a generalizing d with
  | nil => cases b <;> cases d <;> simp [cutLast, falses]
  | cons x a ih =>
    cases x with
    | true =>
      show some Cut.first :: cutLast d (a ++ [b]) = some Cut.first :: (cutLast d a ++ _)
      have e : falses (true :: a) = falses a := by simp [falses]
      rw [ih, e]
    | false =>
      cases d with
      | zero =>
        show none :: cutLast 0 (a ++ [b]) = none :: (cutLast 0 a ++ _)
        rw [ih]; simp
      | succ d =>
        show some Cut.zero :: cutLast d (a ++ [b]) = some Cut.zero :: (cutLast d a ++ _)
        have e : falses (false :: a) = falses a + 1 := by simp [falses]
        rw [ih, e]
        by_cases h : falses a < d
        · rw [if_pos h, if_pos (show falses a + 1 < d + 1 by omega)]
        · rw [if_neg h, if_neg (show ¬ falses a + 1 < d + 1 by omega)]

theorem cutFwd_eq (d : Nat) (l : List Bool) : (cutLast d l.reverse).reverse = cutFwd d l := by
  induction l with
  | nil => rfl
  | cons b l ih =>
    rw [List.reverse_cons, cutLast_snoc, List.reverse_append, ih]
    have : falses l.reverse = falses l := by simp [falses, List.filter_reverse]
    rw [this]
    cases b <;> simp [cutFwd]

theorem cuts_eq (n : Nat) (s : List Nat) :
    cuts n s = cutFwd (falses (cutOnes n s.length s) - n) (cutOnes n s.length s) := by
  unfold cuts
  simp only
  rw [cutFwd_eq]
  rfl

theorem falses_cons (b : Bool) (l : List Bool) : falses (b :: l) = (if b then 0 else 1) + falses l := by
  cases b <;> simp [falses]; omega

theorem falses_all (l : List β) : falses (l.map fun _ => false) = l.length := by
  simp only [falses, List.filter_map, Function.comp_def, Bool.not_false, List.length_map]
  simp

/-- the axes that are cut first have one point -/
theorem cutOnes_spec (n : Nat) : ∀ (left : Nat) (s : List Nat), (cutOnes n left s).length = s.length ∧
    (∀ i : Nat, (cutOnes n left s)[i]? = some true → s[i]? = some 1) ∧
    (n < left → s.length ≤ left → falses (cutOnes n left s) + (left - s.length) ≥ n ∧
      (falses (cutOnes n left s) + (left - s.length) = n ∨ cutOnes n left s = s.map fun k => (k = 1 : Bool)))
  | left, [] => by
    refine ⟨rfl, by simp [cutOnes], fun h _ => ?_⟩
    simp [cutOnes, falses]; omega
  | left, k :: l => by
    unfold cutOnes
    simp only
    by_cases hk : k = 1
    · subst hk
      simp only [if_true, decide_true]
      by_cases hn : left - 1 ≤ n
      · rw [if_pos hn]
        refine ⟨by simp, ?_, fun h h' => ?_⟩
        · intro i hi
          cases i with
          | zero => rfl
          | succ i =>
            simp only [List.getElem?_cons_succ, List.getElem?_map] at hi
            cases hl : l[i]? <;> rw [hl] at hi <;> simp at hi
        · simp only [falses_cons, falses_all, if_true, List.length_cons] at *
          omega
      · rw [if_neg hn]
        obtain ⟨h1, h2, h3⟩ := cutOnes_spec n (left - 1) l
        refine ⟨by simp [h1], ?_, fun h h' => ?_⟩
        · intro i hi
          cases i with
          | zero => rfl
          | succ i => simpa using h2 i (by simpa using hi)
        · simp only [List.length_cons] at h'
          obtain ⟨h4, h5⟩ := h3 (by omega) (by omega)
          simp only [falses_cons, if_true, List.length_cons, List.map_cons, List.cons.injEq, decide_true, true_and]
          refine ⟨by omega, ?_⟩
          rcases h5 with h5 | h5
          · left; omega
          · right; exact h5
    · simp only [hk, if_false, decide_false]
      by_cases hn : left ≤ n
      · rw [if_pos hn]
        refine ⟨by simp, ?_, fun h h' => by omega⟩
        intro i hi
        cases i with
        | zero => simp at hi
        | succ i =>
          simp only [List.getElem?_cons_succ, List.getElem?_map] at hi
          cases hl : l[i]? <;> rw [hl] at hi <;> simp at hi
      · rw [if_neg hn]
        obtain ⟨h1, h2, h3⟩ := cutOnes_spec n left l
        refine ⟨by simp [h1], ?_, fun h h' => ?_⟩
        · intro i hi
          cases i with
          | zero => simp at hi
          | succ i => simpa using h2 i (by simpa using hi)
        · simp only [List.length_cons] at h'
          obtain ⟨h4, h5⟩ := h3 (by omega) (by omega)
          simp only [falses_cons, Bool.false_eq_true, if_false, List.length_cons, List.map_cons, List.cons.injEq, hk, decide_false, true_and]
          refine ⟨by omega, ?_⟩
          rcases h5 with h5 | h5
          · left; omega
          · right; exact h5

theorem cutFwd_length (d : Nat) (l : List Bool) : (cutFwd d l).length = l.length := by
  induction l with
  | nil => rfl
  | cons b l ih => cases b <;> simp [cutFwd, ih]

theorem cutFwd_none (d : Nat) (l : List Bool) : ((cutFwd d l).filter fun x => x.isNone).length = falses l - d := by
  induction l with
  | nil => simp [cutFwd, falses]
  | cons b l ih =>
    cases b with
    | true => simp [cutFwd, ih, falses_cons]
    | false =>
      simp only [cutFwd, falses_cons, Bool.false_eq_true, if_false]
      by_cases h : falses l < d
      · rw [if_pos h]; simp [ih]; omega
      · rw [if_neg h]; simp [ih]; omega

theorem cutFwd_get (d : Nat) (l : List Bool) (i : Nat) : (cutFwd d l)[i]? =
    (l[i]?).map fun b => if b then some .first else if falses (l.drop (i + 1)) < d then some .zero else none := by
  induction l generalizing i with
  | nil => simp [cutFwd]
  | cons b l ih =>
    cases i with
    | zero => cases b <;> simp [cutFwd]
    | succ i => cases b <;> simp [cutFwd, ih]

theorem keepAxes_length : ∀ (c : List (Option Cut)) (l : List β), c.length = l.length →
    (keepAxes c l).length = (c.filter fun x => x.isNone).length
  | [], [], _ => rfl
  | none :: c, a :: l, h => by simp [keepAxes, keepAxes_length c l (by simpa using h)]
  | some x :: c, a :: l, h => by simp [keepAxes, keepAxes_length c l (by simpa using h)]
  | [], _ :: _, h => by simp at h
  | _ :: _, [], h => by simp at h

theorem keepAxes_sub : ∀ (c : List (Option Cut)) (l : List β), (keepAxes c l).Sublist l
  | [], l => by simp [keepAxes]
  | none :: c, a :: l => by simp only [keepAxes]; exact (keepAxes_sub c l).cons_cons a
  | some x :: c, a :: l => by simp only [keepAxes]; exact (keepAxes_sub c l).cons a
  | none :: c, [] => by simp [keepAxes]
  | some _ :: c, [] => by simp [keepAxes]

theorem cuts_length (n : Nat) (s : List Nat) : (cuts n s).length = s.length := by
  rw [cuts_eq, cutFwd_length, (cutOnes_spec n s.length s).1]

theorem falses_le (l : List Bool) : falses l ≤ l.length := List.length_filter_le _ _

/-- the number of axes that are left -/
theorem cuts_count (n : Nat) (s : List Nat) : ((cuts n s).filter fun x => x.isNone).length ≤ n ∧
    (n < s.length → ((cuts n s).filter fun x => x.isNone).length = n) := by
  rw [cuts_eq, cutFwd_none]
  refine ⟨by omega, fun h => ?_⟩
  have := ((cutOnes_spec n s.length s).2.2 h (Nat.le_refl _)).1
  omega

theorem cuts_all (n : Nat) (s : List Nat) (h : s.length ≤ n) (hh : s.head? ≠ some 1) : cuts n s = s.map fun _ => none := by
  cases s with
  | nil => rfl
  | cons k l =>
    have hk : k ≠ 1 := fun e => hh (by rw [e]; rfl)
    have : cutOnes n (k :: l).length (k :: l) = (k :: l).map fun _ => false := by
      unfold cutOnes
      simp only [hk, if_false, decide_false]
      rw [if_pos h]; rfl
    rw [cuts_eq, this, falses_all]
    have h0 : (k :: l).length - n = 0 := by omega
    rw [h0]
    generalize k :: l = m
    induction m with
    | nil => rfl
    | cons a m ih =>
      simp only [List.map_cons, cutFwd, Nat.not_lt_zero, if_false]
      rw [ih]

theorem fullIdx_cut (near : List ℚ → Nat) : ∀ (c : List (Option Cut)) (axes : List (String × List ℚ)) (p : List Nat),
    c.length = axes.length → Within (points (keepAxes c axes)) p →
    (∀ (i : Nat) (a : String × List ℚ), axes[i]? = some a → (c[i]? = some (some .first) → a.2.length = 1) ∧ (c[i]? = some (some .zero) → a.2.length ≠ 1)) →
    Spec.Dims.Cut near (keepAxes c axes) axes p (fullIdx near c axes p)
  | [], [], p, _, hw, _ => by
    cases hw; exact .nil
  | none :: c, a :: axes, p, hl, hw, hs => by
    cases hw with
    | cons h1 h2 =>
      exact .keep a _ (fullIdx_cut near c axes _ (by simpa using hl) h2 (fun i b hb => by simpa using hs (i + 1) b (by simpa using hb)))
  | some .first :: c, a :: axes, p, hl, hw, hs => by
    have ih := fullIdx_cut near c axes p (by simpa using hl) hw (fun i b hb => by simpa using hs (i + 1) b (by simpa using hb))
    have h1 : a.2.length = 1 := (hs 0 a rfl).1 rfl
    obtain ⟨s, l⟩ := a
    obtain ⟨x, rfl⟩ := List.length_eq_one_iff.mp h1
    exact .one s x ih
  | some .zero :: c, a :: axes, p, hl, hw, hs => by
    have ih := fullIdx_cut near c axes p (by simpa using hl) hw (fun i b hb => by simpa using hs (i + 1) b (by simpa using hb))
    exact .many a ((hs 0 a rfl).2 rfl) ih
  | [], _ :: _, _, h, _, _ => by simp at h
  | _ :: _, [], _, h, _, _ => by simp at h

theorem falses_drop_le (l : List Bool) (i : Nat) : falses (l.drop i) ≤ falses l := by
  unfold falses
  exact ((List.drop_sublist i l).filter _).length_le

theorem falses_drop_mono (l : List Bool) (i j : Nat) (h : i ≤ j) : falses (l.drop j) ≤ falses (l.drop i) := by
  have : l.drop j = (l.drop i).drop (j - i) := by rw [List.drop_drop]; congr 1; omega
  rw [this]
  exact falses_drop_le _ _

/-- C165, which axes are cut: axes with one point at their only point; others only if all axes with one point have been cut, at the point nearest to 0,
    the last ones first. -/
theorem C165_which (n : Nat) (s : List Nat) :
    (∀ i : Nat, (cuts n s)[i]? = some (some .first) → s[i]? = some 1) ∧
    (∀ i j : Nat, (cuts n s)[i]? = some (some .zero) → s[j]? = some 1 → (cuts n s)[j]? = some (some .first)) ∧
    (∀ i j k : Nat, (cuts n s)[i]? = some (some .zero) → i < j → s[j]? = some k → k ≠ 1 → (cuts n s)[j]? = some (some .zero)) := by
  obtain ⟨h1, h2, h3⟩ := cutOnes_spec n s.length s
  have hz : ∀ i : Nat, (cuts n s)[i]? = some (some .zero) → cutOnes n s.length s = s.map fun k => (k = 1 : Bool) := by
    intro i hi
    rw [cuts_eq, cutFwd_get] at hi
    obtain ⟨b, hb, hi⟩ := Option.map_eq_some_iff.mp hi
    have hlt : n < falses (cutOnes n s.length s) := by
      cases b with
      | true => simp at hi
      | false =>
        simp only [Bool.false_eq_true, if_false] at hi
        split at hi
        · omega
        · simp at hi
    have hle := falses_le (cutOnes n s.length s)
    rw [h1] at hle
    rcases (h3 (by omega) (Nat.le_refl _)).2 with h | h
    · omega
    · exact h
  refine ⟨fun i hi => ?_, fun i j hi hj => ?_, fun i j k hi hij hj hk => ?_⟩
  · rw [cuts_eq, cutFwd_get] at hi
    obtain ⟨b, hb, hi⟩ := Option.map_eq_some_iff.mp hi
    cases b with
    | true => exact h2 i hb
    | false =>
      simp only [Bool.false_eq_true, if_false] at hi
      split at hi <;> simp at hi
  · have := hz i hi
    rw [cuts_eq, cutFwd_get, this]
    simp [hj]
  · have hm := hz i hi
    rw [cuts_eq, cutFwd_get] at hi ⊢
    obtain ⟨b, hb, hi⟩ := Option.map_eq_some_iff.mp hi
    have hjb : (cutOnes n s.length s)[j]? = some false := by rw [hm]; simp [hj, hk]
    rw [hjb]
    cases b with
    | true => simp at hi
    | false =>
      simp only [Bool.false_eq_true, if_false] at hi
      simp only [Option.map_some, Bool.false_eq_true, if_false, Option.some.injEq]
      have := falses_drop_mono (cutOnes n s.length s) (i + 1) (j + 1) (by omega)
      split at hi
      · rw [if_pos (by omega)]
      · simp at hi

/-- C165: `atmost_nd` gives a field with `n` axes if there are more, and the field itself if there are not and the first axis has more than one point. The
    axes that are left come in the same order, and the value at each point is that of the field at this point, along the other axes at their only point or
    at the point nearest to 0. A single value is a number. -/
theorem C165_values_partial (near : List ℚ → Nat) (axes : List (String × List ℚ)) (v : List Nat → α) (n : Nat) :
    (n < axes.length →
      (∃ axes' get, atmostNd near axes v n = .field axes' get ∧ axes'.length = n ∧ axes'.Sublist axes ∧ prod (points axes') ≠ 1 ∧
        ∀ p, Within (points axes') p → ∃ q, Spec.Dims.Cut near axes' axes p q ∧ get p = v q) ∨
      (∃ axes' q x, atmostNd near axes v n = .number x ∧ axes'.length = n ∧ axes'.Sublist axes ∧ prod (points axes') = 1 ∧
        Spec.Dims.Cut near axes' axes (axes'.map fun _ => 0) q ∧ x = v q)) ∧
    (axes.length ≤ n → (points axes).head? ≠ some 1 → atmostNd near axes v n = .self) := by
  have hw := C165_which n (points axes)
  have hlen : (cuts n (points axes)).length = axes.length := by rw [cuts_length, points_length]
  have hside : ∀ (i : Nat) (a : String × List ℚ), axes[i]? = some a →
      ((cuts n (points axes))[i]? = some (some .first) → a.2.length = 1) ∧
      ((cuts n (points axes))[i]? = some (some .zero) → a.2.length ≠ 1) := by
    intro i a ha
    have hp : (points axes)[i]? = some a.2.length := by simp [points, ha]
    refine ⟨fun h => ?_, fun h e => ?_⟩
    · have := hw.1 i h
      rw [hp] at this
      exact Option.some.inj this
    · rw [e] at hp
      have := hw.2.1 i i h hp
      rw [h] at this
      simp at this
  refine ⟨fun h => ?_, fun h hh => ?_⟩
  · have hcnt := (cuts_count n (points axes)).2 (by rw [points_length]; exact h)
    have hkl : (keepAxes (cuts n (points axes)) axes).length = n := by rw [keepAxes_length _ _ hlen, hcnt]
    have hall : ((cuts n (points axes)).all fun x => x.isNone) = false := by
      by_contra hc
      rw [Bool.not_eq_false, List.all_eq_true] at hc
      have : (cuts n (points axes)).filter (fun x => x.isNone) = cuts n (points axes) := List.filter_eq_self.mpr hc
      rw [this, hlen] at hcnt
      omega
    by_cases hp : prod (points (keepAxes (cuts n (points axes)) axes)) = 1
    · right
      refine ⟨keepAxes (cuts n (points axes)) axes, _, _, ?_, hkl, keepAxes_sub _ _, hp, fullIdx_cut near _ axes _ hlen ?_ hside, rfl⟩
      · unfold atmostNd
        have hp' : prod ((keepAxes (cuts n (axes.map fun a => a.2.length)) axes).map fun a => a.2.length) = 1 := hp
        have hall' : ((cuts n (axes.map fun a => a.2.length)).all fun x => x.isNone) = false := hall
        simp only [hall', Bool.false_eq_true, if_false, hp', if_true]
        rfl
      · have hpos : ∀ (l : List (String × List ℚ)), prod (points l) = 1 → Within (points l) (l.map fun _ => 0) := by
          intro l
          induction l with
          | nil => intro _; exact List.Forall₂.nil
          | cons a l ih =>
            intro h
            have h' : a.2.length * prod (points l) = 1 := h
            have e1 : a.2.length = 1 := Nat.dvd_one.mp ⟨_, h'.symm⟩
            have e2 : prod (points l) = 1 := by rw [e1, Nat.one_mul] at h'; exact h'
            exact List.Forall₂.cons (by show 0 < a.2.length; omega) (ih e2)
        exact hpos _ hp
    · left
      refine ⟨keepAxes (cuts n (points axes)) axes, _, ?_, hkl, keepAxes_sub _ _, hp,
        fun p hpw => ⟨_, fullIdx_cut near _ axes p hlen hpw hside, rfl⟩⟩
      unfold atmostNd
      have hp' : ¬ prod ((keepAxes (cuts n (axes.map fun a => a.2.length)) axes).map fun a => a.2.length) = 1 := hp
      have hall' : ((cuts n (axes.map fun a => a.2.length)).all fun x => x.isNone) = false := hall
      simp only [hall', Bool.false_eq_true, if_false, hp']
      rfl
  · unfold atmostNd
    have := cuts_all n (points axes) (by rw [points_length]; exact h) hh
    have this' : cuts n (axes.map fun a => a.2.length) = (points axes).map fun _ => none := this
    rw [this']
    simp

/-- C165 fails for fields that have `n` axes or fewer, if the first has one point: it is removed although nothing has to be. -/
theorem C165_too_few_violated (near : List ℚ → Nat) (s : String) (x : ℚ) (axes : List (String × List ℚ)) (v : List Nat → α) (n : Nat)
    (h : axes.length < n) (hp : prod (points axes) ≠ 1) :
    ∃ get, atmostNd near ((s, [x]) :: axes) v n = .field axes get := by
  have hc : cuts n (1 :: points axes) = some .first :: axes.map fun _ => none := by
    have ho : cutOnes n (1 :: points axes).length (1 :: points axes) = true :: (points axes).map fun _ => false := by
      unfold cutOnes
      simp only [if_true, decide_true]
      rw [if_pos (by simp only [List.length_cons, points_length]; omega)]
    rw [cuts_eq, ho, falses_cons, falses_all, points_length]
    have h0 : (if true = true then 0 else 1) + axes.length - n = 0 := by simp; omega
    rw [h0]
    show some Cut.first :: cutFwd 0 _ = _
    congr 1
    unfold points
    clear h hp h0 ho
    induction axes with
    | nil => rfl
    | cons a l ih => simp only [List.map_cons, cutFwd, Nat.not_lt_zero, if_false]; rw [ih]
  have hk : ∀ l : List (String × List ℚ), keepAxes (l.map fun _ => none) l = l := by
    intro l
    induction l with
    | nil => rfl
    | cons a l ih =>
      show a :: keepAxes (l.map fun _ => none) l = a :: l
      rw [ih]
  unfold atmostNd
  have hc' : cuts n (((s, [x]) :: axes).map fun a => a.2.length) = some .first :: axes.map fun _ => none := hc
  rw [hc']
  have hk' : keepAxes (some Cut.first :: axes.map fun _ => none) ((s, [x]) :: axes) = axes := hk axes
  have hp' : ¬ prod (axes.map fun a => a.2.length) = 1 := hp
  simp only [List.all_cons, Option.isNone_some, Bool.false_and, Bool.false_eq_true, if_false, hk', hp']
  exact ⟨_, rfl⟩

example : cuts 2 [5, 1, 7, 8] = [none, some .first, none, some .zero] ∧ cuts 1 [1, 4, 1] = [some .first, none, some .first] ∧
    cuts 3 [4, 1, 5] = [none, none, none] ∧ cuts 3 [1, 4, 5] = [some .first, none, none] := by decide

/-! ## C166 -/

/-- the names and arrays belong to each other -/
def Whole (c : Dims.Crds) (axes : List (String × List ℚ)) : Prop := c.axes = axes.map Prod.fst ∧ c.nodes = some (axes.map Prod.snd)

theorem rename_nil (axes : List String) : rename axes [] = axes := rfl

/-- C166: each array is multiplied by the number, or given to the function, for its name; arrays without adjustment stay as they are. Without a map of names
    the coordinates of the field itself are as before. -/
theorem C166_adjust_partial (c : Dims.Crds) (axes : List (String × List ℚ)) (hc : Whole c axes) (adjs : List (String × Adj)) :
    ∃ new, adjust c adjs [] = some (new, c) ∧ List.Forall₂ (fun (a b : String × List ℚ) => b.1 = a.1 ∧
      (adjs.lookup a.1 = none → b.2 = a.2) ∧ (∀ x, adjs.lookup a.1 = some (.factor x) → b.2 = a.2.map (x * ·)) ∧
      (∀ g, adjs.lookup a.1 = some (.func g) → b.2 = g a.2)) axes new := by
  obtain ⟨h1, h2⟩ := hc
  unfold adjust
  rw [h2]
  simp only [rename_nil]
  refine ⟨_, rfl, ?_⟩
  rw [h1]
  clear h1 h2
  induction axes with
  | nil => exact List.Forall₂.nil
  | cons a l ih =>
    refine List.Forall₂.cons ⟨rfl, fun h => ?_, fun x h => ?_, fun g h => ?_⟩ ih <;> simp only [h] <;> rfl

/-- C166, one adjustment for all axes -/
theorem C166_all (c : Dims.Crds) (g : Adj) (a : String) (h : a ∈ c.axes) : (forAll c g).lookup a = some g := by
  unfold forAll
  generalize c.axes = l at h
  induction l with
  | nil => simp at h
  | cons b l ih =>
    simp only [List.map_cons, List.lookup_cons]
    by_cases hb : a = b
    · subst hb; simp
    · have : (a == b) = false := by simp [hb]
      rw [this]
      exact ih (by simpa [hb] using h)

/-- C166, names: the axis `a` gets the new name `b`, the others keep theirs. -/
theorem C166_rename_partial (axes : List String) (a b : String) (hn : axes.Nodup) :
    rename axes [(a, b)] = axes.map fun s => if s = a then b else s := by
  unfold rename
  simp only [List.foldl_cons, List.foldl_nil]
  induction axes with
  | nil => simp
  | cons s l ih =>
    have hn' := List.nodup_cons.mp hn
    have ih := ih hn'.2
    by_cases hs : s = a
    · subst hs
      rw [if_pos (by simp)]
      simp only [List.idxOf_cons_self, List.set_cons_zero, List.map_cons, if_true, List.cons.injEq, true_and]
      symm
      have : l.map (fun t => if t = s then b else t) = l.map id := by
        apply List.map_congr_left
        intro t ht
        rw [if_neg]; · rfl
        rintro rfl; exact hn'.1 ht
      rw [this, List.map_id]
    · by_cases ha : a ∈ l
      · rw [if_pos ha] at ih
        have e : (s :: l).idxOf a = l.idxOf a + 1 := by
          rw [List.idxOf_cons]
          have : (s == a) = false := by simp [hs]
          rw [this]; rfl
        rw [if_pos (by simp [ha]), e]
        simp only [List.set_cons_succ, List.map_cons, hs, if_false]
        rw [ih]
      · rw [if_neg ha] at ih
        rw [if_neg (by simp [ha]; exact fun e => hs e.symm)]
        simp only [List.map_cons, hs, if_false]
        rw [← ih]

/-- C166 fails for maps of names: the coordinates of the field itself, which all fields of its grid share, have the new name without having an array for it,
    so that getting their arrays is a KeyError afterwards. -/
theorem C166_original_violated (c : Dims.Crds) (axes : List (String × List ℚ)) (hc : Whole c axes) (hn : c.axes.Nodup) (adjs : List (String × Adj))
    (a b : String) (ha : a ∈ c.axes) (hb : c.arrs.lookup b = none) :
    ∃ new after, adjust c adjs [(a, b)] = some (new, after) ∧ after.nodes = none := by
  unfold adjust
  rw [hc.2]
  refine ⟨_, _, rfl, ?_⟩
  unfold Dims.Crds.nodes
  simp only
  rw [C166_rename_partial _ _ _ hn]
  generalize c.axes = l at ha
  induction l with
  | nil => simp at ha
  | cons s l ih =>
    simp only [List.map_cons, List.mapM_cons]
    by_cases hs : s = a
    · rw [if_pos hs, hb]; rfl
    · rw [if_neg hs]
      have ha' : a ∈ l := by
        simp only [List.mem_cons] at ha
        rcases ha with h | h
        · exact absurd h.symm hs
        · exact h
      rw [ih ha']
      cases c.arrs.lookup s <;> rfl

/-- C166 fails for exchanging two names: the second change undoes the first. -/
theorem C166_exchange_violated (a b : String) (h : a ≠ b) : rename [a, b] [(a, b), (b, a)] = [a, b] := by
  simp [rename, h]

example : Whole ⟨["x", "y"], [("y", [1, 2]), ("x", [0, 5])]⟩ [("x", [0, 5]), ("y", [1, 2])] ∧
    adjust ⟨["x", "y"], [("y", [1, 2]), ("x", [0, 5])]⟩ [("x", .factor 2)] [("y", "r")] =
      some ([("x", [0, 10]), ("r", [1, 2])], ⟨["x", "r"], [("y", [1, 2]), ("x", [0, 5])]⟩) := by
  refine ⟨⟨rfl, by decide⟩, ?_⟩
  simp [adjust, Dims.Crds.nodes, Adj.apply, rename, List.lookup]
  norm_num

end Viscid.Props
