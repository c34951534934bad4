import Verif.Lemmas.Crds
/-!
# C36, C37, C65, C66: node and cell centred coordinates
-/
namespace Viscid.Crds
open Viscid.Spec.Crds Viscid.Spec.Slice
open Viscid.FwdSlice (Slc)

/-! ### C37 -/

/-- C37: cell centres of increasing nodes interleave them and increase, reflected or not. -/
theorem C37_interleave (a : Axis) (hcc : a.cc = none) (h2 : 2 ≤ a.nc.length) (hinc : Increasing a.nc) :
    Increasing a.nodes ∧ Interleave a.nodes a.centres ∧ Increasing a.centres := by
  have key : ∀ l : List ℚ, 2 ≤ l.length → Increasing l → Interleave l (mid l) ∧ Increasing (mid l) := by
    intro l hl hi
    have step : ∀ (i : Nat) (a b c : ℚ), l[i]? = some a → l[i + 1]? = some b → (mid l)[i]? = some c → a < c ∧ c < b := by
      intro i a b c ha hb hc
      rw [mid_get l hl i a b ha hb] at hc
      obtain ⟨h1, e1⟩ := List.getElem?_eq_some_iff.mp ha
      obtain ⟨h3, e3⟩ := List.getElem?_eq_some_iff.mp hb
      have hab : a < b := by
        rw [← e1, ← e3]
        exact List.pairwise_iff_getElem.mp hi i (i + 1) h1 h3 (by omega)
      have := Option.some.inj hc
      constructor <;> linarith
    refine ⟨⟨?_, step⟩, ?_⟩
    · rw [mid_length l hl]; omega
    · unfold Increasing
      rw [List.pairwise_iff_getElem]
      intro i j hi' hj' hij
      rw [mid_length l hl] at hi' hj'
      have a1 := step i _ _ _ (List.getElem?_eq_getElem (by omega)) (List.getElem?_eq_getElem (by omega))
        (List.getElem?_eq_getElem (by rw [mid_length l hl]; omega))
      have a2 := step j _ _ _ (List.getElem?_eq_getElem (by omega)) (List.getElem?_eq_getElem (by omega))
        (List.getElem?_eq_getElem (by rw [mid_length l hl]; omega))
      have a3 : l[i + 1]'(by omega) ≤ l[j]'(by omega) := by
        rcases Nat.lt_or_ge (i + 1) j with h | h
        · exact le_of_lt (List.pairwise_iff_getElem.mp hi (i + 1) j (by omega) (by omega) h)
        · have : i + 1 = j := by omega
          subst this; exact le_refl _
      linarith [a1.2, a2.1]
  have hn : Increasing a.nodes ∧ 2 ≤ a.nodes.length := by
    unfold Axis.nodes
    split
    · exact ⟨reflectArr_increasing _ hinc, by rw [reflectArr_length]; exact h2⟩
    · exact ⟨hinc, h2⟩
  have := key a.nodes hn.2 hn.1
  unfold Axis.centres
  rw [hcc]
  exact ⟨hn.1, this.1, this.2⟩

/-- C37: a single node is its own cell centre. -/
theorem C37_single (x : ℚ) (r : Bool) :
    (Axis.mk [x] none r).nodes = [if r then -x else x] ∧ (Axis.mk [x] none r).centres = (Axis.mk [x] none r).nodes := by
  cases r
  · exact ⟨rfl, rfl⟩
  · refine ⟨?_, rfl⟩
    show [-1 * x] = [-x]
    rw [neg_one_mul]

/-- C37: reflection reverses and negates, node by node and centre by centre; twice is the identity. -/
theorem C37_reflect (l : List ℚ) :
    (Axis.mk l none true).nodes = (l.map fun x => -x).reverse ∧
    (Axis.mk l none true).centres = ((Axis.mk l none false).centres.map fun x => -x).reverse ∧
    (Axis.mk (Axis.mk l none true).nodes none true).nodes = l ∧
    (Axis.mk l none true).applyReflections.nodes = (Axis.mk l none true).nodes ∧
    (Axis.mk l none true).applyReflections.centres = (Axis.mk l none true).centres := by
  have e : ∀ l, reflectArr l = (l.map fun x => -x).reverse := by
    intro l
    unfold reflectArr
    rw [← List.map_reverse]
    congr 1
    funext x; ring
  refine ⟨e l, ?_, reflectArr_invol l, rfl, rfl⟩
  show mid (reflectArr l) = _
  rw [mid_reflect, e]
  rfl

/-- C37 fails when the cell centres were given explicitly: reflection changes the nodes but not the centres,
which are then outside their cells. -/
theorem C37_given_centres_violated :
    (Axis.mk [1, 2, 4] (some [3/2, 3]) false).centres = [3/2, 3] ∧
    (Axis.mk [1, 2, 4] (some [3/2, 3]) true).nodes = [-4, -2, -1] ∧
    (Axis.mk [1, 2, 4] (some [3/2, 3]) true).centres = [3/2, 3] ∧
    ¬ Interleave (Axis.mk [1, 2, 4] (some [3/2, 3]) true).nodes (Axis.mk [1, 2, 4] (some [3/2, 3]) true).centres := by
  refine ⟨by decide +kernel, by decide +kernel, by decide +kernel, ?_⟩
  intro h
  have := h.2 0 (-4) (-2) (3/2) (by decide +kernel) (by decide +kernel) (by decide +kernel)
  exact absurd this.2 (by norm_num)

example : Increasing [1, 2, 4] ∧ 2 ≤ ([1, 2, 4] : List ℚ).length ∧ (Axis.mk [1, 2, 4] none true).centres = [-3, -3/2] := by
  refine ⟨by unfold Increasing; decide +kernel, by decide, by decide +kernel⟩

/-! ### C36 -/

theorem linspace_length (xl xh : ℚ) (n : Nat) : (linspace xl xh n).length = n := by
  unfold linspace; split
  · rename_i h; rw [h]; rfl
  · simp

theorem linspace_get (xl xh : ℚ) (n : Nat) (hn : n ≠ 1) (i : Nat) (hi : i < n) :
    (linspace xl xh n)[i]? = some (xl + i * ((xh - xl) / ((n : ℚ) - 1))) := by
  unfold linspace
  rw [if_neg hn, List.getElem?_map, List.getElem?_range hi]
  rfl

/-- C36, nodes: the first and last node are the extents. -/
theorem C36_nodes (u : Uniform) (h : 2 ≤ u.n) :
    u.axis.nodes.length = u.n ∧ u.axis.nodes[0]? = some u.xl ∧ u.axis.nodes[u.n - 1]? = some u.xh := by
  refine ⟨linspace_length _ _ _, ?_, ?_⟩
  · show (linspace u.xl u.xh u.n)[0]? = _
    rw [linspace_get _ _ _ (by omega) 0 (by omega)]; simp
  · show (linspace u.xl u.xh u.n)[u.n - 1]? = _
    rw [linspace_get _ _ _ (by omega) _ (by omega)]
    congr 1
    have h1 : ((u.n - 1 : Nat) : ℚ) = (u.n : ℚ) - 1 := by
      rw [Nat.cast_sub (by omega)]; simp
    have h2 : (u.n : ℚ) - 1 ≠ 0 := by
      have : (2 : ℚ) ≤ u.n := by exact_mod_cast h
      linarith
    rw [h1, mul_div_cancel₀ _ h2]
    ring

/-- C36, cells: what get_xl and get_xh would have to be. -/
theorem C36_centres (u : Uniform) (h : 2 ≤ u.n) :
    u.axis.centres.length = u.n - 1 ∧ u.shapeCc = u.n - 1 ∧
    u.axis.centres[0]? = some (u.xl + (1 / 2) * (u.xh - u.xl) / ((u.n : ℚ) - 1)) ∧
    u.axis.centres[u.n - 2]? = some (u.xh - (1 / 2) * (u.xh - u.xl) / ((u.n : ℚ) - 1)) := by
  have hl : 2 ≤ (linspace u.xl u.xh u.n).length := by rw [linspace_length]; exact h
  have h2 : (u.n : ℚ) - 1 ≠ 0 := by
    have : (2 : ℚ) ≤ u.n := by exact_mod_cast h
    linarith
  have h3 : ((u.n - 2 : Nat) : ℚ) = (u.n : ℚ) - 2 := by
    rw [Nat.cast_sub h]; simp
  refine ⟨?_, ?_, ?_, ?_⟩
  · show (mid (linspace _ _ _)).length = _
    rw [mid_length _ hl, linspace_length]
  · unfold Uniform.shapeCc; omega
  · show (mid (linspace _ _ _))[0]? = _
    rw [mid_get _ hl 0 _ _ (linspace_get _ _ _ (by omega) 0 (by omega)) (linspace_get _ _ _ (by omega) 1 (by omega))]
    congr 1
    push_cast
    field_simp
    ring
  · show (mid (linspace _ _ _))[u.n - 2]? = _
    rw [mid_get _ hl _ _ _ (linspace_get _ _ _ (by omega) _ (by omega)) (linspace_get _ _ _ (by omega) _ (by omega))]
    congr 1
    push_cast
    rw [h3]
    field_simp
    ring

/-- C36 fails on every axis with at least two nodes and nonzero length: neither end of the cell centred extent
is the first or last cell centre. -/
theorem C36_extent_violated (u : Uniform) (h : 2 ≤ u.n) (hne : u.xl ≠ u.xh) :
    u.axis.centres[0]? ≠ some u.xlCc ∧ u.axis.centres[u.n - 2]? ≠ some u.xhCc := by
  have h2 : (u.n : ℚ) - 1 ≠ 0 := by
    have : (2 : ℚ) ≤ u.n := by exact_mod_cast h
    linarith
  have hn : (u.n : ℚ) ≠ 0 := by
    have : (2 : ℚ) ≤ u.n := by exact_mod_cast h
    linarith
  have hd : u.xh - u.xl ≠ 0 := sub_ne_zero.mpr (Ne.symm hne)
  have hm : max u.n 1 = u.n := by omega
  have key : (1 / 2) * (u.xh - u.xl) / ((u.n : ℚ) - 1) ≠ u.halfDx := by
    unfold Uniform.halfDx
    rw [hm]
    intro e
    rw [div_eq_div_iff h2 hn] at e
    have : (u.xh - u.xl) = 0 := by linarith
    exact hd this
  obtain ⟨-, -, e1, e2⟩ := C36_centres u h
  rw [e1, e2]
  unfold Uniform.xlCc Uniform.xhCc
  constructor
  · intro e
    exact key (by linarith [Option.some.inj e])
  · intro e
    exact key (by linarith [Option.some.inj e])

/-- C36 fails for an axis of one node as well: one cell centre, but shape_cc is 0. -/
theorem C36_single_node_violated (x : ℚ) (y : ℚ) : (Uniform.mk x y 1).axis.centres = [x] ∧ (Uniform.mk x y 1).shapeCc = 0 :=
  ⟨rfl, rfl⟩

/-- C36, what holds of the reported extents: they lie strictly between the ends and are symmetric. -/
theorem C36_extent_partial (u : Uniform) (h : 2 ≤ u.n) (hlt : u.xl < u.xh) :
    u.xl < u.xlCc ∧ u.xlCc < u.xhCc ∧ u.xhCc < u.xh ∧ u.xlCc - u.xl = u.xh - u.xhCc := by
  have hn : (2 : ℚ) ≤ u.n := by exact_mod_cast h
  have hm : max u.n 1 = u.n := by omega
  have h1 : 0 < u.halfDx := by
    unfold Uniform.halfDx; rw [hm]; apply div_pos <;> linarith
  have h2 : 4 * u.halfDx ≤ u.xh - u.xl := by
    unfold Uniform.halfDx; rw [hm]
    rw [mul_div_assoc', div_le_iff₀ (by linarith)]
    nlinarith
  unfold Uniform.xlCc Uniform.xhCc
  refine ⟨by linarith, by linarith, by linarith, by ring⟩

example : (Uniform.mk 0 4 5).axis.centres = [1/2, 3/2, 5/2, 7/2] ∧ (Uniform.mk 0 4 5).xlCc = 2/5 ∧ (Uniform.mk 0 4 5).xhCc = 18/5 := by
  decide +kernel

/-! ### C65 -/

/-- C65 fails for uniform coordinates of nonzero length: the first of the new cell centres is not the first old
node, although their number is right. -/
theorem C65_uniform_violated (u : Uniform) (w : ℚ) (h : 2 ≤ u.n) (hne : u.xl ≠ u.xh) :
    (u.nc2cc w).axis.centres.length = u.axis.nodes.length ∧ (u.nc2cc w).axis.centres[0]? ≠ u.axis.nodes[0]? := by
  have hn : (u.n : ℚ) ≠ 0 := by
    have : (2 : ℚ) ≤ u.n := by exact_mod_cast h
    linarith
  have hd : u.xh - u.xl ≠ 0 := sub_ne_zero.mpr (Ne.symm hne)
  have hdx : 0 < |(u.xh - u.xl) / u.n| := abs_pos.mpr (div_ne_zero hd hn)
  have e : u.nc2cc w = ⟨u.xl - (1 / 2) * ((u.xh - u.xl) / u.n), u.xh + (1 / 2) * ((u.xh - u.xl) / u.n), u.n + 1⟩ := by
    unfold Uniform.nc2cc
    dsimp only
    rw [if_pos hdx]
  obtain ⟨a1, -, a3, -⟩ := C36_centres (u.nc2cc w) (by rw [e]; exact Nat.le_add_right_of_le h)
  obtain ⟨b1, b2, -⟩ := C36_nodes u h
  refine ⟨?_, ?_⟩
  · rw [a1, b1, e]; rfl
  · rw [a3, b2, e]
    intro h'
    have h' := Option.some.inj h'
    push_cast at h'
    rw [add_sub_cancel_right] at h'
    have : (u.xh - u.xl) / u.n * (1 / 2 / u.n) = 0 := by
      field_simp at h' ⊢
      linarith
    rcases mul_eq_zero.mp this with h | h
    · exact div_ne_zero hd hn h
    · exact div_ne_zero (by norm_num) hn h

/-- C65, what holds: for full arrays with at least three equally spaced nodes the new cell centres are exactly the old nodes. -/
theorem C65_equidistant_partial (l : List ℚ) (d w : ℚ) (h3 : 3 ≤ l.length) (hd : Equidistant l d) :
    ∃ b, (Axis.mk l none false).nc2cc w = some b ∧ b.centres = l := by
  have hl2 : 2 ≤ l.length := by omega
  have hml := mid_length l hl2
  have get : ∀ k, k < l.length → l[k]? = some (l.getD k 0) := by
    intro k hk; rw [List.getD_eq_getElem?_getD, List.getElem?_eq_getElem hk]; rfl
  have gstep : ∀ k, k + 1 < l.length → l.getD (k + 1) 0 = l.getD k 0 + d := by
    intro k hk
    have := hd.2 k _ _ (get k (by omega)) (get (k + 1) hk)
    linarith
  have gm : ∀ k, k + 1 < l.length → (mid l)[k]? = some (l.getD k 0 + d / 2) := by
    intro k hk
    rw [mid_get l hl2 k _ _ (get k (by omega)) (get (k + 1) hk), gstep k hk]
    congr 1; ring
  -- the widths at both ends are d
  obtain ⟨p, q, r, rest, rfl⟩ : ∃ p q r rest, l = p :: q :: r :: rest := by
    match l, h3 with
    | p :: q :: r :: rest, _ => exact ⟨p, q, r, rest, rfl⟩
  set l := p :: q :: r :: rest with hl
  have hqp : q - p = d := hd.2 0 p q rfl rfl
  obtain ⟨x, y, tl, hrev⟩ : ∃ x y tl, l.reverse = x :: y :: tl := by
    match hr : l.reverse with
    | [] => simp [hl] at hr
    | [x] => have := congrArg List.length hr; rw [List.length_reverse] at this; simp [hl] at this
    | x :: y :: tl => exact ⟨x, y, tl, rfl⟩
  have hx : l[l.length - 1]? = some x := by
    have : l.reverse[0]? = some x := by rw [hrev]; rfl
    rwa [List.getElem?_reverse (by omega)] at this
  have hy : l[l.length - 2]? = some y := by
    have : l.reverse[1]? = some y := by rw [hrev]; rfl
    rw [List.getElem?_reverse (by omega)] at this
    rwa [show l.length - 1 - 1 = l.length - 2 by omega] at this
  have hxy : x - y = d := hd.2 (l.length - 2) y x hy (by rwa [show l.length - 2 + 1 = l.length - 1 by omega])
  -- the extended array
  have hm0 : (mid l).head? = some (p + d / 2) := by
    rw [List.head?_eq_getElem?, gm 0 (by omega)]; rfl
  have hx' : l.getD (l.length - 1) 0 = x := by rw [List.getD_eq_getElem?_getD, hx]; rfl
  have hy' : l.getD (l.length - 2) 0 = y := by rw [List.getD_eq_getElem?_getD, hy]; rfl
  have hm1 : (mid l).getLast? = some (x - d / 2) := by
    rw [List.getLast?_eq_getElem?, hml, show l.length - 1 - 1 = l.length - 2 by omega, gm _ (by omega), hy']
    congr 1; linarith
  have hext : extendArr (mid l) l w = some ((p - d / 2) :: mid l ++ [x + d / 2]) := by
    unfold extendArr
    rw [hm0, hm1]
    dsimp only
    rw [if_pos (by omega), hrev]
    simp only [hl]
    rw [hqp, hxy]
    congr 2
    · ring
    · congr 1; ring
  refine ⟨⟨(p - d / 2) :: mid l ++ [x + d / 2], none, false⟩, ?_, ?_⟩
  · show (extendArr (mid l) l w).map _ = _
    rw [hext]; rfl
  · show mid ((p - d / 2) :: mid l ++ [x + d / 2]) = l
    have hlen : ((p - d / 2) :: mid l ++ [x + d / 2]).length = l.length + 1 := by
      rw [List.length_append, List.length_cons, hml, List.length_singleton]; omega
    have gE : ∀ k, k ≤ l.length → ((p - d / 2) :: mid l ++ [x + d / 2])[k]? = some (p - d / 2 + k * d) := by
      have val : ∀ k, k < l.length → l.getD k 0 = p + k * d := by
        intro k hk
        induction k with
        | zero => simp [hl]
        | succ k ih => rw [gstep k hk, ih (by omega)]; push_cast; ring
      intro k hk
      cases k with
      | zero => simp
      | succ k =>
        rw [List.cons_append, List.getElem?_cons_succ]
        by_cases hk2 : k + 1 < l.length
        · rw [List.getElem?_append_left (by omega), gm k hk2, val k (by omega)]
          congr 1; push_cast; ring
        · have : k + 1 = l.length := by omega
          rw [List.getElem?_append_right (by omega), show k - (mid l).length = 0 by omega]
          simp only [List.getElem?_cons_zero]
          have := val (l.length - 1) (by omega)
          rw [hx'] at this
          rw [this, show l.length - 1 = k by omega]
          congr 1; push_cast; ring
    apply List.ext_getElem?
    intro k
    by_cases hk : k < l.length
    · have val : ∀ k, k < l.length → l.getD k 0 = p + k * d := by
        intro k hk
        induction k with
        | zero => simp [hl]
        | succ k ih => rw [gstep k hk, ih (by omega)]; push_cast; ring
      rw [mid_get _ (by omega) k _ _ (gE k (by omega)) (gE (k + 1) (by omega)), get k hk, val k hk]
      congr 1; push_cast; ring
    · rw [List.getElem?_eq_none (by rw [mid_length _ (by omega)]; omega), List.getElem?_eq_none (by omega)]

/-- C65 fails for full arrays that are not equally spaced, for two nodes (the cells get the default width) and
for one node (two cells instead of one). -/
theorem C65_full_arrays_violated :
    ((Axis.mk [0, 1, 3] none false).nc2cc (1/100000)).map Axis.centres = some [0, 5/4, 3] ∧
    ((Axis.mk [0, 1] none false).nc2cc (1/100000)).map Axis.centres = some [1/2 - 1/200000, 1/2 + 1/200000] ∧
    ((Axis.mk [7] none false).nc2cc (1/100000)).map Axis.centres = some [7 - 1/200000, 7 + 1/200000] := by
  refine ⟨by decide +kernel, by decide +kernel, by decide +kernel⟩

example : Equidistant [0, 2, 4, 6] 2 := by
  refine ⟨by norm_num, fun i a b ha hb => ?_⟩
  match i with
  | 0 => simp at ha hb; linarith
  | 1 => simp at ha hb; linarith
  | 2 => simp at ha hb; linarith
  | i + 3 => simp at hb

/-! ### C66 -/

/-- C66, node centred fields: the coordinates of a slice are the slice of the coordinates. -/
theorem C66_node (a : Axis) (s : Slc) (h : s.step ≠ some 0) :
    ∃ b, a.slice false s = some b ∧ b.nodes = pySlice a.nodes s := by
  refine ⟨⟨pySlice a.nodes s, none, false⟩, ?_, rfl⟩
  unfold Axis.slice
  rw [if_neg h, if_neg (by simp)]

/-- C66, cell centred fields: for a slice that starts at a nonnegative index (or from the beginning), stops
anywhere, and has step one, the cell centres of the sliced coordinates are the slice of the cell centres,
whenever the slice contains anything. -/
theorem C66_forward_partial (a : Axis) (hcc : a.cc = none) (st : Option Nat) (e step : Option Int)
    (hstep : step = none ∨ step = some 1) (h2 : 2 ≤ a.nodes.length)
    (hne : pySlice a.centres ⟨st.map Int.ofNat, e, step⟩ ≠ []) :
    ∃ b, a.slice true ⟨st.map Int.ofNat, e, step⟩ = some b ∧
      b.centres = pySlice a.centres ⟨st.map Int.ofNat, e, step⟩ := by
  have hc : a.centres = mid a.nodes := by unfold Axis.centres; rw [hcc]
  have hml := mid_length _ h2
  rw [pySlice_fwd _ _ _ _ hstep, hc, hml] at hne
  have hlt : st.getD 0 < stopPos (a.nodes.length - 1) e := by
    by_contra hge
    apply hne
    rw [List.drop_eq_nil_of_le]
    rw [List.length_take]; omega
  rw [pySlice_fwd _ _ _ _ hstep, hc, hml]
  -- the slice of the nodes
  have hs : a.slice true ⟨st.map Int.ofNat, e, step⟩ =
      some ⟨(a.nodes.take (stopPos (a.nodes.length - 1) e + 1)).drop (st.getD 0), none, false⟩ := by
    unfold Axis.slice
    dsimp only
    rw [if_neg (by rcases hstep with rfl | rfl <;> simp), if_neg (by rcases hstep with rfl | rfl <;> simp)]
    congr 2
    cases e with
    | none =>
      dsimp only
      rw [pySlice_fwd _ _ _ _ hstep]
      unfold stopPos
      dsimp only
      rw [show a.nodes.length - 1 + 1 = a.nodes.length by omega]
    | some e =>
      dsimp only
      by_cases he : 0 ≤ e
      · rw [if_pos he, if_pos (by rcases hstep with rfl | rfl <;> simp), pySlice_fwd _ _ _ _ hstep]
        congr 2
        unfold stopPos
        dsimp only
        rw [if_pos he, if_pos (by omega)]
        omega
      · rw [if_neg he, pySlice_fwd _ _ _ _ hstep]
        congr 2
        unfold stopPos at hlt ⊢
        dsimp only at hlt ⊢
        rw [if_neg he] at hlt ⊢
        rw [if_neg he]
        omega
  refine ⟨_, hs, ?_⟩
  show mid ((a.nodes.take _).drop _) = _
  have hle : stopPos (a.nodes.length - 1) e + 1 ≤ a.nodes.length := by
    unfold stopPos
    cases e with
    | none => dsimp only; omega
    | some e => dsimp only; split <;> omega
  rw [mid_run _ _ _ hle (by omega)]
  rfl

/-- C66, keeping an axis that is sliced by an index that is nonnegative or -1: one cell, with the right centre. -/
theorem C66_keep_partial (a : Axis) (hcc : a.cc = none) (i : Nat) (hi : i + 1 < a.nodes.length) :
    (∃ b, a.keep true i = some (b, ⟨some (i : Int), some ((i : Int) + 1), none⟩) ∧ some b.centres = (a.centres[i]?).map fun c => [c]) ∧
    (i + 2 = a.nodes.length → ∃ b, a.keep true (-1) = some (b, ⟨some (-1), none, none⟩) ∧ some b.centres = (a.centres[i]?).map fun c => [c]) := by
  have hc : a.centres = mid a.nodes := by unfold Axis.centres; rw [hcc]
  have h2 : 2 ≤ a.nodes.length := by omega
  have get : ∀ k, k < a.nodes.length → a.nodes[k]? = some (a.nodes.getD k 0) := by
    intro k hk; rw [List.getD_eq_getElem?_getD, List.getElem?_eq_getElem hk]; rfl
  have hrun : mid ((a.nodes.take (i + 2)).drop i) = [a.nodes.getD i 0 + (1 / 2) * (a.nodes.getD (i + 1) 0 - a.nodes.getD i 0)] := by
    rw [mid_run _ _ _ (by omega) (by omega)]
    apply List.ext_getElem?
    intro k
    rw [List.getElem?_drop, List.getElem?_take]
    cases k with
    | zero =>
      rw [if_pos (by omega), Nat.add_zero, mid_get _ h2 i _ _ (get i (by omega)) (get (i + 1) hi)]; rfl
    | succ k => rw [if_neg (by omega)]; simp
  rw [hc, mid_get _ h2 i _ _ (get i (by omega)) (get (i + 1) hi)]
  constructor
  · unfold Axis.keep
    have : pyGet a.nodes (i : Int) = some (a.nodes.getD i 0) := by
      unfold pyGet; rw [if_pos (by omega), Int.toNat_natCast, get i (by omega)]
    rw [this]
    dsimp only
    rw [if_pos rfl, if_neg (by omega), if_neg (by omega)]
    refine ⟨_, rfl, ?_⟩
    show some (mid (pySlice a.nodes ⟨some (i : Int), some ((i : Int) + 2), none⟩)) = _
    have := pySlice_fwd a.nodes (some i) (some ((i : Int) + 2)) none (Or.inl rfl)
    rw [show (some i).map Int.ofNat = some (i : Int) from rfl] at this
    rw [this]
    unfold stopPos
    dsimp only
    rw [if_pos (by omega), show min ((i : Int) + 2).toNat a.nodes.length = i + 2 by omega, Option.getD_some, hrun]
    rfl
  · intro hlast
    unfold Axis.keep
    have : pyGet a.nodes (-1) = some (a.nodes.getD (i + 1) 0) := by
      unfold pyGet
      rw [if_neg (by omega), if_pos (by omega), show (-1 + (a.nodes.length : Int)).toNat = i + 1 by omega, get (i + 1) hi]
    rw [this]
    dsimp only
    rw [if_pos rfl, if_pos rfl]
    refine ⟨_, rfl, ?_⟩
    show some (mid (pySlice a.nodes ⟨some (-2), none, none⟩)) = _
    have : pySlice a.nodes ⟨some (-2), none, none⟩ = (a.nodes.take (i + 2)).drop i := by
      have := pySlice_fwd a.nodes (some i) none none (Or.inl rfl)
      unfold stopPos at this
      dsimp only at this
      rw [show a.nodes.length = i + 2 by omega] at this
      rw [Option.getD_some] at this
      rw [← this]
      unfold pySlice pyIndices
      dsimp only
      congr 1
      simp only [Option.elim, Option.getD_none, Option.map_some]
      rw [if_pos (by omega), if_pos (by omega)]
      congr 1
      unfold clampIdx
      rw [show Int.ofNat i = (i : Int) from rfl, if_pos (by omega), if_neg (by omega)]
      omega
    rw [this, hrun]
    rfl

/-- C66 fails for cell centred fields in the following cases (nodes 0, 1, ..., 5, so centres 1/2, ..., 9/2).
A negative start loses a cell: 3 values but 2 cells. -/
theorem C66_negative_start_violated :
    pySlice (Axis.mk [0, 1, 2, 3, 4, 5] none false).centres ⟨some (-3), none, none⟩ = [5/2, 7/2, 9/2] ∧
    ((Axis.mk [0, 1, 2, 3, 4, 5] none false).slice true ⟨some (-3), none, none⟩).map Axis.centres = some [7/2, 9/2] := by
  constructor <;> decide +kernel

/-- A backward slice with bounds is shifted by one cell. -/
theorem C66_backward_violated :
    pySlice (Axis.mk [0, 1, 2, 3, 4, 5] none false).centres ⟨some 4, some 1, some (-1)⟩ = [9/2, 7/2, 5/2] ∧
    ((Axis.mk [0, 1, 2, 3, 4, 5] none false).slice true ⟨some 4, some 1, some (-1)⟩).map Axis.centres = some [7/2, 5/2, 3/2] := by
  constructor <;> decide +kernel

/-- With a stride and a stop the last node is below the last cell centre. -/
theorem C66_stride_violated :
    ((Axis.mk [0, 1, 2, 3, 4, 5] none false).slice true ⟨some 0, some 3, some 2⟩) =
      some ⟨[0, 3/2, 2], some [1/2, 5/2], false⟩ ∧
    ¬ Interleave [0, 3/2, 2] [1/2, 5/2] := by
  refine ⟨by decide +kernel, fun h => ?_⟩
  have := h.2 1 (3/2) 2 (5/2) rfl rfl rfl
  exact absurd this.2 (by norm_num)

/-- Keeping the axis at index -2 or -3 gives the wrong cell. -/
theorem C66_keep_violated :
    pySlice (Axis.mk [0, 1, 2, 3, 4, 5] none false).centres ⟨some (-2), some (-1), none⟩ = [7/2] ∧
    ((Axis.mk [0, 1, 2, 3, 4, 5] none false).keep true (-2)).map (fun r => (r.1.centres, r.2)) =
      some ([9/2], ⟨some (-2), some (-1), none⟩) ∧
    ((Axis.mk [0, 1, 2, 3, 4, 5] none false).keep true (-3)).map (fun r => (r.1.centres, r.2)) =
      some ([7/2], ⟨some (-3), some (-2), none⟩) := by
  refine ⟨?_, ?_, ?_⟩ <;> decide +kernel

/-- The location recorded for an axis that is sliced out of a cell centred field is that of the lower node. -/
theorem C66_reduced_location_violated :
    (Axis.mk [0, 1, 2, 3, 4, 5] none false).centres[2]? = some (5/2) ∧
    (Axis.mk [0, 1, 2, 3, 4, 5] none false).reducedLoc 2 = some 2 := by
  constructor <;> decide +kernel

/-- The hypotheses of the partial theorems are met. -/
example : pySlice (Axis.mk [0, 1, 3, 6] none true).centres ⟨(some 1).map Int.ofNat, some (-1), none⟩ ≠ [] ∧
    ((Axis.mk [0, 1, 3, 6] none true).slice true ⟨some 1, some (-1), none⟩).map Axis.centres = some [-2] := by
  decide +kernel

end Viscid.Crds
