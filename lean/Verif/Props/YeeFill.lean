import Verif.Props.Yee
/-!
# C179, C180: masks between two spheres, and dipoles
-/
namespace Viscid.Props
open Viscid.Yee Viscid.Spec.Yee
open Viscid.Spec.Region (OnPoints First Last Shifted)
open Viscid.Crds (Axis mid)
open Viscid.Arith (Exc bcast bidx)
open Viscid.Region (choose)
open Viscid.Spec.Arith (Within)
open Viscid.Layout (Arr)
open Viscid.Rotation

/-- where a component is along an axis -/
def loc (ctr : Center) (a : Axis) (own : Bool) : List ℚ :=
  match ctr, own with
  | .node, _ => a.nodes
  | .cell, _ => a.centres
  | .face, true => sm1 a.nodes
  | .face, false => a.centres
  | .edge, true => a.centres
  | .edge, false => sm1 a.nodes

theorem loc_at {ctr : Center} {a : Axis} {own : Bool} (h : a.cc = none) (k : Nat) (p : ℚ) : (loc ctr a own)[k]? = some p ↔ At ctr a.nodes own k p := by
  cases ctr <;> cases own <;> simp only [loc, At, centres_none h] <;> first | exact mid_at _ _ _ | exact sm1_at _ _ _

theorem loc_length {ctr : Center} {a : Axis} {own : Bool} (h : a.cc = none) : (loc ctr a own).length = count ctr a := by
  have key : ∀ k, k < (loc ctr a own).length ↔ k < count ctr a := fun k => by
    rw [C178_count_partial ctr a h own k]
    constructor
    · intro hk
      exact ⟨_, (loc_at h k _).mp (List.getElem?_eq_getElem hk)⟩
    · rintro ⟨p, hp⟩
      exact (List.getElem?_eq_some_iff.mp ((loc_at h k p).mpr hp)).1
  have h1 := key (count ctr a)
  have h2 := key (loc ctr a own).length
  omega

theorem triples_eq (ctr : Center) (a0 a1 a2 : Axis) :
    triples ctr [a0, a1, a2] = .ok [(loc ctr a0 true, loc ctr a1 false, loc ctr a2 false), (loc ctr a0 false, loc ctr a1 true, loc ctr a2 false),
      (loc ctr a0 false, loc ctr a1 false, loc ctr a2 true)] := by
  cases ctr <;> rfl

theorem put_same {b : Vec α} {v : Arr α} (h : v.shape = b.shape) (i : Nat) : ∃ r, b.put i v = .ok r ∧ r.shape = b.shape ∧ r.last = b.last ∧
    r.data.shape = b.data.shape ∧ ∀ c idx, Within b.shape idx → value r c idx = if c = i then v.get idx else value b c idx := by
  have e : b.put i v = .ok { b with data := ⟨b.data.shape, fun idx =>
      if b.last then if idx.getLast? = some i then v.get (bidx v.shape idx.dropLast) else b.data.get idx
      else if idx.head? = some i then v.get (bidx v.shape idx.tail) else b.data.get idx⟩ } := by
    unfold Vec.put
    rw [if_pos (by rw [h]; exact bcast_self _)]
  refine ⟨_, e, rfl, rfl, rfl, fun c idx hi => ?_⟩
  rw [h]
  unfold value
  by_cases hl : b.last = true
  · simp only [hl, if_true, List.getLast?_append, List.getLast?_singleton, Option.some_or, Option.some.injEq, List.dropLast_concat, bidx_self hi]
  · simp only [hl, if_false, List.head?_cons, Option.some.injEq, List.tail_cons, bidx_self hi, Bool.false_eq_true]

theorem getD_of_some {l : List ℚ} {k : Nat} {x : ℚ} (h : l[k]? = some x) : l.getD k 0 = x := by
  rw [List.getD_eq_getElem?_getD, h]; rfl

theorem within3 {ctr : Center} {a0 a1 a2 : Axis} {i j k : Nat} (h : Within ([a0, a1, a2].map (count ctr)) [i, j, k]) :
    i < count ctr a0 ∧ j < count ctr a1 ∧ k < count ctr a2 := by
  unfold Within at h
  simp only [List.map_cons, List.map_nil, List.forall₂_cons, List.forall₂_nil_left_iff] at h
  exact ⟨h.1, h.2.1, h.2.2.1⟩

/-- the three components -/
theorem fill_eq (ctr : Center) (a0 a1 a2 : Axis) (h0 : a0.cc = none) (h1 : a1.cc = none) (h2 : a2.cc = none) (b : Vec α)
    (hb : b.shape = [a0, a1, a2].map (count ctr)) (f : Nat → ℚ → ℚ → ℚ → α) :
    ∃ tr, triples ctr [a0, a1, a2] = .ok tr ∧ ∃ r, fill f tr [0, 1, 2] b = .ok r ∧ r.shape = b.shape ∧ r.last = b.last ∧ r.data.shape = b.data.shape ∧
      ∀ c i j k x y z, c < 3 → At ctr a0.nodes (decide (c = 0)) i x → At ctr a1.nodes (decide (c = 1)) j y → At ctr a2.nodes (decide (c = 2)) k z →
        value r c [i, j, k] = f c x y z := by
  refine ⟨_, triples_eq ctr a0 a1 a2, ?_⟩
  have shape : ∀ (o0 o1 o2 : Bool) (g : ℚ → ℚ → ℚ → α), (onGrid (loc ctr a0 o0) (loc ctr a1 o1) (loc ctr a2 o2) g).shape = b.shape := by
    intro o0 o1 o2 g
    simp only [onGrid, loc_length h0, loc_length h1, loc_length h2, hb, List.map_cons, List.map_nil]
  obtain ⟨b1, p1, s1, l1, d1, v1⟩ := put_same (shape true false false (f 0)) 0
  obtain ⟨b2, p2, s2, l2, d2, v2⟩ := put_same (b := b1) ((shape false true false (f 1)).trans s1.symm) 1
  obtain ⟨b3, p3, s3, l3, d3, v3⟩ := put_same (b := b2) ((shape false false true (f 2)).trans (s2.trans s1).symm) 2
  refine ⟨b3, ?_, s3.trans (s2.trans s1), l3.trans (l2.trans l1), d3.trans (d2.trans d1), ?_⟩
  · simp only [fill, List.getElem?_cons_zero, List.getElem?_cons_succ, p1, p2, p3]
  · intro c i j k x y z hc hx hy hz
    have hw : Within b.shape [i, j, k] := by
      rw [hb]
      have e0 := (C178_count_partial ctr a0 h0 _ i).mpr ⟨x, hx⟩
      have e1 := (C178_count_partial ctr a1 h1 _ j).mpr ⟨y, hy⟩
      have e2 := (C178_count_partial ctr a2 h2 _ k).mpr ⟨z, hz⟩
      exact .cons e0 (.cons e1 (.cons e2 .nil))
    rw [v3 c _ (by rw [s2, s1]; exact hw), v2 c _ (by rw [s1]; exact hw), v1 c _ hw]
    rw [← loc_at h0] at hx
    rw [← loc_at h1] at hy
    rw [← loc_at h2] at hz
    match c, hc with
    | 0, _ =>
      simp only [onGrid]
      simp at hx hy hz
      simp [hx, hy, hz]
    | 1, _ =>
      simp only [onGrid]
      simp at hx hy hz
      simp [hx, hy, hz]
    | 2, _ =>
      simp only [onGrid]
      simp at hx hy hz
      simp [hx, hy, hz]

theorem inShell_iff (rmin : ℚ) (rmax : Option ℚ) (x y z : ℚ) :
    inShell rmin rmax x y z = true ↔ rmin ^ 2 ≤ x ^ 2 + y ^ 2 + z ^ 2 ∧ ∀ r, rmax = some r → x ^ 2 + y ^ 2 + z ^ 2 < r ^ 2 := by
  unfold inShell
  cases rmax <;> simp

/-- the distance from the origin -/
theorem shell_dist {rmin x y z : ℚ} (h : 0 ≤ rmin) {r : ℚ} (hr : 0 ≤ r) :
    (rmin ^ 2 ≤ x ^ 2 + y ^ 2 + z ^ 2 ↔ (rmin : ℝ) ≤ len ![(x : ℝ), y, z]) ∧ (x ^ 2 + y ^ 2 + z ^ 2 < r ^ 2 ↔ len ![(x : ℝ), y, z] < r) := by
  have hl : len ![(x : ℝ), y, z] ^ 2 = ((x ^ 2 + y ^ 2 + z ^ 2 : ℚ) : ℝ) := by
    rw [len_sq]; push_cast; rfl
  have hn := len_nonneg ![(x : ℝ), (y : ℝ), (z : ℝ)]
  have c1 : (rmin ^ 2 ≤ x ^ 2 + y ^ 2 + z ^ 2) ↔ ((rmin : ℝ) ^ 2 ≤ len ![(x : ℝ), y, z] ^ 2) := by
    rw [hl]; exact_mod_cast Iff.rfl
  have c2 : (x ^ 2 + y ^ 2 + z ^ 2 < r ^ 2) ↔ (len ![(x : ℝ), y, z] ^ 2 < (r : ℝ) ^ 2) := by
    rw [hl]; exact_mod_cast Iff.rfl
  rw [c1, c2]
  have p1 : (0 : ℝ) ≤ rmin := by exact_mod_cast h
  have p2 : (0 : ℝ) ≤ r := by exact_mod_cast hr
  exact ⟨pow_le_pow_iff_left₀ p1 hn (by decide), pow_lt_pow_iff_left₀ hn p2 (by decide)⟩

/-- C179: on the points of a node or cell centered field, with components or not, the mask is a scalar field that is True exactly where the distance from the origin is at
least `rmin` and below `rmax` -/
theorem C179_points_partial (li : Bool) (ctr : Center) (hctr : ctr = .node ∨ ctr = .cell) (a0 a1 a2 : Axis) (h0 : a0.cc = none) (h1 : a1.cc = none) (h2 : a2.cc = none)
    (vec : Option Bool) (rmin : ℚ) (hmin : 0 ≤ rmin) (rmax : Option ℚ) (hmax : ∀ r, rmax = some r → 0 ≤ r) (junk : List Nat → Bool) :
    ∃ m, sphericalMask li ctr [a0, a1, a2] vec rmin rmax junk = .ok (.scalar m) ∧ m.shape = [a0, a1, a2].map (count ctr) ∧
      ∀ i j k x y z, At ctr a0.nodes false i x → At ctr a1.nodes false j y → At ctr a2.nodes false k z →
        (m.get [i, j, k] = true ↔ (rmin : ℝ) ≤ len ![(x : ℝ), y, z] ∧ ∀ r, rmax = some r → len ![(x : ℝ), y, z] < r) := by
  have hne : ¬ (ctr = .edge ∨ ctr = .face) := by rcases hctr with rfl | rfl <;> simp
  have hl : ∀ a : Axis, (if ctr = .cell then a.centres else a.nodes) = loc ctr a false := by
    intro a; rcases hctr with rfl | rfl <;> simp [loc]
  refine ⟨onGrid (loc ctr a0 false) (loc ctr a1 false) (loc ctr a2 false) (inShell rmin rmax), ?_, ?_, ?_⟩
  · unfold sphericalMask
    rw [if_neg (fun h => hne h.2), if_neg hne]
    simp only [List.map_cons, List.map_nil, hl]
  · simp only [onGrid, loc_length h0, loc_length h1, loc_length h2, List.map_cons, List.map_nil]
  · intro i j k x y z hx hy hz
    rw [← loc_at h0] at hx
    rw [← loc_at h1] at hy
    rw [← loc_at h2] at hz
    have : (onGrid (loc ctr a0 false) (loc ctr a1 false) (loc ctr a2 false) (inShell rmin rmax)).get [i, j, k] = inShell rmin rmax x y z := by
      simp [onGrid, hx, hy, hz]
    rw [this, inShell_iff, (shell_dist hmin (le_refl 0)).1]
    refine and_congr_right fun _ => forall_congr' fun r => imp_congr_right fun hr => ?_
    exact (shell_dist hmin (hmax r hr)).2

/-- C179: on face and edge centered vector fields the mask is a vector field, and each component is decided where that component is (if numpy takes lists as indices) -/
theorem C179_staggered_partial (ctr : Center) (hctr : ctr = .face ∨ ctr = .edge) (a0 a1 a2 : Axis) (h0 : a0.cc = none) (h1 : a1.cc = none) (h2 : a2.cc = none)
    (last : Bool) (rmin : ℚ) (hmin : 0 ≤ rmin) (rmax : Option ℚ) (hmax : ∀ r, rmax = some r → 0 ≤ r) (junk : List Nat → Bool) :
    ∃ m, sphericalMask true ctr [a0, a1, a2] (some last) rmin rmax junk = .ok (.vector m) ∧ m.shape = [a0, a1, a2].map (count ctr) ∧ m.last = last ∧
      ∀ c i j k x y z, c < 3 → At ctr a0.nodes (decide (c = 0)) i x → At ctr a1.nodes (decide (c = 1)) j y → At ctr a2.nodes (decide (c = 2)) k z →
        (value m c [i, j, k] = true ↔ (rmin : ℝ) ≤ len ![(x : ℝ), y, z] ∧ ∀ r, rmax = some r → len ![(x : ℝ), y, z] < r) := by
  have he : ctr = .edge ∨ ctr = .face := hctr.symm
  obtain ⟨tr, ht, r, hr, s, l, -, v⟩ := fill_eq ctr a0 a1 a2 h0 h1 h2 ⟨[a0, a1, a2].map (count ctr), last, ⟨vecShape last ([a0, a1, a2].map (count ctr)), junk⟩⟩ rfl
    (fun _ => inShell rmin rmax)
  refine ⟨r, ?_, s, l, ?_⟩
  · unfold sphericalMask
    rw [if_pos ⟨rfl, he⟩, ht]
    simp only [Option.getD_some, not_true, if_false, bind, Except.bind, hr]
  · intro c i j k x y z hc hx hy hz
    rw [v c i j k x y z hc hx hy hz, inShell_iff, (shell_dist hmin (le_refl 0)).1]
    refine and_congr_right fun _ => forall_congr' fun r => imp_congr_right fun hr => ?_
    exact (shell_dist hmin (hmax r hr)).2

/-- C179 is violated: with a numpy that does not take lists as indices there are no masks for face and edge centered vector fields -/
theorem C179_index_violated (ctr : Center) (hctr : ctr = .face ∨ ctr = .edge) (a0 a1 a2 : Axis) (last : Bool) (rmin : ℚ) (rmax : Option ℚ) (junk : List Nat → Bool) :
    ∃ e, sphericalMask false ctr [a0, a1, a2] (some last) rmin rmax junk = .error e := by
  refine ⟨.index, ?_⟩
  unfold sphericalMask
  rw [if_pos ⟨rfl, hctr.symm⟩, triples_eq]
  rfl

/-- C179 is violated: a negative `rmin` excludes the points nearer than its absolute value (all distances are larger than it) -/
theorem C179_negative_violated (rmin : ℚ) (h : rmin < 0) : inShell rmin none 0 0 0 = false ∧ (rmin : ℝ) ≤ len ![0, 0, 0] := by
  constructor
  · rw [← Bool.not_eq_true, inShell_iff]
    rintro ⟨h1, -⟩
    have : 0 < rmin ^ 2 := by nlinarith
    simp at h1
    exact absurd h1 (ne_of_lt h)
  · have h1 : (rmin : ℝ) < 0 := by exact_mod_cast h
    exact le_trans (le_of_lt h1) (len_nonneg _)

/-! ## C180 -/

theorem dip_eq (m : V3) (c : Fin 3) (x y z : ℚ) (h : (![(x : ℝ), y, z] : V3) ≠ 0) :
    dip m c x y z = Viscid.Spec.Dipole.field m ![(x : ℝ), y, z] c := by
  have hl : len ![(x : ℝ), (y : ℝ), (z : ℝ)] ≠ 0 := by
    intro hl
    obtain ⟨h0, h1, h2⟩ := eq_zero_of_len hl
    exact h (ext3 h0 h1 h2)
  have hd : dot m ![(x : ℝ), (y : ℝ), (z : ℝ)] = m 0 * ![(x : ℝ), (y : ℝ), (z : ℝ)] 0 + m 1 * ![(x : ℝ), (y : ℝ), (z : ℝ)] 1 + m 2 * ![(x : ℝ), (y : ℝ), (z : ℝ)] 2 := rfl
  have hj : (if (c : Nat) = 0 then (0 : Fin 3) else if (c : Nat) = 1 then 1 else 2) = c := by
    match c with
    | 0 => rfl
    | 1 => rfl
    | 2 => rfl
  unfold dip
  simp only [hj]
  unfold Viscid.Spec.Dipole.field
  rw [len_rsq, Real.sqrt_sq (len_nonneg _), hd]
  field_simp

theorem fin_dec (c d : Fin 3) : decide (c = d) = decide ((c : Nat) = (d : Nat)) := by simp [Fin.ext_iff]

/-- the moment that is used -/
def Moment (m : V3) (strength : Option ℝ) (M : V3) : Prop :=
  (strength = none ∧ M = m) ∨ ∃ s, strength = some s ∧ M = fun j => s / len m * m j

theorem scaled_moment (m : V3) (strength : Option ℝ) : Moment m strength (scaled m strength) := by
  cases strength with
  | none => exact Or.inl ⟨rfl, rfl⟩
  | some s => exact Or.inr ⟨s, rfl, by unfold scaled; rw [len_rsq, Real.sqrt_sq (len_nonneg _)]⟩

/-- C180: without a mask, each component of each vector becomes that of the field of a dipole at the place of that component (off the origin), whatever the centering and
layout -/
theorem C180_fill_partial (ctr : Center) (a0 a1 a2 : Axis) (h0 : a0.cc = none) (h1 : a1.cc = none) (h2 : a2.cc = none) (b : Vec ℝ)
    (hb : b.shape = [a0, a1, a2].map (count ctr)) (m : V3) (strength : Option ℝ) (junk : List Nat → ℝ) :
    ∃ M, Moment m strength M ∧ ∃ r, fillDipole ctr [a0, a1, a2] b m strength none junk = .ok r ∧ r.shape = b.shape ∧ r.last = b.last ∧ r.data.shape = b.data.shape ∧
      ∀ (c : Fin 3) i j k x y z, At ctr a0.nodes (decide (c = 0)) i x → At ctr a1.nodes (decide (c = 1)) j y → At ctr a2.nodes (decide (c = 2)) k z →
        (![(x : ℝ), y, z] : V3) ≠ 0 → value r c [i, j, k] = Viscid.Spec.Dipole.field M ![(x : ℝ), y, z] c := by
  refine ⟨_, scaled_moment m strength, ?_⟩
  obtain ⟨tr, ht, r, hr, s, l, d, v⟩ := fill_eq ctr a0 a1 a2 h0 h1 h2 b hb (dip (scaled m strength))
  refine ⟨r, ?_, s, l, d, ?_⟩
  · unfold fillDipole
    simp only [Option.bind_none, Option.isSome_none, Bool.false_eq_true, if_false, ht]
    show Except.bind (fill _ tr _ _) _ = _
    rw [hr]
    rfl
  · intro c i j k x y z hx hy hz hp
    rw [v c i j k x y z c.isLt (fin_dec c 0 ▸ hx) (fin_dec c 1 ▸ hy) (fin_dec c 2 ▸ hz), dip_eq _ c x y z hp]

/-- the first steps with a mask -/
theorem fill_masked (ctr : Center) (a0 a1 a2 : Axis) (h0 : a0.cc = none) (h1 : a1.cc = none) (h2 : a2.cc = none) (b : Vec ℝ)
    (hb : b.shape = [a0, a1, a2].map (count ctr)) (m : V3) (strength : Option ℝ) (mask : Arr Bool) (hm : mask.shape.head? ≠ some 0) (junk : List Nat → ℝ) :
    ∃ r : Vec ℝ, r.shape = b.shape ∧ r.last = b.last ∧ r.data.shape = b.data.shape ∧
      (∀ (c : Fin 3) i j k x y z, At ctr a0.nodes (decide (c = 0)) i x → At ctr a1.nodes (decide (c = 1)) j y → At ctr a2.nodes (decide (c = 2)) k z →
        (![(x : ℝ), y, z] : V3) ≠ 0 → value r c [i, j, k] = Viscid.Spec.Dipole.field (scaled m strength) ![(x : ℝ), y, z] c) ∧
      fillDipole ctr [a0, a1, a2] b m strength (some mask) junk = (choose mask b.data r.data >>= fun q =>
        if bcast q.shape b.data.shape = some b.data.shape then .ok { b with data := ⟨b.data.shape, fun idx => q.get (bidx q.shape idx)⟩ } else .error .value) := by
  obtain ⟨tr, ht, r, hr, s, l, d, v⟩ := fill_eq ctr a0 a1 a2 h0 h1 h2 { b with data := ⟨b.data.shape, junk⟩ } hb (dip (scaled m strength))
  refine ⟨r, s, l, d, ?_, ?_⟩
  · intro c i j k x y z hx hy hz hp
    rw [v c i j k x y z c.isLt (fin_dec c 0 ▸ hx) (fin_dec c 1 ▸ hy) (fin_dec c 2 ▸ hz), dip_eq _ c x y z hp]
  · unfold fillDipole
    simp only [Option.bind_some, if_neg hm, Option.isSome_some, if_true, ht]
    show Except.bind (fill _ tr _ _) _ = _
    rw [hr]
    rfl

/-- C180: with a scalar mask, and the components first, that is done where the mask is True, and the other numbers stay -/
theorem C180_mask_partial (ctr : Center) (a0 a1 a2 : Axis) (h0 : a0.cc = none) (h1 : a1.cc = none) (h2 : a2.cc = none) (b : Vec ℝ)
    (hb : b.shape = [a0, a1, a2].map (count ctr)) (hl : b.last = false) (hd : b.data.shape = 3 :: b.shape) (m : V3) (strength : Option ℝ) (mask : Arr Bool)
    (hm : mask.shape = b.shape) (junk : List Nat → ℝ) (hn : count ctr a0 ≠ 0) :
    ∃ M, Moment m strength M ∧ ∃ r, fillDipole ctr [a0, a1, a2] b m strength (some mask) junk = .ok r ∧ r.shape = b.shape ∧ r.last = b.last ∧
      ∀ (c : Fin 3) i j k x y z, At ctr a0.nodes (decide (c = 0)) i x → At ctr a1.nodes (decide (c = 1)) j y → At ctr a2.nodes (decide (c = 2)) k z →
        (mask.get [i, j, k] = true → (![(x : ℝ), y, z] : V3) ≠ 0 → value r c [i, j, k] = Viscid.Spec.Dipole.field M ![(x : ℝ), y, z] c) ∧
        (mask.get [i, j, k] = false → value r c [i, j, k] = value b c [i, j, k]) := by
  refine ⟨_, scaled_moment m strength, ?_⟩
  obtain ⟨d, s, l, ds, v, e⟩ := fill_masked ctr a0 a1 a2 h0 h1 h2 b hb m strength mask (by rw [hm, hb]; simpa using hn) junk
  rw [choose_eq ds] at e
  unfold Viscid.Arith.apply at e
  simp only [hm, hd] at e
  rw [bcast_scalar_flat] at e
  simp only [pure_bind, bind, Except.bind, bcast_self, if_true] at e
  refine ⟨_, e, rfl, rfl, ?_⟩
  intro c i j k x y z hx hy hz
  have hw : Within b.shape [i, j, k] := by
    rw [hb]
    exact .cons ((C178_count_partial ctr a0 h0 _ i).mpr ⟨x, hx⟩) (.cons ((C178_count_partial ctr a1 h1 _ j).mpr ⟨y, hy⟩)
      (.cons ((C178_count_partial ctr a2 h2 _ k).mpr ⟨z, hz⟩) .nil))
  have hv := v c i j k x y z hx hy hz
  have hw' : Within (3 :: b.shape) ((c : Nat) :: [i, j, k]) := within_cons c.isLt hw
  unfold value at hv ⊢
  simp only [l, hl, Bool.false_eq_true, if_false] at hv ⊢
  simp only [bidx_self hw', bidx_drop_cons (c : Nat) hw]
  refine ⟨fun hq hp => ?_, fun hq => ?_⟩
  · rw [if_pos hq]; exact hv hp
  · rw [if_neg (by simp [hq])]

/-- C180: with a mask of the shape of the data, and any layout -/
theorem C180_vector_mask_partial (ctr : Center) (a0 a1 a2 : Axis) (h0 : a0.cc = none) (h1 : a1.cc = none) (h2 : a2.cc = none) (b : Vec ℝ)
    (hb : b.shape = [a0, a1, a2].map (count ctr)) (hd : b.data.shape = vecShape b.last b.shape) (m : V3) (strength : Option ℝ) (mask : Vec Bool)
    (hm : mask.data.shape = b.data.shape) (hml : mask.last = b.last) (junk : List Nat → ℝ) (hn : count ctr a0 ≠ 0) :
    ∃ M, Moment m strength M ∧ ∃ r, fillDipole ctr [a0, a1, a2] b m strength (some mask.data) junk = .ok r ∧ r.shape = b.shape ∧ r.last = b.last ∧
      ∀ (c : Fin 3) i j k x y z, At ctr a0.nodes (decide (c = 0)) i x → At ctr a1.nodes (decide (c = 1)) j y → At ctr a2.nodes (decide (c = 2)) k z →
        (value mask c [i, j, k] = true → (![(x : ℝ), y, z] : V3) ≠ 0 → value r c [i, j, k] = Viscid.Spec.Dipole.field M ![(x : ℝ), y, z] c) ∧
        (value mask c [i, j, k] = false → value r c [i, j, k] = value b c [i, j, k]) := by
  refine ⟨_, scaled_moment m strength, ?_⟩
  obtain ⟨d, s, l, ds, v, e⟩ := fill_masked ctr a0 a1 a2 h0 h1 h2 b hb m strength mask.data
    (by rw [hm, hd, hb]; unfold vecShape; split <;> simp [hn]) junk
  rw [choose_eq ds, apply_same (by simpa using hm)] at e
  simp only [bind, Except.bind, bcast_self, if_true] at e
  refine ⟨_, e, rfl, rfl, ?_⟩
  intro c i j k x y z hx hy hz
  have hw : Within b.shape [i, j, k] := by
    rw [hb]
    exact .cons ((C178_count_partial ctr a0 h0 _ i).mpr ⟨x, hx⟩) (.cons ((C178_count_partial ctr a1 h1 _ j).mpr ⟨y, hy⟩)
      (.cons ((C178_count_partial ctr a2 h2 _ k).mpr ⟨z, hz⟩) .nil))
  have hv := v c i j k x y z hx hy hz
  unfold value at hv ⊢
  simp only [l, hml, hd] at hv ⊢
  cases hbl : b.last with
  | true =>
    have hw' : Within (b.shape ++ [3]) ([i, j, k] ++ [(c : Nat)]) := within_snoc c.isLt hw
    simp only [hbl, if_true, vecShape, bidx_self hw'] at hv ⊢
    refine ⟨fun hq hp => ?_, fun hq => ?_⟩
    · rw [if_pos hq]; exact hv hp
    · rw [if_neg (by rw [hq]; exact Bool.false_ne_true)]
  | false =>
    have hw' : Within (3 :: b.shape) ((c : Nat) :: [i, j, k]) := within_cons c.isLt hw
    simp only [hbl, Bool.false_eq_true, if_false, vecShape, bidx_self hw'] at hv ⊢
    refine ⟨fun hq hp => ?_, fun hq => ?_⟩
    · rw [if_pos hq]; exact hv hp
    · rw [if_neg (by simp [hq])]

/-- C180 is violated: with the components last, a scalar mask, as `make_spherical_mask` gives for node and cell centered fields, raises, unless the shape of the grid is one
that broadcasts with the sizes shifted by one -/
theorem C180_last_violated (ctr : Center) (a0 a1 a2 : Axis) (h0 : a0.cc = none) (h1 : a1.cc = none) (h2 : a2.cc = none) (b : Vec ℝ)
    (hb : b.shape = [a0, a1, a2].map (count ctr)) (hd : b.data.shape = b.shape ++ [3]) (m : V3) (strength : Option ℝ) (mask : Arr Bool)
    (hm : mask.shape = b.shape) (hs : ¬ Shifted b.shape 3) (junk : List Nat → ℝ) (hn : count ctr a0 ≠ 0) :
    fillDipole ctr [a0, a1, a2] b m strength (some mask) junk = .error .value := by
  obtain ⟨d, s, l, ds, v, e⟩ := fill_masked ctr a0 a1 a2 h0 h1 h2 b hb m strength mask (by rw [hm, hb]; simpa using hn) junk
  rw [e, choose_eq ds]
  unfold Viscid.Arith.apply
  simp only [hm, hd]
  cases hbc : bcast b.shape (b.shape ++ [3]) with
  | none => rfl
  | some t =>
    show (if _ then _ else _) = _
    rw [if_neg (no_back hs hbc)]

/-- C180: the moment that is used has the strength that was asked for, and the direction of the one given -/
theorem C180_strength_partial (m M : V3) (s : ℝ) (hm : m ≠ 0) (hs : 0 ≤ s) (h : Moment m (some s) M) :
    len M = s ∧ ∃ k : ℝ, 0 ≤ k ∧ ∀ j, M j = k * m j := by
  have hl : len m ≠ 0 := by
    intro hl
    obtain ⟨h0, h1, h2⟩ := eq_zero_of_len hl
    exact hm (ext3 h0 h1 h2)
  have hp : 0 < len m := lt_of_le_of_ne (len_nonneg m) (Ne.symm hl)
  rcases h with ⟨h, -⟩ | ⟨s', h, rfl⟩
  · simp at h
  · simp only [Option.some.injEq] at h
    subst h
    refine ⟨?_, s / len m, div_nonneg hs hp.le, fun j => rfl⟩
    have : len (fun j => s / len m * m j) ^ 2 = s ^ 2 := by
      rw [len_sq]
      have e := len_sq m
      have : (s / len m * m 0) ^ 2 + (s / len m * m 1) ^ 2 + (s / len m * m 2) ^ 2 = (s / len m) ^ 2 * (m 0 ^ 2 + m 1 ^ 2 + m 2 ^ 2) := by ring
      rw [this, ← e]
      field_simp
    exact (sq_eq_sq₀ (len_nonneg _) hs).mp this

theorem linspace_at (l h : ℚ) (n i : Nat) (hi : i < n) (hn : 2 ≤ n) : (Crds.linspace l h n)[i]? = some (l + i * ((h - l) / ((n : ℚ) - 1))) := by
  unfold Crds.linspace
  rw [if_neg (by omega), List.getElem?_map, List.getElem?_range hi]
  rfl

theorem dip_linspace_length (l h : ℚ) (n : Nat) : (Crds.linspace l h n).length = n := by
  unfold Crds.linspace
  split
  · next h => simp [h]
  · simp

theorem dipole_count_cell (l h : ℚ) (n : Nat) (hn : 0 < n) : count .cell ⟨Crds.linspace l h (n + 1), none, false⟩ = n := by
  have : ∀ k, k < count .cell ⟨Crds.linspace l h (n + 1), none, false⟩ ↔ k < n := fun k => by
    rw [C178_count_partial .cell _ rfl false k]
    simp only [At, Axis.nodes, Bool.false_eq_true, if_false, Cell]
    constructor
    · rintro ⟨p, lo, hi, h | h, -⟩
      · have := (List.getElem?_eq_some_iff.mp h.2).1
        rw [dip_linspace_length] at this
        omega
      · have := congrArg List.length h.1
        rw [dip_linspace_length] at this
        simp at this
        omega
    · intro hk
      exact ⟨_, _, _, Or.inl ⟨linspace_at l h (n + 1) k (by omega) (by omega), linspace_at l h (n + 1) (k + 1) (by omega) (by omega)⟩, rfl⟩
  have h1 := this n
  have h2 := this (count .cell ⟨Crds.linspace l h (n + 1), none, false⟩)
  omega

/-- where the center of a cell is -/
theorem dipole_at_cell (l h : ℚ) (n i : Nat) (own : Bool) (hi : i < n) :
    At .cell (Axis.mk (Crds.linspace l h (n + 1)) none false).nodes own i (l + (i + 1 / 2) * ((h - l) / n)) := by
  refine ⟨_, _, Or.inl ⟨linspace_at l h (n + 1) i (by omega) (by omega), linspace_at l h (n + 1) (i + 1) (by omega) (by omega)⟩, ?_⟩
  push_cast
  ring

/-- C180: `make_dipole` gives `n` cells along each axis that fill the box from `l` to `h` evenly, and at their centers the vectors are those of the dipole -/
theorem C180_make_partial (m : V3) (strength : Option ℝ) (l h : Fin 3 → ℚ) (n : Fin 3 → Nat) (hn : ∀ j, 0 < n j) (junk : List Nat → ℝ) :
    ∃ M, Moment m strength M ∧ ∃ r, makeDipole m strength [l 0, l 1, l 2] [h 0, h 1, h 2] [n 0, n 1, n 2] .cell junk = .ok r ∧ r.shape = [n 0, n 1, n 2] ∧
      ∀ (c : Fin 3) (i : Fin 3 → Nat), (∀ j, i j < n j) → ∀ p : V3, (∀ j, p j = l j + (i j + 1 / 2) * ((h j - l j) / n j)) → p ≠ 0 →
        value r c [i 0, i 1, i 2] = Viscid.Spec.Dipole.field M p c := by
  obtain ⟨M, hM, r, hr, s, -, -, v⟩ := C180_fill_partial .cell ⟨Crds.linspace (l 0) (h 0) (n 0 + 1), none, false⟩ ⟨Crds.linspace (l 1) (h 1) (n 1 + 1), none, false⟩
    ⟨Crds.linspace (l 2) (h 2) (n 2 + 1), none, false⟩ rfl rfl rfl
    ⟨(dipoleAxes [l 0, l 1, l 2] [h 0, h 1, h 2] [n 0, n 1, n 2] .cell).map (count .cell), true,
      ⟨vecShape true ((dipoleAxes [l 0, l 1, l 2] [h 0, h 1, h 2] [n 0, n 1, n 2] .cell).map (count .cell)), junk⟩⟩ rfl m strength junk
  refine ⟨M, hM, r, hr, ?_, ?_⟩
  · rw [s]
    show [count .cell ⟨Crds.linspace (l 0) (h 0) (n 0 + 1), none, false⟩, count .cell ⟨Crds.linspace (l 1) (h 1) (n 1 + 1), none, false⟩,
      count .cell ⟨Crds.linspace (l 2) (h 2) (n 2 + 1), none, false⟩] = _
    rw [dipole_count_cell _ _ _ (hn 0), dipole_count_cell _ _ _ (hn 1), dipole_count_cell _ _ _ (hn 2)]
  · intro c i hi p hp h0
    have e : p = ![((l 0 + (i 0 + 1 / 2) * ((h 0 - l 0) / n 0) : ℚ) : ℝ), ((l 1 + (i 1 + 1 / 2) * ((h 1 - l 1) / n 1) : ℚ) : ℝ),
        ((l 2 + (i 2 + 1 / 2) * ((h 2 - l 2) / n 2) : ℚ) : ℝ)] := by
      apply ext3
      · rw [hp 0]; push_cast; rfl
      · rw [hp 1]; push_cast; rfl
      · rw [hp 2]; push_cast; rfl
    rw [e]
    exact v c (i 0) (i 1) (i 2) _ _ _ (dipole_at_cell _ _ _ _ _ (hi 0)) (dipole_at_cell _ _ _ _ _ (hi 1)) (dipole_at_cell _ _ _ _ _ (hi 2)) (by rw [← e]; exact h0)

theorem dipole_count_face (l h : ℚ) (n : Nat) (ctr : Center) (hc : ctr = .face ∨ ctr = .edge) : count ctr ⟨Crds.linspace l h n, none, false⟩ = if n = 1 then 1 else n - 1 := by
  have hne : ctr ≠ .node := by rcases hc with rfl | rfl <;> simp
  unfold count
  rw [if_neg hne]
  show (mid (Crds.linspace l h n)).length = _
  unfold mid
  rw [dip_linspace_length]
  split
  · next h1 => rw [dip_linspace_length, h1]
  · simp [dip_linspace_length]

/-- C180 is violated: with `center='face'` or `'edge'` there is one cell less than asked for along each axis -/
theorem C180_face_violated (ctr : Center) (hc : ctr = .face ∨ ctr = .edge) (m : V3) (strength : Option ℝ) (l h : Fin 3 → ℚ) (n : Fin 3 → Nat) (hn : ∀ j, 2 ≤ n j)
    (junk : List Nat → ℝ) :
    ∃ r, makeDipole m strength [l 0, l 1, l 2] [h 0, h 1, h 2] [n 0, n 1, n 2] ctr junk = .ok r ∧ r.shape = [n 0 - 1, n 1 - 1, n 2 - 1] := by
  have hne : ctr ≠ .cell := by rcases hc with rfl | rfl <;> simp
  have ha : dipoleAxes [l 0, l 1, l 2] [h 0, h 1, h 2] [n 0, n 1, n 2] ctr =
      [⟨Crds.linspace (l 0) (h 0) (n 0), none, false⟩, ⟨Crds.linspace (l 1) (h 1) (n 1), none, false⟩, ⟨Crds.linspace (l 2) (h 2) (n 2), none, false⟩] := by
    simp [dipoleAxes, hne]
  obtain ⟨M, hM, r, hr, s, -, -, v⟩ := C180_fill_partial ctr ⟨Crds.linspace (l 0) (h 0) (n 0), none, false⟩ ⟨Crds.linspace (l 1) (h 1) (n 1), none, false⟩
    ⟨Crds.linspace (l 2) (h 2) (n 2), none, false⟩ rfl rfl rfl
    ⟨(dipoleAxes [l 0, l 1, l 2] [h 0, h 1, h 2] [n 0, n 1, n 2] ctr).map (count ctr), true,
      ⟨vecShape true ((dipoleAxes [l 0, l 1, l 2] [h 0, h 1, h 2] [n 0, n 1, n 2] ctr).map (count ctr)), junk⟩⟩ (by rw [ha]) m strength junk
  refine ⟨r, ?_, ?_⟩
  · unfold makeDipole
    simp only [ha] at hr ⊢
    exact hr
  · rw [s, ha]
    show [count ctr _, count ctr _, count ctr _] = _
    rw [dipole_count_face _ _ _ _ hc, dipole_count_face _ _ _ _ hc, dipole_count_face _ _ _ _ hc]
    have := hn 0
    have := hn 1
    have := hn 2
    rw [if_neg (by omega), if_neg (by omega), if_neg (by omega)]

/-- the hypotheses of the theorems above are met by a grid of 2, 3 and 1 nodes, cell or face centered -/
example : (yeeEx.map (count .face)) = [1, 2, 1] ∧ (∀ a ∈ yeeEx, a.cc = none) ∧ At .face [0, 1, 3] true 1 1 ∧ ¬ Shifted ((yeeEx.map (count .node))) 3 := by
  refine ⟨by decide +kernel, by decide +kernel, ⟨3, Or.inl ⟨rfl, rfl⟩⟩, ?_⟩
  have : yeeEx.map (count .node) = [2, 3, 1] := by decide +kernel
  rw [this]
  unfold Shifted
  simp

end Viscid.Props
