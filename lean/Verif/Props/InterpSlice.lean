import Verif.Model.InterpSlice
import Verif.Spec.InterpSlice
import Verif.Props.Interp
import Verif.Props.Select
/-!
# C186: interpolated slices; C187: downsample
-/
namespace Viscid.Props
open Viscid.Interp Viscid.InterpSlice Viscid.Spec.Interp Viscid.Spec.InterpSlice

theorem nearest_increasing {c : List ℚ} (h : Increasing c) {v : ℚ} {i : Nat} (hn : Nearest c v i) : Increasing (c.set i v) := by
  obtain ⟨x, hx, hmin⟩ := hn
  intro j k p q hp hq hjk
  rw [List.getElem?_set] at hp hq
  have hi := lt_len hx
  by_cases hij : i = j
  · rw [if_pos hij, if_pos (hij ▸ hi)] at hp
    rw [if_neg (by omega)] at hq
    cases hp
    have h1 := h i k _ _ hx hq (by omega)
    by_contra hc
    have h2 := (hmin k q hq).1
    rw [abs_of_nonpos (by linarith), abs_of_nonpos (by linarith)] at h2
    linarith
  · rw [if_neg hij] at hp
    by_cases hik : i = k
    · rw [if_pos hik, if_pos (hik ▸ hi)] at hq
      cases hq
      have h1 := h j i _ _ hp hx (by omega)
      by_contra hc
      have h2 := (hmin j p hp).1
      rw [abs_of_nonneg (by linarith), abs_of_nonneg (by linarith)] at h2
      linarith
    · rw [if_neg hik] at hq
      exact h j k _ _ hp hq hjk

/-- the interpolation along an axis at `x` gives the value at `i`, whatever the cached index -/
def AtNode (a : Axis) (x : ℚ) (i : Nat) : Prop :=
  ∀ s < a.n, ∃ l c, locate a x s = some (l, c) ∧ c < a.n ∧ l.ix + l.p < a.n ∧ ∀ g, lerp g l = g i

theorem atNode_valid {a : Axis} (ha : Valid a) {i : Nat} {x : ℚ} (hx : a.crds[i]? = some x) : AtNode a x i := by
  intro s hs
  obtain ⟨l, c, h1, h2, h3⟩ := locate_spec a ha x s hs
  exact ⟨l, c, h1, h3, (LocSpec_range a ha x l h2).1, fun g => lerp_node a ha i x hx l h2 g⟩

theorem headD_set {c : List ℚ} {i : Nat} (hi : i ≠ 0) (v : ℚ) : (c.set i v).headD 0 = c.headD 0 := by
  cases c with
  | nil => rfl
  | cons x l =>
    cases i with
    | zero => exact absurd rfl hi
    | succ i => rfl

theorem getLastD_set {c : List ℚ} {i : Nat} (hi : i ≠ c.length - 1) (v : ℚ) : (c.set i v).getLastD 0 = c.getLastD 0 := by
  rw [List.getLastD_eq_getLast?, List.getLastD_eq_getLast?, List.getLast?_eq_getElem?, List.getLast?_eq_getElem?, List.length_set, List.getElem?_set_ne hi]

theorem atNode_uniform {c : List ℚ} (hc : Valid ⟨c, true⟩) {v : ℚ} {i : Nat} (hn : Nearest c v i) : AtNode ⟨c.set i v, true⟩ v i := by
  obtain ⟨x, hx, hmin⟩ := hn
  have hi := lt_len hx
  have hlen : (Axis.mk (c.set i v) true).n = c.length := by unfold Axis.n; simp
  intro s hs
  have hs' : s < (Axis.mk c true).n := by rw [hlen] at hs; exact hs
  by_cases h1 : (Axis.mk (c.set i v) true).n = 1 ∨ v ≤ (Axis.mk (c.set i v) true).xl
  · refine ⟨⟨0, 0, 0⟩, s, by unfold locate; rw [if_pos h1], hs, by dsimp only; omega, fun g => ?_⟩
    have : i = 0 := by
      rcases h1 with h1 | h1
      · rw [hlen] at h1; omega
      · by_contra hne
        have e : (Axis.mk (c.set i v) true).xl = c.headD 0 := headD_set hne v
        rw [e] at h1
        have h2 := (hmin 0 _ (head_eq c hc.ne)).1
        have h3 := hc.inc 0 i _ _ (head_eq c hc.ne) hx (by omega)
        change c.headD 0 < x at h3
        rw [abs_of_nonneg (by linarith), abs_of_nonneg (by linarith)] at h2
        linarith
    subst this
    simp [lerp]
  · by_cases h2 : v ≥ (Axis.mk (c.set i v) true).xh
    · refine ⟨⟨c.length - 1, 0, 0⟩, s, by unfold locate; rw [if_neg h1, if_pos h2, hlen], hs, by rw [hlen]; dsimp only; omega, fun g => ?_⟩
      have : i = c.length - 1 := by
        by_contra hne
        have e : (Axis.mk (c.set i v) true).xh = c.getLastD 0 := getLastD_set hne v
        rw [e] at h2
        have h3 := (hmin _ _ (last_eq c hc.ne)).1
        have h4 := hc.inc i (c.length - 1) _ _ hx (last_eq c hc.ne) (by omega)
        rw [abs_of_nonpos (by linarith), abs_of_nonpos (by linarith)] at h3
        linarith
      rw [← this]
      simp [lerp]
    · rw [not_or, not_le] at h1
      have h2 := not_le.mp h2
      have hi0 : i ≠ 0 := by
        rintro rfl
        have : (Axis.mk (c.set 0 v) true).xl = v := by
          show (c.set 0 v).headD 0 = v
          cases c with
          | nil => simp at hi
          | cons y l => rfl
        linarith [h1.2]
      have hil : i ≠ c.length - 1 := by
        intro h
        have : (Axis.mk (c.set i v) true).xh = v := by
          show (c.set i v).getLastD 0 = v
          rw [List.getLastD_eq_getLast?, List.getLast?_eq_getElem?, List.length_set, ← h, List.getElem?_set_self hi]
          rfl
        linarith
      have exl : (Axis.mk (c.set i v) true).xl = c.headD 0 := headD_set hi0 v
      have exh : (Axis.mk (c.set i v) true).xh = c.getLastD 0 := getLastD_set hil v
      have hp : preceding ⟨c.set i v, true⟩ v s = preceding ⟨c, true⟩ v s := by
        unfold preceding Axis.L
        rw [exl, exh, hlen]
        rfl
      obtain ⟨r, hr, y0, y1, hy0, hy1, hv0, hv1⟩ := preceding_inside ⟨c, true⟩ hc v s hs' (by linarith [h1.2]) (by linarith)
      have hr1 := lt_len hy1
      have hir : i = r ∨ i = r + 1 := by
        by_contra hne
        rw [not_or] at hne
        rcases Nat.lt_or_ge i r with h | h
        · have h3 := hc.inc i r _ _ hx hy0 h
          have h4 := (hmin r y0 hy0).1
          rw [abs_of_nonpos (by linarith), abs_of_nonpos (by linarith)] at h4
          linarith
        · have h3 := hc.inc (r + 1) i _ _ hy1 hx (by omega)
          have h4 := (hmin (r + 1) y1 hy1).1
          rw [abs_of_nonneg (by linarith), abs_of_nonneg (by linarith)] at h4
          linarith
      rcases hir with rfl | rfl
      · have g0 : (c.set i v)[i]? = some v := List.getElem?_set_self hi
        have g1 : (c.set i v)[i + 1]? = some y1 := by rw [List.getElem?_set_ne (by omega)]; exact hy1
        refine ⟨⟨i, 1, (v - v) / (y1 - v)⟩, i, ?_, by rw [hlen]; omega, by rw [hlen]; exact hr1, fun g => by simp [lerp]⟩
        unfold locate
        rw [if_neg (by rw [not_or, not_le]; exact h1), if_neg (not_le.mpr h2), hp, hr]
        simp only [g0, g1]
      · have g0 : (c.set (r + 1) v)[r]? = some y0 := by rw [List.getElem?_set_ne (by omega)]; exact hy0
        have g1 : (c.set (r + 1) v)[r + 1]? = some v := List.getElem?_set_self hi
        have hlt : y0 < v := by
          have h4 := (hmin r y0 hy0).2 (by omega)
          rcases lt_or_eq_of_le hv0 with h | h
          · exact h
          · rw [h] at h4
            simp at h4
            exact absurd h4 (not_lt.mpr (abs_nonneg _))
        refine ⟨⟨r, 1, (v - y0) / (v - y0)⟩, r, ?_, by rw [hlen]; omega, by rw [hlen]; exact hr1, fun g => ?_⟩
        · unfold locate
          rw [if_neg (by rw [not_or, not_le]; exact h1), if_neg (not_le.mpr h2), hp, hr]
          simp only [g0, g1]
        · rw [lerp, div_self (by linarith)]
          dsimp only
          ring

/-- the interpolation at a place of the slice, for one axis of a node centered field -/
theorem axis_node (c : Crd) (u : Bool) (hc : Valid ⟨c.nc, u⟩) (s : InterpSlice.Sel) :
    ∃ (c' : Crd) (px : List (ℚ × Nat)), sliceInterp1 false c s = .ok (c', px.map Prod.fst) ∧ px.map Prod.fst = Places c.nc s ∧ NearestIdx c.nc s (px.map Prod.snd) ∧
      c'.nc.length = c.nc.length ∧ (∀ v, s = some v → ∃ i, Nearest c.nc v i ∧ c'.nc = c.nc.set i v) ∧ (s = none → c' = c) ∧
      ∀ p ∈ px, AtNode ⟨c'.nc, u⟩ p.1 p.2 := by
  cases s with
  | none =>
    refine ⟨c, c.nc.zipIdx, by simp [sliceInterp1], by simp [Places], by simp [NearestIdx, List.range_eq_range'], rfl, by simp, fun _ => rfl, ?_⟩
    rintro ⟨x, i⟩ hp
    rw [List.mk_mem_zipIdx_iff_getElem?] at hp
    exact atNode_valid hc hp
  | some v =>
    obtain ⟨i, x, h1, h2, h3⟩ := Select.C15_nearest c.nc v hc.ne
    have hnear : Nearest c.nc v i := ⟨x, h2, h3⟩
    refine ⟨⟨c.nc.set i v, if c.nc.length = 1 then c.nc.set i v else c.cc⟩, [(v, i)], ?_, rfl, ⟨i, hnear, rfl⟩, by simp, ?_, by simp, ?_⟩
    · unfold sliceInterp1
      simp [h1]
    · rintro v' hv
      cases hv
      exact ⟨i, hnear, rfl⟩
    · intro p hp
      simp only [List.mem_singleton] at hp
      subst hp
      cases u with
      | true => exact atNode_uniform hc hnear
      | false =>
        refine atNode_valid (a := ⟨c.nc.set i v, false⟩) ⟨by simpa using hc.ne, nearest_increasing hc.inc hnear, by simp⟩ ?_
        exact List.getElem?_set_self (lt_len h2)

/-- all combinations, the last fastest -/
def combos (px py pz : List α) : List (α × α × α) := px.flatMap fun p => py.flatMap fun q => pz.map fun r => (p, q, r)

theorem combos_mem {px py pz : List α} {t : α × α × α} (h : t ∈ combos px py pz) : t.1 ∈ px ∧ t.2.1 ∈ py ∧ t.2.2 ∈ pz := by
  simp only [combos, List.mem_flatMap, List.mem_map] at h
  obtain ⟨p, hp, q, hq, r, hr, rfl⟩ := h
  exact ⟨hp, hq, hr⟩

theorem points_eq (px py pz : List (ℚ × β)) : points (px.map Prod.fst) (py.map Prod.fst) (pz.map Prod.fst) =
    (combos px py pz).map fun t => (t.1.1, t.2.1.1, t.2.2.1) := by
  simp [points, combos, List.map_flatMap, List.flatMap_map]
  rfl

theorem take_eq (f : Nat → Nat → Nat → ℚ) (px py pz : List (β × Nat)) : take f (px.map Prod.snd) (py.map Prod.snd) (pz.map Prod.snd) =
    (combos px py pz).map fun t => f t.1.2 t.2.1.2 t.2.2.2 := by
  simp [take, combos, List.map_flatMap, List.flatMap_map]
  rfl

theorem sweep_map (g : Grid) (T : List (ℚ × ℚ × ℚ)) (val : ℚ × ℚ × ℚ → ℚ) (h : ∀ t ∈ T, ∀ c, CacheOk g c → ∃ c', trilin g t.1 t.2.1 t.2.2 c = some (val t, c') ∧ CacheOk g c')
    (c : Cache) (hc : CacheOk g c) : sweep trilin (T.map fun p => (g, p)) c = some (T.map val) := by
  induction T generalizing c with
  | nil => rfl
  | cons t T ih =>
    obtain ⟨c', h1, h2⟩ := h t (by simp) c hc
    have h3 := ih (fun t ht => h t (List.mem_cons_of_mem _ ht)) c' h2
    obtain ⟨x, y, z⟩ := t
    simp only [List.map_cons, sweep, h1, h3]

/-- C186 is violated: an interpolated slice of a node centered field is not interpolated. Whatever is selected, its values are those of the nearest nodes, though its coordinates
are those asked for -/
theorem C186_node_violated (f : Fld) (hf : f.cell = false) (hx : Valid ⟨f.x.nc, f.uniform⟩) (hy : Valid ⟨f.y.nc, f.uniform⟩) (hz : Valid ⟨f.z.nc, f.uniform⟩)
    (sx sy sz : InterpSlice.Sel) :
    ∃ f' o ix iy iz, interpolatedSlice f sx sy sz = .ok (f', some o) ∧ o.xs = Places f.x.nc sx ∧ o.ys = Places f.y.nc sy ∧ o.zs = Places f.z.nc sz ∧
      NearestIdx f.x.nc sx ix ∧ NearestIdx f.y.nc sy iy ∧ NearestIdx f.z.nc sz iz ∧ o.vals = take f.data ix iy iz := by
  obtain ⟨cx, px, ex, plx, nx, lx, -, -, ax⟩ := axis_node f.x f.uniform hx sx
  obtain ⟨cy, py, ey, ply, ny, ly, -, -, ay⟩ := axis_node f.y f.uniform hy sy
  obtain ⟨cz, pz, ez, plz, nz, lz, -, -, az⟩ := axis_node f.z f.uniform hz sz
  let f' : Fld := { f with x := cx, y := cy, z := cz }
  have hlx : 0 < cx.nc.length := by rw [lx]; exact List.length_pos_iff.mpr hx.ne
  have hly : 0 < cy.nc.length := by rw [ly]; exact List.length_pos_iff.mpr hy.ne
  have hlz : 0 < cz.nc.length := by rw [lz]; exact List.length_pos_iff.mpr hz.ne
  have hg : f'.grid = ⟨⟨cx.nc, f.uniform⟩, ⟨cy.nc, f.uniform⟩, ⟨cz.nc, f.uniform⟩, f.data⟩ := by
    simp [Fld.grid, Fld.at_, f', hf]
  have hpts : points (px.map Prod.fst) (py.map Prod.fst) (pz.map Prod.fst) = (combos px py pz).map fun t => (t.1.1, t.2.1.1, t.2.2.1) := points_eq px py pz
  have hsw : ∀ T : List ((ℚ × Nat) × (ℚ × Nat) × (ℚ × Nat)), (∀ t ∈ T, t.1 ∈ px ∧ t.2.1 ∈ py ∧ t.2.2 ∈ pz) → ∀ c, CacheOk f'.grid c →
      sweep trilin (T.map fun t => (f'.grid, t.1.1, t.2.1.1, t.2.2.1)) c = some (T.map fun t => f.data t.1.2 t.2.1.2 t.2.2.2) := by
    intro T
    induction T with
    | nil => exact fun _ c _ => rfl
    | cons t T ih =>
      intro hT c hc
      obtain ⟨m1, m2, m3⟩ := hT t (by simp)
      rw [hg] at hc ⊢
      obtain ⟨la, ca, a1, a2, a3, a4⟩ := ax t.1 m1 c.1 hc.1
      obtain ⟨lb, cb, b1, b2, b3, b4⟩ := ay t.2.1 m2 c.2.1 hc.2.1
      obtain ⟨ld, cd, d1, d2, d3, d4⟩ := az t.2.2 m3 c.2.2 hc.2.2
      have ht : trilin ⟨⟨cx.nc, f.uniform⟩, ⟨cy.nc, f.uniform⟩, ⟨cz.nc, f.uniform⟩, f.data⟩ t.1.1 t.2.1.1 t.2.2.1 c = some (f.data t.1.2 t.2.1.2 t.2.2.2, (ca, cb, cd)) := by
        unfold trilin
        simp only [a1, b1, d1]
        rw [if_pos (by simp [Grid.inside, a3, b3, d3]), blend_eq, d4, b4, a4]
      have hih := ih (fun t ht => hT t (List.mem_cons_of_mem _ ht)) (ca, cb, cd) (by rw [hg]; exact ⟨a2, b2, d2⟩)
      rw [hg] at hih
      simp only [List.map_cons, sweep, ht, hih]
  refine ⟨f', ⟨px.map Prod.fst, py.map Prod.fst, pz.map Prod.fst, take f.data (px.map Prod.snd) (py.map Prod.snd) (pz.map Prod.snd)⟩, _, _, _, ?_, plx, ply, plz, nx, ny, nz, rfl⟩
  unfold interpolatedSlice
  simp only [hf, ex, ey, ez]
  have h0 := hsw (combos px py pz) (fun t ht => combos_mem ht) (0, 0, 0) (by rw [hg]; exact ⟨hlx, hly, hlz⟩)
  simp only [Bool.false_eq_true, if_false, hpts, List.map_map, take_eq]
  have e : f'.grid = Fld.grid { cell := f.cell, uniform := f.uniform, x := cx, y := cy, z := cz, data := f.data } := rfl
  rw [e] at h0
  simp only [f', hf] at h0 ⊢
  have h0' : sweep trilin (List.map ((fun p => (Fld.grid { cell := false, uniform := f.uniform, x := cx, y := cy, z := cz, data := f.data }, p)) ∘
      fun t : (ℚ × Nat) × (ℚ × Nat) × (ℚ × Nat) => (t.1.1, t.2.1.1, t.2.2.1)) (combos px py pz)) (0, 0, 0) = _ := h0
  rw [h0']
  rfl

/-- C186 is violated: the field itself is changed. The coordinate of the nearest node becomes the value that was selected -/
theorem C186_changed_violated (f : Fld) (hf : f.cell = false) (hx : Valid ⟨f.x.nc, f.uniform⟩) (v : ℚ) :
    ∃ f' o i, interpolatedSlice f (some v) none none = .ok (f', o) ∧ Nearest f.x.nc v i ∧ f'.x.nc = f.x.nc.set i v ∧ f'.y = f.y ∧ f'.z = f.z ∧ f'.data = f.data := by
  obtain ⟨cx, px, ex, -, -, -, hch, -, -⟩ := axis_node f.x f.uniform hx (some v)
  obtain ⟨i, h1, h2⟩ := hch v rfl
  refine ⟨{ f with x := cx, y := f.y, z := f.z }, (Interp.sweep Interp.trilin ((points (px.map Prod.fst) f.y.nc f.z.nc).map fun p =>
    (({ f with x := cx, y := f.y, z := f.z } : Fld).grid, p)) (0, 0, 0)).map fun w => ⟨px.map Prod.fst, f.y.nc, f.z.nc, w⟩, i, ?_, h1, h2, rfl, rfl, rfl⟩
  unfold interpolatedSlice
  simp only [hf, ex]
  rfl

theorem centers_length : ∀ l : List ℚ, l.length ≠ 1 → (centers l).length = l.length - 1
  | [], _ => rfl
  | [_], h => absurd rfl h
  | [x, y], _ => rfl
  | x :: y :: z :: l, _ => by
    have := centers_length (y :: z :: l) (by simp)
    simp only [centers, List.length_cons] at this ⊢
    omega

/-- one axis of a cell centered field -/
theorem axis_cell (nc : List ℚ) (hne : centers nc ≠ []) (s : InterpSlice.Sel) :
    ∃ c' xs, sliceInterp1 true (Crd.fresh nc) s = .ok (c', xs) ∧ centers xs = Places (centers nc) s ∧ (nc.length ≠ 1 → c'.cc = centers nc) ∧ c'.cc.length = (centers nc).length := by
  cases s with
  | none => exact ⟨Crd.fresh nc, nc, rfl, rfl, fun _ => rfl, rfl⟩
  | some v =>
    obtain ⟨i, x, h1, h2, h3⟩ := Select.C15_nearest (centers nc) v hne
    refine ⟨_, _, by unfold sliceInterp1; simp [h1, Crd.fresh]; exact ⟨rfl, rfl⟩, ?_, ?_, ?_⟩
    · by_cases h : nc.length = 1
      · simp [h, centers, Places]
      · simp [h, centers, Places]
    · intro h
      simp [h]
    · by_cases h : nc.length = 1
      · obtain ⟨y, rfl⟩ := List.length_eq_one_iff.mp h
        simp [centers]
      · simp [h]

theorem locate_one {a b : Axis} (ha : a.n = 1) (hb : b.n = 1) (x : ℚ) (s : Nat) : locate a x s = locate b x s := by
  unfold locate
  rw [if_pos (Or.inl ha), if_pos (Or.inl hb)]

/-- C186: an interpolated slice of a cell centered field, on coordinates that were just made, has at each of its places the trilinear interpolation of the field. In particular
it is exact for functions that are linear in each coordinate -/
theorem C186_cell_partial (nx ny nz : List ℚ) (u : Bool) (data : Nat → Nat → Nat → ℚ) (hx : Valid ⟨centers nx, u⟩) (hy : Valid ⟨centers ny, u⟩) (hz : Valid ⟨centers nz, u⟩)
    (sx sy sz : InterpSlice.Sel) (f : Fld) (hf : f = ⟨true, u, Crd.fresh nx, Crd.fresh ny, Crd.fresh nz, data⟩) :
    ∃ f' o, interpolatedSlice f sx sy sz = .ok (f', some o) ∧ o.xs = Places (centers nx) sx ∧ o.ys = Places (centers ny) sy ∧ o.zs = Places (centers nz) sz ∧
      o.vals = values (fun x y z => ((trilin ⟨⟨centers nx, u⟩, ⟨centers ny, u⟩, ⟨centers nz, u⟩, data⟩ x y z (0, 0, 0)).map Prod.fst).getD 0) o.xs o.ys o.zs ∧
      ∀ m : Multilinear, (∀ (i j k : Nat) (x y z : ℚ), (centers nx)[i]? = some x → (centers ny)[j]? = some y → (centers nz)[k]? = some z → data i j k = m.eval x y z) →
        (∀ x ∈ o.xs, InRange ⟨centers nx, u⟩ x) → (∀ y ∈ o.ys, InRange ⟨centers ny, u⟩ y) → (∀ z ∈ o.zs, InRange ⟨centers nz, u⟩ z) → o.vals = values m.eval o.xs o.ys o.zs := by
  subst hf
  obtain ⟨cx, xs, ex, plx, kx, lx⟩ := axis_cell nx hx.ne sx
  obtain ⟨cy, ys, ey, ply, ky, ly⟩ := axis_cell ny hy.ne sy
  obtain ⟨cz, zs, ez, plz, kz, lz⟩ := axis_cell nz hz.ne sz
  have one : ∀ (n : List ℚ) (c : Crd), (n.length ≠ 1 → c.cc = centers n) → c.cc.length = (centers n).length → ∀ x s, locate ⟨c.cc, u⟩ x s = locate ⟨centers n, u⟩ x s := by
    intro n c hk hl x s
    by_cases h : n.length = 1
    · obtain ⟨y, rfl⟩ := List.length_eq_one_iff.mp h
      exact locate_one (by unfold Axis.n; rw [hl]; rfl) rfl x s
    · rw [hk h]
  let G : Grid := ⟨⟨centers nx, u⟩, ⟨centers ny, u⟩, ⟨centers nz, u⟩, data⟩
  let G' : Grid := ⟨⟨cx.cc, u⟩, ⟨cy.cc, u⟩, ⟨cz.cc, u⟩, data⟩
  have hG : GridOk G := ⟨hx, hy, hz⟩
  have htri : ∀ x y z c, trilin G' x y z c = trilin G x y z c := by
    intro x y z c
    unfold trilin
    simp only [G, G', one nx cx kx lx, one ny cy ky ly, one nz cz kz lz, Grid.inside, Axis.n, lx, ly, lz]
    rfl
  have hco : ∀ c, CacheOk G' c ↔ CacheOk G c := by
    intro c
    simp only [CacheOk, G, G', Axis.n, lx, ly, lz]
  have h00 : CacheOk G (0, 0, 0) := ⟨List.length_pos_iff.mpr hx.ne, List.length_pos_iff.mpr hy.ne, List.length_pos_iff.mpr hz.ne⟩
  have hsw : sweep trilin ((points (centers xs) (centers ys) (centers zs)).map fun p => (G', p)) (0, 0, 0) =
      some ((points (centers xs) (centers ys) (centers zs)).map fun p => ((trilin G p.1 p.2.1 p.2.2 (0, 0, 0)).map Prod.fst).getD 0) := by
    refine sweep_map G' _ _ ?_ _ ((hco _).mpr h00)
    intro t _ c hc
    rw [htri]
    obtain ⟨v, c1, c2, e1, e2⟩ := C17_cache_independent G hG t.1 t.2.1 t.2.2 c (0, 0, 0) ((hco c).mp hc) h00
    obtain ⟨v', c', e3, e4⟩ := C17_in_bounds G hG t.1 t.2.1 t.2.2 c ((hco c).mp hc)
    rw [e1] at e3
    simp only [Option.some.injEq, Prod.mk.injEq] at e3
    refine ⟨c', ?_, (hco _).mpr e4⟩
    rw [e1, e2, ← e3.2]
    rfl
  refine ⟨⟨true, u, cx, cy, cz, data⟩, ⟨centers xs, centers ys, centers zs, (points (centers xs) (centers ys) (centers zs)).map fun p =>
    ((trilin G p.1 p.2.1 p.2.2 (0, 0, 0)).map Prod.fst).getD 0⟩, ?_, plx, ply, plz, ?_, ?_⟩
  · unfold interpolatedSlice
    simp only [ex, ey, ez, if_true]
    have e : (Fld.grid ⟨true, u, cx, cy, cz, data⟩) = G' := rfl
    rw [e, hsw]
    rfl
  · simp [values, points, List.map_flatMap]
    rfl
  · intro m hm r1 r2 r3
    have : ∀ p ∈ points (centers xs) (centers ys) (centers zs), ((trilin G p.1 p.2.1 p.2.2 (0, 0, 0)).map Prod.fst).getD 0 = m.eval p.1 p.2.1 p.2.2 := by
      intro p hp
      simp only [points, List.mem_flatMap, List.mem_map] at hp
      obtain ⟨a, ha, b, hb, c, hc, rfl⟩ := hp
      obtain ⟨c', e⟩ := C17_multilinear_exact G hG m hm a b c (r1 a ha) (r2 b hb) (r3 c hc) (0, 0, 0) h00
      rw [e]
      rfl
    show List.map _ _ = _
    rw [List.map_congr_left this]
    simp [values, points, List.map_flatMap]
    rfl

/-- C186 is violated: of a cell centered field both nodes of the nearest cell are moved to the value -/
theorem C186_cell_changed_violated (f : Fld) (hf : f.cell = true) (nc : List ℚ) (hx : f.x = Crd.fresh nc) (hne : centers nc ≠ []) (v : ℚ) :
    ∃ f' o i, interpolatedSlice f (some v) none none = .ok (f', o) ∧ Nearest (centers nc) v i ∧ f'.x.nc = (nc.set i v).set (i + 1) v := by
  obtain ⟨i, x, h1, h2, h3⟩ := Select.C15_nearest (centers nc) v hne
  have e : ∃ cc xs, sliceInterp1 true f.x (some v) = .ok (⟨(nc.set i v).set (i + 1) v, cc⟩, xs) := by
    rw [hx]
    unfold sliceInterp1
    simp only [Crd.fresh, h1, if_true]
    exact ⟨_, _, rfl⟩
  obtain ⟨cc, xs, e⟩ := e
  have h : ∃ f' o, interpolatedSlice f (some v) none none = .ok (f', o) ∧ f'.x.nc = (nc.set i v).set (i + 1) v := by
    unfold interpolatedSlice
    rw [hf, e]
    exact ⟨_, _, rfl, rfl⟩
  obtain ⟨f', o, h4, h5⟩ := h
  exact ⟨f', o, i, h4, ⟨x, h2, h3⟩, h5⟩

/-- a field with the values `x²` at four nodes, or three cells, along the first axis -/
def sliceEx (cell : Bool) : Fld := ⟨cell, false, Crd.fresh (if cell then [-1 / 2, 1 / 2, 3 / 2, 5 / 2] else [0, 1, 2, 3]), Crd.fresh [0], Crd.fresh [0], fun i _ _ => (i : ℚ) ^ 2⟩

/-- at 7/5 the value between 1 and 4 should be 11/5; at nodes it is 1, at cell centers it is right; and afterwards the coordinates are different -/
example : (interpolatedSlice (sliceEx false) (some (7 / 5)) none none).map (fun r => (r.1.x.nc, r.2)) = .ok ([0, 7 / 5, 2, 3], some ⟨[7 / 5], [0], [0], [1]⟩) ∧
    (interpolatedSlice (sliceEx true) (some (7 / 5)) none none).map (fun r => (r.1.x.nc, r.2)) = .ok ([-1 / 2, 7 / 5, 7 / 5, 5 / 2], some ⟨[7 / 5], [0], [0], [11 / 5]⟩) ∧
    Valid ⟨(sliceEx false).x.nc, false⟩ ∧ Valid ⟨centers [-1 / 2, 1 / 2, 3 / 2, 5 / 2], false⟩ :=
  ⟨by decide +kernel, by decide +kernel, valid_of_pairwise _ (by decide) (by decide +kernel), valid_of_pairwise _ (by decide +kernel) (by decide +kernel)⟩

/-! ## downsample -/

/-- C187 is violated: `downsample` raises for every field, a TypeError, or a ValueError if half of a size is odd and at least 5 -/
theorem C187_downsample_violated (axes : List String) (shape : List Nat) :
    downsample axes shape = .error (if shape.length ≤ 3 ∧ ∃ n ∈ shape, (n / 2) % 2 = 1 ∧ 5 ≤ n / 2 then .value else .type) := by
  have h1 : ∀ e : Nat, bcast1 (nEven e) (nOdd e) = none ↔ e % 2 = 1 ∧ 5 ≤ e := by
    intro e
    unfold bcast1 nEven nOdd
    constructor
    · intro h
      split at h
      · cases h
      · split at h
        · cases h
        · split at h
          · cases h
          · omega
    · rintro ⟨h1, h2⟩
      rw [if_neg (by omega), if_neg (by omega), if_neg (by omega)]
  have h2 : ((shape.map (· / 2)).map (fun e => bcast1 (nEven e) (nOdd e))).any Option.isNone = true ↔ ∃ n ∈ shape, (n / 2) % 2 = 1 ∧ 5 ≤ n / 2 := by
    rw [List.any_eq_true]
    simp only [List.mem_map, Option.isNone_iff_eq_none]
    constructor
    · rintro ⟨o, ⟨e, ⟨n, hn, rfl⟩, rfl⟩, h⟩
      exact ⟨n, hn, (h1 _).mp h⟩
    · rintro ⟨n, hn, h⟩
      exact ⟨_, ⟨_, ⟨n, hn, rfl⟩, rfl⟩, (h1 _).mpr h⟩
  have h3 : ¬ ((shape.map (· / 2)).map some).any Option.isNone = true := by
    rw [List.any_eq_true]
    rintro ⟨o, ho, hh⟩
    obtain ⟨e, -, rfl⟩ := List.mem_map.mp ho
    cases hh
  unfold downsample
  simp only [getClist]
  by_cases h : shape.length ≤ 3
  · rw [if_pos h]
    by_cases h4 : ∃ n ∈ shape, (n / 2) % 2 = 1 ∧ 5 ≤ n / 2
    · rw [if_pos (h2.mpr h4), if_pos ⟨h, h4⟩]
    · rw [if_neg (fun hh => h4 (h2.mp hh)), if_neg (fun hh => h4 hh.2)]
  · rw [if_neg h, if_neg h3, if_neg (fun hh => h hh.1)]

example : downsample ["x", "y"] [8, 8] = .error .type ∧ downsample ["x"] [10] = .error .value := by decide

end Viscid.Props
