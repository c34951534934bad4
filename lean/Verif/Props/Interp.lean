import Verif.Lemmas.Interp
/-!
# C17, C18, C19, C61: interpolation on a rectilinear grid
-/
namespace Viscid.Interp
open Viscid.Spec.Interp

/-- A cache that points inside the axes. -/
def CacheOk (g : Grid) (c : Cache) : Prop := c.1 < g.ax.n ∧ c.2.1 < g.ay.n ∧ c.2.2 < g.az.n

structure GridOk (g : Grid) : Prop where
  x : Valid g.ax
  y : Valid g.ay
  z : Valid g.az

/-- C18, nonuniform axes: from every cached index in range, the search returns the bracketing index,
0 below the axis, and the last index at or above the last coordinate. -/
theorem C18_nonuniform (a : Axis) (ha : Valid a) (hn : a.n ≠ 1) (hu : a.uniform = false) (v : ℚ) (s : Nat)
    (hs : s < a.n) :
    ∃ r, preceding a v s = some r ∧
      (v < a.crds.headD 0 → r = 0) ∧
      (a.crds.headD 0 ≤ v → v < a.crds.getLastD 0 → Brackets a.crds v r) ∧
      (a.crds.getLastD 0 ≤ v → r = a.n - 1) := by
  obtain ⟨r, h1, h2⟩ := preceding_nonuni a ha hn hu v s hs
  have hle := head_le_last a ha
  refine ⟨r, h1, ?_, ?_, ?_⟩ <;> rcases h2 with h2 | ⟨h2, h3⟩ | ⟨h2, h3⟩
  · intro hv
    obtain ⟨x, y, e1, e2, e3, e4⟩ := h2
    have := inc_le ha.inc (head_eq _ ha.ne) e1 (by omega)
    linarith
  · intro _; exact h2
  · intro hv; linarith
  · intro _ _; exact h2
  · intro hv; linarith
  · intro _ hv; linarith
  · intro hv
    obtain ⟨x, y, e1, e2, e3, e4⟩ := h2
    have := inc_le ha.inc e2 (last_eq _ ha.ne) (by have := lt_len e2; omega)
    linarith
  · intro hv; linarith
  · intro _; exact h2

/-- C18, uniform axes: the direct computation returns the bracketing index, 0 below the axis, and at
or above the last coordinate the last index that has a successor. -/
theorem C18_uniform (a : Axis) (ha : Valid a) (hn : a.n ≠ 1) (hu : a.uniform = true) (v : ℚ) (s : Nat) :
    ∃ r, preceding a v s = some r ∧
      (v < a.crds.headD 0 → r = 0) ∧
      (a.crds.headD 0 ≤ v → v < a.crds.getLastD 0 → Brackets a.crds v r) ∧
      (a.crds.getLastD 0 ≤ v → r = a.n - 2) := by
  obtain ⟨r, h1, h2⟩ := preceding_uni a ha hn hu v s
  have hle := head_le_last a ha
  refine ⟨r, h1, ?_, ?_, ?_⟩ <;> rcases h2 with h2 | ⟨h2, h3⟩ | ⟨h2, h3⟩
  · intro hv
    obtain ⟨x, y, e1, e2, e3, e4⟩ := h2
    have := inc_le ha.inc (head_eq _ ha.ne) e1 (by omega)
    linarith
  · intro _; exact h2
  · intro hv; linarith
  · intro _ _; exact h2
  · intro hv; linarith
  · intro _ hv; linarith
  · intro hv
    obtain ⟨x, y, e1, e2, e3, e4⟩ := h2
    have := inc_le ha.inc e2 (last_eq _ ha.ne) (by have := lt_len e2; omega)
    linarith
  · intro hv; linarith
  · intro _; exact h2

/-- C18: the answer does not depend on the cached index. -/
theorem C18_cache_independent (a : Axis) (ha : Valid a) (v : ℚ) (s t : Nat) (hs : s < a.n) (ht : t < a.n) :
    preceding a v s = preceding a v t := by
  by_cases hn : a.n = 1
  · unfold preceding; rw [if_pos hn, if_pos hn]
  · cases hu : a.uniform with
    | true => unfold preceding; rw [if_neg hn, if_neg hn, hu]; rfl
    | false =>
      obtain ⟨r, h1, h2, h3, h4⟩ := C18_nonuniform a ha hn hu v s hs
      obtain ⟨q, k1, k2, k3, k4⟩ := C18_nonuniform a ha hn hu v t ht
      rw [h1, k1]
      congr 1
      by_cases c1 : v < a.crds.headD 0
      · rw [h2 c1, k2 c1]
      · by_cases c2 : v < a.crds.getLastD 0
        · exact brackets_unique ha.inc (h3 (not_lt.mp c1) c2) (k3 (not_lt.mp c1) c2)
        · rw [h4 (not_lt.mp c2), k4 (not_lt.mp c2)]

/-- C18: inside the range both kinds of axis give the same bracket. -/
theorem C18_same_bracket (c : List ℚ) (hu : Valid ⟨c, true⟩) (hv : Valid ⟨c, false⟩) (v : ℚ) (s t : Nat)
    (hs : s < c.length) (ht : t < c.length) (h0 : c.headD 0 ≤ v) (h1 : v < c.getLastD 0) :
    preceding ⟨c, true⟩ v s = preceding ⟨c, false⟩ v t := by
  obtain ⟨r, e1, e2⟩ := preceding_inside ⟨c, true⟩ hu v s hs h0 h1
  obtain ⟨q, f1, f2⟩ := preceding_inside ⟨c, false⟩ hv v t ht h0 h1
  rw [e1, f1, brackets_unique hu.inc e2 f2]

/-- C17: interpolation never reads outside the arrays, and leaves a usable cache. -/
theorem C17_in_bounds (g : Grid) (hg : GridOk g) (x y z : ℚ) (c : Cache) (hc : CacheOk g c) :
    ∃ v c', trilin g x y z c = some (v, c') ∧ CacheOk g c' := by
  obtain ⟨la, lb, lc, c', h, _, _, _, r1, r2, r3⟩ := trilin_spec g hg.x hg.y hg.z x y z c hc.1 hc.2.1 hc.2.2
  exact ⟨_, c', h, r1, r2, r3⟩

/-- C17: the stored value at every grid point. -/
theorem C17_grid_exact (g : Grid) (hg : GridOk g) (i j k : Nat) (x y z : ℚ) (c : Cache) (hc : CacheOk g c)
    (hx : g.ax.crds[i]? = some x) (hy : g.ay.crds[j]? = some y) (hz : g.az.crds[k]? = some z) :
    ∃ c', trilin g x y z c = some (g.data i j k, c') := by
  obtain ⟨la, lb, lc, c', h, f1, f2, f3, _⟩ := trilin_spec g hg.x hg.y hg.z x y z c hc.1 hc.2.1 hc.2.2
  refine ⟨c', ?_⟩
  rw [h, blend_eq, lerp_node g.az hg.z k z hz lc f3, lerp_node g.ay hg.y j y hy lb f2,
    lerp_node g.ax hg.x i x hx la f1]

/-- C17: no new extrema: between any bounds of the grid values. -/
theorem C17_no_overshoot (g : Grid) (hg : GridOk g) (x y z : ℚ) (c : Cache) (hc : CacheOk g c) (lo hi : ℚ)
    (hd : ∀ i j k, i < g.ax.n → j < g.ay.n → k < g.az.n → lo ≤ g.data i j k ∧ g.data i j k ≤ hi) :
    ∃ v c', trilin g x y z c = some (v, c') ∧ lo ≤ v ∧ v ≤ hi := by
  obtain ⟨la, lb, lc, c', h, f1, f2, f3, _⟩ := trilin_spec g hg.x hg.y hg.z x y z c hc.1 hc.2.1 hc.2.2
  refine ⟨_, c', h, ?_⟩
  obtain ⟨a1, a2, a3⟩ := LocSpec_range _ hg.x _ _ f1
  obtain ⟨b1, b2, b3⟩ := LocSpec_range _ hg.y _ _ f2
  obtain ⟨c1, c2, c3⟩ := LocSpec_range _ hg.z _ _ f3
  rw [blend_eq]
  apply lerp_bounds _ _ _ _ c2 c3 <;> apply lerp_bounds _ _ _ _ b2 b3 <;> apply lerp_bounds _ _ _ _ a2 a3 <;>
    apply hd <;> omega

/-- C17: functions linear in each coordinate are reproduced inside the grid. -/
theorem C17_multilinear_exact (g : Grid) (hg : GridOk g) (m : Multilinear)
    (hd : ∀ (i j k : Nat) (x y z : ℚ), g.ax.crds[i]? = some x → g.ay.crds[j]? = some y → g.az.crds[k]? = some z →
      g.data i j k = m.eval x y z)
    (x y z : ℚ) (hx : InRange g.ax x) (hy : InRange g.ay y) (hz : InRange g.az z) (c : Cache) (hc : CacheOk g c) :
    ∃ c', trilin g x y z c = some (m.eval x y z, c') := by
  obtain ⟨la, lb, lc, c', h, f1, f2, f3, _⟩ := trilin_spec g hg.x hg.y hg.z x y z c hc.1 hc.2.1 hc.2.2
  refine ⟨c', ?_⟩
  rw [h, blend_eq]
  have e1 : ∀ (j k : Nat) (yj zk : ℚ), g.ay.crds[j]? = some yj → g.az.crds[k]? = some zk →
      lerp (fun i => g.data i j k) la = m.eval x yj zk := by
    intro j k yj zk hj hk
    rw [lerp_linear g.ax hg.x x hx la f1 _ (m.k0 + m.ky * yj + m.kz * zk + m.kyz * (yj * zk))
      (m.kx + m.kxy * yj + m.kxz * zk + m.kxyz * (yj * zk)) (by
        intro i c hi
        rw [hd i j k c yj zk hi hj hk]; unfold Multilinear.eval; ring)]
    unfold Multilinear.eval; ring
  have e2 : ∀ (k : Nat) (zk : ℚ), g.az.crds[k]? = some zk →
      lerp (fun j => lerp (fun i => g.data i j k) la) lb = m.eval x y zk := by
    intro k zk hk
    rw [lerp_linear g.ay hg.y y hy lb f2 _ (m.k0 + m.kx * x + m.kz * zk + m.kxz * (x * zk))
      (m.ky + m.kxy * x + m.kyz * zk + m.kxyz * (x * zk)) (by
        intro j c hj
        rw [e1 j k c zk hj hk]; unfold Multilinear.eval; ring)]
    unfold Multilinear.eval; ring
  rw [lerp_linear g.az hg.z z hz lc f3 _ (m.k0 + m.kx * x + m.ky * y + m.kxy * (x * y))
      (m.kz + m.kxz * x + m.kyz * y + m.kxyz * (x * y)) (by
        intro k c hk
        rw [e2 k c hk]; unfold Multilinear.eval; ring)]
  congr 2
  unfold Multilinear.eval; ring

/-- C17: beyond the edges the value is that at the nearest edge (any caches). -/
theorem C17_clamped (g : Grid) (hg : GridOk g) (x y z : ℚ) (c d : Cache) (hc : CacheOk g c) (hd : CacheOk g d) :
    ∃ v c' d', trilin g x y z c = some (v, c') ∧
      trilin g (clamp g.ax x) (clamp g.ay y) (clamp g.az z) d = some (v, d') := by
  obtain ⟨la, lb, lc, c', h, f1, f2, f3, _⟩ := trilin_spec g hg.x hg.y hg.z x y z c hc.1 hc.2.1 hc.2.2
  obtain ⟨ma, mb, mc, d', k, g1, g2, g3, _⟩ := trilin_spec g hg.x hg.y hg.z (clamp g.ax x) (clamp g.ay y)
    (clamp g.az z) d hd.1 hd.2.1 hd.2.2
  have ea := LocSpec_unique _ hg.x _ _ _ (LocSpec_clamp _ hg.x _ _ f1) g1 (one_or_lt _ hg.x)
  have eb := LocSpec_unique _ hg.y _ _ _ (LocSpec_clamp _ hg.y _ _ f2) g2 (one_or_lt _ hg.y)
  have ec := LocSpec_unique _ hg.z _ _ _ (LocSpec_clamp _ hg.z _ _ f3) g3 (one_or_lt _ hg.z)
  subst ea eb ec
  exact ⟨_, c', d', h, k⟩

/-- C17: the value does not depend on the cache, hence on earlier queries. -/
theorem C17_cache_independent (g : Grid) (hg : GridOk g) (x y z : ℚ) (c d : Cache) (hc : CacheOk g c)
    (hd : CacheOk g d) :
    ∃ v c' d', trilin g x y z c = some (v, c') ∧ trilin g x y z d = some (v, d') := by
  obtain ⟨la, lb, lc, c', h, f1, f2, f3, _⟩ := trilin_spec g hg.x hg.y hg.z x y z c hc.1 hc.2.1 hc.2.2
  obtain ⟨ma, mb, mc, d', k, g1, g2, g3, _⟩ := trilin_spec g hg.x hg.y hg.z x y z d hd.1 hd.2.1 hd.2.2
  have ea := LocSpec_unique _ hg.x _ _ _ f1 g1 (one_or_lt _ hg.x)
  have eb := LocSpec_unique _ hg.y _ _ _ f2 g2 (one_or_lt _ hg.y)
  have ec := LocSpec_unique _ hg.z _ _ _ f3 g3 (one_or_lt _ hg.z)
  subst ea eb ec
  exact ⟨_, c', d', h, k⟩

/-- C19: nearest-neighbour interpolation returns the value of a grid point that is nearest along each
axis. -/
theorem C19_nearest (g : Grid) (hg : GridOk g) (x y z : ℚ) (c : Cache) (hc : CacheOk g c) :
    ∃ (i j k : Nat) (xi yj zk : ℚ) (c' : Cache), nearest g x y z c = some (g.data i j k, c') ∧ CacheOk g c' ∧
      g.ax.crds[i]? = some xi ∧ g.ay.crds[j]? = some yj ∧ g.az.crds[k]? = some zk ∧
      (∀ w ∈ g.ax.crds, |xi - x| ≤ |w - x|) ∧ (∀ w ∈ g.ay.crds, |yj - y| ≤ |w - y|) ∧
      (∀ w ∈ g.az.crds, |zk - z| ≤ |w - z|) := by
  obtain ⟨i, xi, e1, f1, g1⟩ := closest_spec g.ax hg.x x c.1 hc.1
  obtain ⟨j, yj, e2, f2, g2⟩ := closest_spec g.ay hg.y y c.2.1 hc.2.1
  obtain ⟨k, zk, e3, f3, g3⟩ := closest_spec g.az hg.z z c.2.2 hc.2.2
  obtain ⟨p1, q1, r1⟩ := preceding_range g.ax hg.x x c.1 hc.1
  obtain ⟨p2, q2, r2⟩ := preceding_range g.ay hg.y y c.2.1 hc.2.1
  obtain ⟨p3, q3, r3⟩ := preceding_range g.az hg.z z c.2.2 hc.2.2
  have mem : ∀ (l : List ℚ) (P : ℚ → Prop), (∀ (j : Nat) (y : ℚ), l[j]? = some y → P y) → ∀ w ∈ l, P w := by
    intro l P h w hw
    obtain ⟨n, hn⟩ := List.getElem?_of_mem hw
    exact h n w hn
  refine ⟨i, j, k, xi, yj, zk, (p1, p2, p3), ?_, ⟨r1, r2, r3⟩, f1, f2, f3, mem _ _ g1, mem _ _ g2, mem _ _ g3⟩
  unfold nearest
  rw [q1, q2, q3]
  dsimp only
  rw [e1, e2, e3]
  dsimp only
  rw [if_pos]
  unfold Grid.inside
  have := lt_len f1
  have := lt_len f2
  have := lt_len f3
  unfold Axis.n
  simp [*]

/-- C61, when all patches have the same shape: for every sequence of points and patches, every
interpolation stays inside the arrays, and each value is what a fresh interpolation at that point of
that patch gives (the cache is unobservable). -/
theorem C61_same_shape_partial (nx ny nz : Nat) (pts : List (Grid × ℚ × ℚ × ℚ))
    (hg : ∀ p ∈ pts, GridOk p.1 ∧ p.1.ax.n = nx ∧ p.1.ay.n = ny ∧ p.1.az.n = nz) (c : Cache)
    (hc : c.1 < nx ∧ c.2.1 < ny ∧ c.2.2 < nz) :
    ∃ vs, sweep trilin pts c = some vs ∧ vs.length = pts.length ∧
      ∀ (n : Nat) (g : Grid) (x y z v : ℚ), pts[n]? = some (g, x, y, z) → vs[n]? = some v →
        ∃ c', trilin g x y z (0, 0, 0) = some (v, c') := by
  induction pts generalizing c with
  | nil => exact ⟨[], rfl, rfl, by intro n g x y z v h; simp at h⟩
  | cons p r ih =>
    obtain ⟨g, x, y, z⟩ := p
    obtain ⟨hok, h1, h2, h3⟩ := hg (g, x, y, z) (by simp)
    dsimp only at hok h1 h2 h3
    have hc0 : CacheOk g c := ⟨h1 ▸ hc.1, h2 ▸ hc.2.1, h3 ▸ hc.2.2⟩
    have hz0 : CacheOk g (0, 0, 0) := ⟨List.length_pos_iff.mpr hok.x.ne, List.length_pos_iff.mpr hok.y.ne,
      List.length_pos_iff.mpr hok.z.ne⟩
    obtain ⟨v, c', hv, hc'⟩ := C17_in_bounds g hok x y z c hc0
    obtain ⟨vs, e1, e2, e3⟩ := ih (fun p hp => hg p (by simp [hp])) c'
      ⟨h1 ▸ hc'.1, h2 ▸ hc'.2.1, h3 ▸ hc'.2.2⟩
    refine ⟨v :: vs, ?_, by simp [e2], ?_⟩
    · unfold sweep; rw [hv]; dsimp only; rw [e1]
    · intro n g' x' y' z' w hp hw
      cases n with
      | succ n => exact e3 n g' x' y' z' w (by simpa using hp) (by simpa using hw)
      | zero =>
        simp only [List.getElem?_cons_zero, Option.some.injEq, Prod.mk.injEq] at hp hw
        obtain ⟨rfl, rfl, rfl, rfl⟩ := hp
        subst hw
        obtain ⟨u, d1, d2, k1, k2⟩ := C17_cache_independent g hok x y z c (0, 0, 0) hc0 hz0
        rw [hv] at k1
        injection k1 with k1
        injection k1 with k1
        exact ⟨d2, by rw [k2, k1]⟩

/-- A nonuniform axis with coordinates 0, 1, 3, 7. -/
def exLong : Axis := ⟨[0, 1, 3, 7], false⟩
def exShort : Axis := ⟨[8, 9], false⟩
def exGrid (a : Axis) : Grid := ⟨a, a, a, fun i j k => i + 10 * j + 100 * k⟩

theorem valid_of_pairwise (c : List ℚ) (hne : c ≠ []) (h : c.Pairwise (· < ·)) : Valid ⟨c, false⟩ := by
  refine ⟨hne, ?_, by simp⟩
  intro i j x y hi hj hij
  rw [List.pairwise_iff_getElem] at h
  obtain ⟨i1, rfl⟩ := List.getElem?_eq_some_iff.mp hi
  obtain ⟨j1, rfl⟩ := List.getElem?_eq_some_iff.mp hj
  exact h i j i1 j1 hij

/-- Non-vacuity: a nonuniform 4 x 4 x 4 grid satisfies the hypotheses, and interpolates at its
centre. -/
theorem exGrid_ok : GridOk (exGrid exLong) :=
  ⟨valid_of_pairwise _ (by decide) (by decide), valid_of_pairwise _ (by decide) (by decide),
    valid_of_pairwise _ (by decide) (by decide)⟩

example : GridOk (exGrid exLong) ∧ CacheOk (exGrid exLong) (2, 0, 3) ∧
    (trilin (exGrid exLong) 2 2 2 (2, 0, 3)).map Prod.fst = some (333 / 2) :=
  ⟨exGrid_ok, by unfold CacheOk; decide, by decide +kernel⟩

/-- Non-vacuity of the uniform case. -/
example : Valid ⟨[1, 3, 5], true⟩ := by
  refine ⟨by decide, (valid_of_pairwise _ (by decide) (by decide)).inc, fun _ => ⟨2, ?_⟩⟩
  intro i x h
  match i, h with
  | 0, h => simp at h; subst h; simp
  | 1, h => simp at h; subst h; norm_num
  | 2, h => simp at h; subst h; norm_num
  | n + 3, h => simp at h

/-- C61 fails: after a point in a patch of 4 x 4 x 4 cells, a point in a nonuniform patch of 2 x 2 x 2
cells starts its search at an index outside that patch's coordinate arrays. -/
theorem C61_stale_cache_violated :
    GridOk (exGrid exLong) ∧ GridOk (exGrid exShort) ∧
    sweep trilin [(exGrid exLong, 5, 5, 5), (exGrid exShort, 17 / 2, 17 / 2, 17 / 2)] (0, 0, 0) = none :=
  ⟨exGrid_ok, ⟨valid_of_pairwise _ (by decide) (by decide), valid_of_pairwise _ (by decide) (by decide),
    valid_of_pairwise _ (by decide) (by decide)⟩, by decide +kernel⟩

end Viscid.Interp
