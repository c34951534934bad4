import Verif.Lemmas.SeedGrid
/-!
# C51, C76, C78: enumeration of seed points and meshes
-/
namespace Viscid.Props
open Viscid.Seed Viscid.Spec.SeedGrid
universe u
variable {α : Type u}

/-- **C51.** The points of a grid, as columns of `get_points`, are the points of `iter_points` in the same order, and
    there are `nr_points` of them; for any number of axes of any lengths (three for a `Volume`). -/
theorem C51_get_points_iter_points (axes : List (List α)) :
    (product axes).length = nrPoints axes ∧ (∀ r ∈ gridRows axes, r.length = nrPoints axes) ∧
    (gridRows axes).length = axes.length ∧
    ∀ k, k < nrPoints axes → ∃ p, (product axes)[k]? = some p ∧ column (gridRows axes) k = p.map some := by
  unfold nrPoints
  rw [nprod_eq]
  refine ⟨product_length axes, ?_, by simp [gridRows], ?_⟩
  · intro r hr
    rw [gridRows_eq] at hr
    rw [rowsAux_length axes 1 r hr, Nat.one_mul]
  · intro k hk
    obtain ⟨p, h1, h2⟩ := rowsAux_column axes 1 k (by rw [Nat.one_mul]; exact hk)
    rw [Nat.mod_eq_of_lt hk] at h1
    exact ⟨p, h1, by rw [gridRows_eq]; exact h2⟩

/-- **C51, C order.** The point with the coordinates number i, j, ... is at the place of (i, j, ...) in C order. -/
theorem C51_c_order (axes : List (List α)) (idx : List Nat) (h : Within (axes.map List.length) idx) :
    column (gridRows axes) (flat (axes.map List.length) idx) = pick axes idx := by
  obtain ⟨p, h1, h2, h3⟩ := product_pick axes idx h
  obtain ⟨q, hq, hc⟩ := rowsAux_column axes 1 _ (by rw [Nat.one_mul]; exact h3)
  rw [Nat.mod_eq_of_lt h3, h1] at hq
  cases hq
  rw [gridRows_eq, hc, h2]

example : Within ([[10, 20], [7], [1, 2, 3]].map List.length) [1, 0, 2] ∧
    flat ([[10, 20], [7], [1, 2, 3]].map List.length) [1, 0, 2] = 5 ∧
    column (gridRows [[10, 20], [7], [1, 2, 3]]) 5 = [some 20, some 7, some 3] := by
  refine ⟨by simp [Within], rfl, rfl⟩

theorem flat_erase (n idx : List Nat) (i : Nat) (h : Within n idx) (hi : n[i]? = some 1) :
    flat n idx = flat (n.eraseIdx i) (idx.eraseIdx i) ∧ Within (n.eraseIdx i) (idx.eraseIdx i) ∧
    n.foldr (· * ·) 1 = (n.eraseIdx i).foldr (· * ·) 1 := by
  induction n generalizing idx i with
  | nil => simp at hi
  | cons a as ih => cases idx with
    | nil => exact absurd h id
    | cons j js =>
      obtain ⟨h1, h2⟩ : j < a ∧ Within as js := h
      cases i with
      | zero =>
        have : a = 1 := by simpa using hi
        subst this
        have : j = 0 := by omega
        subst this
        exact ⟨by simp [flat], by simpa using h2, by simp⟩
      | succ i =>
        obtain ⟨e1, e2, e3⟩ := ih js i h2 (by simpa using hi)
        refine ⟨?_, ⟨h1, e2⟩, ?_⟩
        · simp only [List.eraseIdx_cons_succ, flat, e1, e3]
        · simp only [List.eraseIdx_cons_succ, List.foldr_cons, e3]

/-- **C51, `uv_shape` of a `Volume`.** With a dimension of length 1, reshaping the points to `uv_shape` puts the point
    with the remaining indices (i, j) at [i, j]. -/
theorem C51_volume_uv (axes : List (List α)) (uv : List Nat) (idx : List Nat)
    (hs : volumeUvShape (axes.map List.length) = .ok uv) (h : Within (axes.map List.length) idx) :
    ∃ d, (axes.map List.length)[d]? = some 1 ∧ uv = (axes.map List.length).eraseIdx d ∧
      Within uv (idx.eraseIdx d) ∧ column (gridRows axes) (flat uv (idx.eraseIdx d)) = pick axes idx := by
  unfold volumeUvShape uvXind at hs
  cases hd : (axes.map List.length).findIdx? (· == 1) with
  | none => rw [hd] at hs; cases hs
  | some i =>
    rw [hd] at hs
    have hd1 : (axes.map List.length)[i]? = some 1 := by
      obtain ⟨hlt, h1, -⟩ := List.findIdx?_eq_some_iff_getElem.1 hd
      rw [List.getElem?_eq_getElem hlt]
      simpa using h1
    have hs : (axes.map List.length).eraseIdx i = uv := by simpa [pure, Except.pure, bind, Except.bind] using hs
    obtain ⟨e1, e2, -⟩ := flat_erase _ idx i h hd1
    refine ⟨i, hd1, hs.symm, hs ▸ e2, ?_⟩
    rw [← hs, ← e1]
    exact C51_c_order axes idx h

/-- **C51.** A `Volume` without a dimension of length 1 has no `uv_shape`: it raises. -/
theorem C51_volume_no_uv (n : List Nat) : volumeUvShape n = .error .runtimeError ↔ 1 ∉ n := by
  unfold volumeUvShape uvXind
  cases hd : n.findIdx? (· == 1) with
  | none =>
    have := List.findIdx?_eq_none_iff.1 hd
    refine ⟨fun _ h => ?_, fun _ => rfl⟩
    simpa using this 1 h
  | some i =>
    obtain ⟨hlt, h1, -⟩ := List.findIdx?_eq_some_iff_getElem.1 hd
    refine ⟨fun h => by simp [pure, Except.pure, bind, Except.bind] at h, fun h => absurd ?_ h⟩
    have h1 : n[i] = 1 := by simpa using h1
    rw [← h1]; exact List.getElem_mem hlt

example : volumeUvShape ([[10, 20], [7], [1, 2, 3]].map List.length) = .ok [2, 3] := rfl

/-- **C51, `Plane`.** Reshaping the points of a plane to `uv_shape` = (nl, nm) puts (l_i, m_j) at [i, j]. -/
theorem C51_plane (l m : List α) (n : α) (i j : Nat) (hi : i < l.length) (hj : j < m.length) :
    column (planeRows l m n) (flat [l.length, m.length] [i, j]) = [l[i]?, m[j]?, some n] ∧
    (∀ r ∈ planeRows l m n, r.length = l.length * m.length) := by
  have hf : flat [l.length, m.length] [i, j] = i * m.length + j := by simp [flat]
  have hm : 0 < m.length := by omega
  have hlt : i * m.length + j < l.length * m.length := by
    have : (i + 1) * m.length ≤ l.length * m.length := Nat.mul_le_mul_right _ hi
    rw [Nat.add_mul] at this
    omega
  constructor
  · rw [hf]
    unfold planeRows column
    simp only [List.map_cons, List.map_nil]
    rw [npRepeat_get _ _ _ hm, npTile_get _ _ _ hlt, Nat.mul_comm, Nat.mul_add_div hm, Nat.div_eq_of_lt hj,
      Nat.mul_add_mod, Nat.mod_eq_of_lt hj, Nat.add_zero, List.getElem?_replicate, if_pos (by rw [Nat.mul_comm]; exact hlt)]
  · intro r hr
    unfold planeRows at hr
    simp only [List.mem_cons, List.not_mem_nil, or_false] at hr
    rcases hr with rfl | rfl | rfl
    · exact npRepeat_length l _
    · exact npTile_length m _
    · simp

/-- **C51, `Sphere`.** The seed with theta number t and phi number p is at [t, p] or [p, t] of `uv_shape`, according
    to `theta_phi`, and its local coordinates are in the same order. -/
theorem C51_sphere (thetaPhi : Bool) (r : α) (theta phi : List α) (t p : Nat) (ht : t < theta.length)
    (hp : p < phi.length) :
    column (sphereRows thetaPhi r theta phi) (seedAt thetaPhi theta.length phi.length t p) =
      if thetaPhi then [some r, theta[t]?, phi[p]?] else [some r, phi[p]?, theta[t]?] := by
  cases thetaPhi with
  | true =>
    obtain ⟨h, -⟩ := C51_plane theta phi r t p ht hp
    have hf : flat [theta.length, phi.length] [t, p] = t * phi.length + p := by simp [flat]
    rw [hf] at h
    simp only [planeRows, column, List.map_cons, List.map_nil, List.cons.injEq] at h
    simp [sphereRows, column, seedAt, h.1, h.2.1, h.2.2.1]
  | false =>
    obtain ⟨h, -⟩ := C51_plane phi theta r p t hp ht
    have hf : flat [phi.length, theta.length] [p, t] = p * theta.length + t := by simp [flat]
    rw [hf] at h
    simp only [planeRows, column, List.map_cons, List.map_nil, List.cons.injEq] at h
    have h3 := h.2.2.1
    rw [Nat.mul_comm] at h3
    simp [sphereRows, column, seedAt, h.1, h.2.1, h3]

/-! ### C76 -/

/-- **C76.** N x 3 with N other than 3, and 3 x N: every point with its coordinates, in order, in this and in every later
    call. -/
theorem C76_point (pts : Arr2 α) (calls : Nat) :
    (pts.nrow = 3 → pointCalls calls pts = .ok pts) ∧
    (pts.nrow ≠ 3 → pts.ncol = 3 → ∃ a, pointCalls calls pts = .ok a ∧ a.nrow = 3 ∧ a.ncol = pts.nrow ∧
      ∀ k c, a.at' c k = pts.at' k c) ∧
    (pts.nrow ≠ 3 → pts.ncol ≠ 3 → pointCalls calls pts = .error .valueError) := by
  have h3 : ∀ n, ∀ a : Arr2 α, a.nrow = 3 → pointCalls n a = .ok a := by
    intro n
    induction n with
    | zero => intro a ha; simp [pointCalls, pointLocal, ha]
    | succ n ih => intro a ha; simp [pointCalls, pointLocal, ha, ih]
  refine ⟨h3 calls pts, ?_, ?_⟩
  · intro h1 h2
    refine ⟨pts.T, ?_, h2, rfl, fun _ _ => rfl⟩
    cases calls with
    | zero => simp [pointCalls, pointLocal, h1, h2]
    | succ n =>
      simp only [pointCalls, pointLocal, if_neg h1, if_pos h2]
      exact h3 n _ h2
  · intro h1 h2
    cases calls <;> simp [pointCalls, pointLocal, h1, h2]

/-- **C76 fails** for N = 3: three points given as 3 x 3, one in each row, are transposed. -/
theorem C76_three_violated : ∃ pts a : Arr2 Nat, pts.nrow = 3 ∧ pts.ncol = 3 ∧ pointCalls 0 pts = .ok a ∧
    a.at' 1 0 ≠ pts.at' 0 1 :=
  ⟨⟨3, 3, fun i j => 3 * i + j⟩, _, rfl, rfl, rfl, by decide⟩

/-! ### C78 -/

theorem reshape2_eq (d : α) (nu nv : Nat) (l : List α) (h : l.length = nu * nv) :
    reshape2 nu nv l = (List.range nu).map fun i => (List.range nv).map fun j => l.getD (i * nv + j) d := by
  unfold reshape2
  apply List.map_congr_left
  intro i hi
  have hi : i < nu := List.mem_range.1 hi
  have hle : i * nv + nv ≤ nu * nv := by
    have : (i + 1) * nv ≤ nu * nv := Nat.mul_le_mul_right _ hi
    rwa [Nat.add_mul, Nat.one_mul] at this
  apply List.ext_getElem
  · simp; omega
  · intro k h1 h2
    have hk : k < nv := by simpa using h2
    have : i * nv + k < l.length := by omega
    simp [List.getD_eq_getElem?_getD, List.getElem?_eq_getElem this]

theorem range_take_one {n : Nat} (h : 0 < n) : (List.range n).take 1 = [0] := by
  cases n with
  | zero => omega
  | succ n => simp [List.range_succ_eq_map]

theorem range_drop_last {n : Nat} (h : 0 < n) : (List.range n).drop (n - 1) = [n - 1] := by
  cases n with
  | zero => omega
  | succ n => simp [List.range_succ]

theorem take_one_map {β : Type u} (f : Nat → β) {n : Nat} (h : 0 < n) : ((List.range n).map f).take 1 = [f 0] := by
  rw [← List.map_take, range_take_one h]; rfl

theorem take_one_cons {β : Type u} (a : β) (l : List β) : (a :: l).take 1 = [a] := by simp

theorem take_one_append {β : Type u} (l r : List β) (h : l ≠ []) : (l ++ r).take 1 = l.take 1 := by
  cases l with
  | nil => exact absurd rfl h
  | cons a l => simp

theorem map_range_ne {β : Type u} (f : Nat → β) {n : Nat} (h : 0 < n) : (List.range n).map f ≠ [] := by
  intro e
  have := congrArg List.length e
  simp at this
  omega

theorem map_const_range {β : Type u} (b : β) (n : Nat) : (List.range n).map (fun _ => b) = List.replicate n b := by
  simp [List.map_const']

theorem headD_map {β : Type u} (f : Nat → β) (b : β) {n : Nat} (h : 0 < n) : ((List.range n).map f).headD b = f 0 := by
  cases n with
  | zero => omega
  | succ n => simp [List.range_succ_eq_map]

theorem getLastD_map {β : Type u} (f : Nat → β) (b : β) {n : Nat} (h : 0 < n) :
    ((List.range n).map f).getLastD b = f (n - 1) := by
  cases n with
  | zero => omega
  | succ n => simp [List.range_succ]

theorem getLastD_cons_map {β : Type u} (a : β) (f : Nat → β) (b : β) {n : Nat} (h : 0 < n) :
    (a :: (List.range n).map f).getLastD b = f (n - 1) := by
  cases n with
  | zero => omega
  | succ n => simp [List.range_succ, List.getLastD_eq_getLast?, List.getLast?_cons]

theorem col_first (g : Nat → Nat → α) {nt : Nat} (np : Nat) (h : 0 < nt) :
    (((List.range np).map fun i => (List.range nt).map fun j => g i j).flatMap fun r => r.take 1) =
      (List.range np).map fun i => g i 0 := by
  rw [List.flatMap_map]
  simp only [take_one_map _ h]
  rw [List.flatMap_def]
  induction List.range np with
  | nil => rfl
  | cons a l ih => simp [ih]

theorem drop_last_map {β : Type u} (f : Nat → β) {n : Nat} (h : 0 < n) (pre : List β) :
    (pre ++ (List.range n).map f).drop ((pre ++ (List.range n).map f).length - 1) = [f (n - 1)] := by
  cases n with
  | zero => omega
  | succ n =>
    rw [List.range_succ, List.map_append, ← List.append_assoc]
    rw [List.drop_append_of_le_length (by simp)]
    simp [List.drop_eq_nil_iff]

theorem col_last (g : Nat → Nat → α) {nt : Nat} (np : Nat) (h : 0 < nt) (pre : List α) :
    (((List.range np).map fun i => pre ++ (List.range nt).map fun j => g i j).flatMap fun r => r.drop (r.length - 1)) =
      (List.range np).map fun i => g i (nt - 1) := by
  rw [List.flatMap_map]
  simp only [drop_last_map _ h]
  rw [List.flatMap_def]
  induction List.range np with
  | nil => rfl
  | cons a l ih => simp [ih]

/-- The code common to both: the mesh with poles `p0` and `p1`. -/
theorem mesh_common (o : MeshOpts) (d p0 p1 : α) (pts : List α) (h : pts.length = o.ntheta * o.nphi)
    (ht : 0 < o.ntheta) (hp : 0 < o.nphi) :
    asMesh o true p0 p1 pts =
      (meshLayout o.thetaPhi o.ntheta o.nphi o.skip0 o.skip1 o.seam).map fun r => r.map (value d p0 p1 pts) := by
  obtain ⟨tp, nt, np, s0, s1, sm⟩ := o
  simp only at h ht hp
  cases tp with
  | true =>
    simp only [asMesh, if_true, reshape2_eq d nt np pts h, Bool.not_true, Bool.false_eq_true, if_false]
    cases s0 <;> cases s1 <;> cases sm <;>
    simp [meshLayout, value, addRow, Function.comp_def, seedAt, take_one_map _ hp, List.take_replicate, Nat.min_eq_left hp, map_const_range]
  | false =>
    simp only [asMesh, Bool.false_eq_true, if_false, reshape2_eq d np nt pts (by rw [h, Nat.mul_comm]), Bool.not_true]
    cases s0 <;> cases s1 <;> cases sm <;>
    simp [meshLayout, value, addCol, Function.comp_def, seedAt, take_one_map _ hp]

/-- **C78.** The mesh of the points of a sphere is the mesh of its rings: seeds, pole points and the closing seam in
    their places. -/
theorem C78_as_mesh (o : MeshOpts) (d p0 p1 : α) (pts : List α) (h : pts.length = o.ntheta * o.nphi)
    (ht : 0 < o.ntheta) (hp : 0 < o.nphi) :
    asMesh o true p0 p1 pts =
      (meshLayout o.thetaPhi o.ntheta o.nphi o.skip0 o.skip1 o.seam).map fun r => r.map (value d p0 p1 pts) :=
  mesh_common o d p0 p1 pts h ht hp

/-- **C78.** The mesh of an array of values has the same shape and the value of every seed at the place of that seed;
    at an added pole there is the mean of the neighbouring ring. -/
theorem C78_arr2mesh (o : MeshOpts) (d : α) (mean : List α → α) (arr : List α) (h : arr.length = o.ntheta * o.nphi)
    (ht : 0 < o.ntheta) (hp : 0 < o.nphi) :
    arr2mesh o true mean arr =
      (meshLayout o.thetaPhi o.ntheta o.nphi o.skip0 o.skip1 o.seam).map fun r => r.map
        (value d (mean (ring o.thetaPhi o.ntheta o.nphi 0 d arr)) (mean (ring o.thetaPhi o.ntheta o.nphi (o.ntheta - 1) d arr)) arr) := by
  rw [← mesh_common o d _ _ arr h ht hp]
  obtain ⟨tp, nt, np, s0, s1, sm⟩ := o
  simp only at h ht hp
  cases tp with
  | true =>
    simp only [asMesh, arr2mesh, if_true, reshape2_eq d nt np arr h, Bool.not_true, Bool.false_eq_true, if_false]
    have r0 : ring true nt np 0 d arr = (List.range np).map fun j => arr.getD (0 * np + j) d := rfl
    have r1 : ring true nt np (nt - 1) d arr = (List.range np).map fun j => arr.getD ((nt - 1) * np + j) d := rfl
    rw [headD_map _ _ ht, r0, r1]
    cases s0 <;> cases s1 <;>
    simp only [if_true, Bool.false_eq_true, if_false, addRow, getLastD_cons_map _ _ _ ht, getLastD_map _ _ ht]
  | false =>
    simp only [asMesh, arr2mesh, Bool.false_eq_true, if_false, reshape2_eq d np nt arr (by rw [h, Nat.mul_comm]), Bool.not_true]
    have r0 : ring false nt np 0 d arr = (List.range np).map fun i => arr.getD (i * nt + 0) d := rfl
    have r1 : ring false nt np (nt - 1) d arr = (List.range np).map fun i => arr.getD (i * nt + (nt - 1)) d := rfl
    have c0 := col_first (fun i j => arr.getD (i * nt + j) d) np ht
    have c1 := col_last (fun i j => arr.getD (i * nt + j) d) np ht []
    have c2 (x : α) := col_last (fun i j => arr.getD (i * nt + j) d) np ht [x]
    simp only [List.nil_append, List.singleton_append] at c1 c2
    rw [r0, r1]
    cases s0 <;> cases s1 <;>
    simp only [if_true, Bool.false_eq_true, if_false, addCol, List.map_map, Function.comp_def, c0, c1, c2]

/-- **C78 in one line**: a quantity that is known at the seeds appears at the vertices of the mesh that are these
    seeds. -/
theorem C78_correspond {β : Type u} (o : MeshOpts) (d p0 p1 : α) (f : α → β) (mean : List β → β) (pts : List α)
    (h : pts.length = o.ntheta * o.nphi) (ht : 0 < o.ntheta) (hp : 0 < o.nphi) (i j : Nat) (v : α)
    (hv : ((asMesh o true p0 p1 pts)[i]?.bind (·[j]?)) = some v) :
    ∃ w, ((arr2mesh o true mean (pts.map f))[i]?.bind (·[j]?)) = some w ∧
      (w = f v ∨ v = p0 ∨ v = p1) := by
  rw [C78_as_mesh o d p0 p1 pts h ht hp] at hv
  rw [C78_arr2mesh o (f d) mean (pts.map f) (by simpa using h) ht hp]
  generalize meshLayout o.thetaPhi o.ntheta o.nphi o.skip0 o.skip1 o.seam = L at *
  simp only [List.getElem?_map] at hv ⊢
  cases hL : L[i]? with
  | none => rw [hL] at hv; simp at hv
  | some row =>
    rw [hL] at hv
    simp only [Option.map_some, Option.bind_some, List.getElem?_map] at hv ⊢
    cases hr : row[j]? with
    | none => rw [hr] at hv; simp at hv
    | some s =>
      rw [hr] at hv
      simp only [Option.map_some, Option.some.injEq] at hv ⊢
      refine ⟨_, rfl, ?_⟩
      cases s with
      | seed k =>
        left
        rw [← hv]
        simp only [value, List.getD_eq_getElem?_getD, List.getElem?_map]
        cases pts[k]? <;> rfl
      | pole i =>
        right
        simp only [value] at hv
        split at hv
        · exact Or.inl hv.symm
        · exact Or.inr hv.symm

/-- Two rings of three seeds, closed at both poles and along the seam. -/
example : meshLayout false 2 3 true true true =
    [[.pole 0, .seed 0, .seed 1, .pole 1], [.pole 0, .seed 4, .seed 5, .pole 1], [.pole 0, .seed 2, .seed 3, .pole 1],
     [.pole 0, .seed 0, .seed 1, .pole 1]] := by decide

end Viscid.Props
