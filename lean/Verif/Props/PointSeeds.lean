import Verif.Spec.PointSeeds
import Verif.Props.Hdf5
import Mathlib.Data.List.Perm.Basic
import Mathlib.Data.List.Nodup
/-!
# C225: seeds given as arrays
-/
namespace Viscid.Props
namespace PSd
open Viscid.PointSeeds Viscid.Spec.PointSeeds
open Viscid.Layout (Arr prod reshape ravel unravel)

theorem size_eq (s : List Nat) : size s = prod s := by
  induction s with
  | nil => rfl
  | cons n s ih => simp only [size, prod, List.foldr_cons, ih]

theorem range_mul (n p : Nat) : List.range (n * p) = (List.range n).flatMap fun i => (List.range p).map (i * p + ·) := by
  induction n with
  | zero => simp
  | succ n ih =>
    rw [Nat.succ_mul, List.range_add, ih, List.range_succ, List.flatMap_append]
    simp

theorem unravel_at (n : Nat) (s : List Nat) (i j : Nat) (hj : j < prod s) : unravel (n :: s) (i * prod s + j) = i :: unravel s j := by
  show (i * prod s + j) / prod s :: unravel s ((i * prod s + j) % prod s) = _
  rw [Nat.mul_comm, Nat.mul_add_div (by omega), Nat.mul_add_mod, Nat.div_eq_of_lt hj, Nat.mod_eq_of_lt hj, Nat.add_zero]

theorem inC_eq (s : List Nat) : (List.range (prod s)).map (unravel s) = inC s := by
  induction s with
  | nil => rfl
  | cons n s ih =>
    rw [show prod (n :: s) = n * prod s from rfl, range_mul, List.map_flatMap, inC]
    congr 1
    funext i
    rw [← ih, List.map_map, List.map_map]
    apply List.map_congr_left
    intro j hj
    exact unravel_at n s i j (List.mem_range.1 hj)

theorem inC_snoc (s : List Nat) (n : Nat) : inC (s ++ [n]) = (inC s).flatMap fun t => (List.range n).map fun i => t ++ [i] := by
  induction s with
  | nil => simp [inC, List.flatMap_singleton', List.map_eq_flatMap]
  | cons m s ih =>
    simp only [List.cons_append, inC, ih, List.flatMap_assoc, List.map_flatMap, List.flatMap_map, List.map_map]
    rfl

theorem inF_eq (s : List Nat) : (inC s.reverse).map List.reverse = inF s := by
  induction s with
  | nil => rfl
  | cons n s ih =>
    rw [List.reverse_cons, inC_snoc, inF, ← ih, List.map_flatMap, List.flatMap_map]
    simp [Function.comp_def]

theorem mem_inC (s t : List Nat) : t ∈ inC s ↔ List.Forall₂ (· < ·) t s := by
  induction s generalizing t with
  | nil => simp [inC]
  | cons n s ih =>
    simp only [inC, List.mem_flatMap, List.mem_range, List.mem_map, ih]
    constructor
    · rintro ⟨i, hi, u, hu, rfl⟩; exact .cons hi hu
    · rintro h
      cases h with
      | cons h1 h2 => exact ⟨_, h1, _, h2, rfl⟩

theorem mem_inF (s t : List Nat) : t ∈ inF s ↔ List.Forall₂ (· < ·) t s := by
  induction s generalizing t with
  | nil => simp [inF]
  | cons n s ih =>
    simp only [inF, List.mem_flatMap, List.mem_range, List.mem_map, ih]
    constructor
    · rintro ⟨u, hu, i, hi, rfl⟩; exact .cons hi hu
    · rintro h
      cases h with
      | cons h1 h2 => exact ⟨_, h2, _, h1, rfl⟩

theorem nodup_inC (s : List Nat) : (inC s).Nodup := by
  induction s with
  | nil => simp [inC]
  | cons n s ih =>
    rw [inC, List.nodup_flatMap]
    refine ⟨fun i _ => ih.map (fun a b h => by simpa using h), ?_⟩
    refine List.Pairwise.imp_of_mem ?_ (List.nodup_range (n := n))
    intro a b _ _ hab
    rw [Function.onFun, List.disjoint_left]
    intro x hx hy
    simp only [List.mem_map] at hx hy
    obtain ⟨_, _, rfl⟩ := hx
    obtain ⟨_, _, e⟩ := hy
    exact hab (by simpa using congrArg List.head? e.symm)

theorem nodup_inF (s : List Nat) : (inF s).Nodup := by
  rw [← inF_eq]
  exact (nodup_inC _).map List.reverse_injective

theorem perm_inF (s : List Nat) : (inF s).Perm (inC s) :=
  (List.perm_ext_iff_of_nodup (nodup_inF s) (nodup_inC s)).2 fun t => by rw [mem_inF, mem_inC]

theorem reshape_get (a b : Arr α) (sh : List Nat) (h : reshape a sh = .ok b) :
    b.shape = sh ∧ ∀ idx, List.Forall₂ (· < ·) idx sh → b.get idx = a.get (unravel a.shape (ravel sh idx)) := by
  unfold reshape at h
  split at h
  · rename_i e
    cases h
    subst e
    exact ⟨rfl, fun idx hi => by rw [Hdf5.unravel_ravel _ _ hi]⟩
  · split at h
    · cases h
      exact ⟨rfl, fun _ _ => rfl⟩
    · cases h

theorem reshape_ok (a : Arr α) (sh : List Nat) (h : prod a.shape = prod sh) : ∃ b, reshape a sh = .ok b := by
  unfold reshape
  split
  · exact ⟨_, rfl⟩
  · first | exact ⟨_, rfl⟩ | (rw [if_pos h]; exact ⟨_, rfl⟩)

theorem ravel3 (p c k : Nat) : ravel [3, p] [c, k] = c * p + k := by simp [ravel, prod]

theorem rows_of (a : Arr α) (s : List Nat) (h : a.shape = 3 :: s) :
    ∃ b, threeRows a = .ok b ∧ b.shape = [3, prod s] ∧ (∀ c k, c < 3 → k < prod s → b.get [c, k] = a.get (c :: unravel s k)) := by
  have hp : prod a.shape = 3 * prod s := by rw [h]; rfl
  have hd : prod a.shape / 3 = prod s := by omega
  obtain ⟨b, hb⟩ := reshape_ok a [3, prod s] (by rw [hp]; simp [prod])
  obtain ⟨h1, h2⟩ := reshape_get _ _ _ hb
  refine ⟨b, by unfold threeRows; rw [hd, hb], h1, fun c k hc hk => ?_⟩
  rw [h2 [c, k] (.cons hc (.cons hk .nil)), h, ravel3, unravel_at _ _ _ _ hk]

theorem iter_rows (a : Arr α) (s : List Nat) (h : a.shape = 3 :: s) : ∃ b, threeRows a = .ok b ∧ b.shape = [3, prod s] ∧ iter b = (inC s).map (ptFirst a) := by
  obtain ⟨b, h1, h2, h3⟩ := rows_of a s h
  refine ⟨b, h1, h2, ?_⟩
  unfold iter
  rw [h2, ← inC_eq, List.map_map]
  apply List.map_congr_left
  intro k hk
  have hk := List.mem_range.1 hk
  simp only [List.getElem?_cons_succ, List.getElem?_cons_zero, Option.getD_some] at hk
  simp only [Function.comp, ptFirst, h3 0 k (by omega) hk, h3 1 k (by omega) hk, h3 2 k (by omega) hk]

end PSd
open PSd Viscid.PointSeeds Viscid.Spec.PointSeeds
open Viscid.Layout (Arr)

/-- **C225.** Of an array whose first axis is of length 3, the seeds are the points at all indices of the other axes, the last of them fastest. -/
theorem C225_first (a : Arr α) (s : List Nat) (h : a.shape = 3 :: s) :
    ∃ b, pointLocal a = .ok b ∧ b.shape = [3, size s] ∧ iter b = (inC s).map (ptFirst a) := by
  obtain ⟨b, h1, h2, h3⟩ := iter_rows a s h
  refine ⟨b, ?_, by rw [size_eq, h2], h3⟩
  unfold pointLocal
  rw [h]
  cases e : (3 :: s).getLast? with
  | none => simp at e
  | some l => simpa using h1

/-- **C225.** Of an array whose last axis is of length 3, and not its first, the seeds are the points at all indices of the other axes, the first of them
fastest. -/
theorem C225_last (a : Arr α) (s : List Nat) (h : a.shape = s ++ [3]) (hs : s.head? ≠ some 3) (hn : s ≠ []) :
    ∃ b, pointLocal a = .ok b ∧ b.shape = [3, size s] ∧ iter b = (inF s).map (ptLast a) := by
  obtain ⟨b, h1, h2, h3⟩ := iter_rows (T a) s.reverse (by simp [T, h])
  have hp : ∀ s : List Nat, Layout.prod s.reverse = Layout.prod s := by
    have : ∀ (s : List Nat) (n : Nat), Layout.prod (s ++ [n]) = Layout.prod s * n := by
      intro s n
      induction s with
      | nil => simp [Layout.prod]
      | cons m s ih =>
        simp only [Layout.prod, List.cons_append, List.foldr_cons] at ih ⊢
        rw [ih, Nat.mul_assoc]
    intro s
    induction s with
    | nil => rfl
    | cons n s ih =>
      rw [List.reverse_cons, this, ih, Nat.mul_comm]
      rfl
  refine ⟨b, ?_, by rw [size_eq, h2, hp], ?_⟩
  · unfold pointLocal
    rw [h]
    cases s with
    | nil => exact absurd rfl hn
    | cons n s =>
      have : n ≠ 3 := by simpa using hs
      have hl : (n :: s ++ [3]).getLast? = some 3 := List.getLast?_concat
      rw [hl]
      simpa [this] using h1
  · rw [h3, ← inF_eq, List.map_map]
    apply List.map_congr_left
    intro t _
    simp [ptFirst, ptLast, T]

/-- **C225.** Either way each point is there once. -/
theorem C225_once (a : Arr α) (s : List Nat) (h : a.shape = s ++ [3]) (hs : s.head? ≠ some 3) (hn : s ≠ []) :
    ∃ b, pointLocal a = .ok b ∧ (iter b).Perm ((inC s).map (ptLast a)) ∧ (inC s).Nodup ∧ ∀ i, i ∈ inC s ↔ List.Forall₂ (· < ·) i s := by
  obtain ⟨b, h1, _, h3⟩ := C225_last a s h hs hn
  exact ⟨b, h1, by rw [h3]; exact (perm_inF s).map _, nodup_inC s, mem_inC s⟩

/-- **C225.** A list of points has its order kept. -/
theorem C225_list (a : Arr α) (n : Nat) (h : a.shape = [n, 3]) (hn : n ≠ 3) :
    ∃ b, pointLocal a = .ok b ∧ iter b = (List.range n).map fun k => (a.get [k, 0], a.get [k, 1], a.get [k, 2]) := by
  obtain ⟨b, h1, _, h3⟩ := C225_last a [n] (by simpa using h) (by simpa using hn) (by simp)
  exact ⟨b, h1, by rw [h3]; simp [inF, ptLast]⟩

/-- **C225, violated.** A grid of points with the coordinates along the last axis is not gone through in the order of the array: the second seed is the
next point along the first axis. -/
theorem C225_last_violated (a : Arr α) (n m : Nat) (h : a.shape = [n, m, 3]) (hn : 2 ≤ n) (hm : 2 ≤ m) (h3 : n ≠ 3)
    (hd : ptLast a [0, 1] ≠ ptLast a [1, 0]) :
    ∃ b, pointLocal a = .ok b ∧ iter b ≠ (inC [n, m]).map (ptLast a) := by
  obtain ⟨b, h1, _, h4⟩ := C225_last a [n, m] (by simpa using h) (by simpa using h3) (by simp)
  refine ⟨b, h1, fun e => ?_⟩
  rw [h4] at e
  obtain ⟨n, rfl⟩ : ∃ k, n = k + 2 := ⟨n - 2, by omega⟩
  obtain ⟨m, rfl⟩ : ∃ k, m = k + 2 := ⟨m - 2, by omega⟩
  have := congrArg (fun l => l[1]?) e
  simp only [inF, inC, List.range_succ_eq_map, List.map_cons, List.flatMap_cons, List.cons_append, List.getElem?_cons_succ, List.getElem?_cons_zero,
    List.flatMap_nil, List.append_nil, List.nil_append, List.map_nil, Option.some.injEq] at this
  exact hd this.symm

/-- **C225, violated.** Three points, or three rows of points, given with the coordinates last are taken for the coordinates of points. -/
theorem C225_three_violated (a : Arr α) (s : List Nat) (h : a.shape = 3 :: s ++ [3]) :
    ∃ b, pointLocal a = .ok b ∧ iter b = (inC (s ++ [3])).map (ptFirst a) := by
  obtain ⟨b, h1, _, h3⟩ := C225_first a (s ++ [3]) (by simpa using h)
  exact ⟨b, h1, h3⟩

/-- **C225.** Arrays whose first and last axes are both of another length are refused, as are numbers. -/
theorem C225_refused (a : Arr α) : (a.shape = [] → pointLocal a = .error .index) ∧
    ∀ f l, a.shape.head? = some f → a.shape.getLast? = some l → f ≠ 3 → l ≠ 3 → pointLocal a = .error .value := by
  refine ⟨fun h => by unfold pointLocal; rw [h]; rfl, fun f l hf hl h1 h2 => ?_⟩
  unfold pointLocal
  rw [hf, hl]
  simp [h1, h2]

/-- **C225.** Seeds are the same each time they are asked for, whether they are kept or not, and there are as many as said. -/
theorem C225_again (a : Arr α) (cache : Bool) (b : Arr α) (p : Point α) (h : Point.getPoints ⟨a, cache, none⟩ = .ok (b, p)) :
    (∃ q, p.getPoints = .ok (b, q)) ∧ Point.nrPoints ⟨a, cache, none⟩ = .ok (iter b).length := by
  have key : ∀ a' : Arr α, pointLocal a' = .ok b → ∃ n, b.shape = [3, n] := by
    intro a' h
    unfold pointLocal at h
    have : ∀ a' : Arr α, threeRows a' = .ok b → ∃ n, b.shape = [3, n] := by
      intro a' h
      unfold threeRows at h
      split at h
      · rename_i c hc
        cases h
        exact ⟨_, (reshape_get _ _ _ hc).1⟩
      · cases h
    split at h
    · split at h
      · exact this _ h
      · split at h
        · exact this _ h
        · cases h
    · cases h
  have e : pointLocal a = .ok b ∧ p = ⟨b, cache, if cache then some b else none⟩ := by
    unfold Point.getPoints at h
    cases e : pointLocal a with
    | error e' => simp [e] at h
    | ok b' =>
      simp only [e, Except.ok.injEq, Prod.mk.injEq] at h
      exact ⟨by rw [h.1], by rw [← h.2, h.1]⟩
  obtain ⟨n, hn⟩ := key a e.1
  constructor
  · rw [e.2]
    cases cache with
    | true => exact ⟨_, rfl⟩
    | false =>
      refine ⟨⟨b, false, none⟩, ?_⟩
      have : pointLocal b = .ok b := by
        unfold pointLocal threeRows Layout.reshape
        rw [hn]
        have : Layout.prod [3, n] / 3 = n := by simp [Layout.prod]
        simp [this]
      simp [Point.getPoints, this]
  · unfold Point.nrPoints
    rw [h]
    simp [hn, iter]

/-- **C225.** Points of a mesh are gone through row by row, and the mesh made of them is the one that was given. -/
theorem C225_mesh (a : Arr α) (nu nv : Nat) (h : a.shape = [3, nu, nv]) :
    ∃ m b c, meshInit a = .ok m ∧ m.nrPoints = nu * nv ∧ m.points = .ok b ∧ iter b = (inC [nu, nv]).map (ptFirst a) ∧
      m.asMesh = .ok c ∧ c.shape = [3, nu, nv] ∧ ∀ k i j, k < 3 → i < nu → j < nv → c.get [k, i, j] = a.get [k, i, j] := by
  obtain ⟨b, h1, h2, h3⟩ := iter_rows a [nu, nv] h
  have h4 := rows_of a [nu, nv] h
  obtain ⟨b', h1', h2', h5⟩ := h4
  obtain rfl : b = b' := by rw [h1] at h1'; cases h1'; rfl
  obtain ⟨c, hc⟩ := reshape_ok b [3, nu, nv] (by rw [h2]; simp [Layout.prod])
  obtain ⟨c1, c2⟩ := reshape_get _ _ _ hc
  refine ⟨⟨a, nu, nv⟩, b, c, by simp [meshInit, h], rfl, h1, h3, ?_, c1, fun k i j hk hi hj => ?_⟩
  · unfold Mesh.asMesh Mesh.points
    rw [h1]
    simp only [hc]
  · have hin : List.Forall₂ (· < ·) [i, j] [nu, nv] := .cons hi (.cons hj .nil)
    have hr := Hdf5.ravel_lt [nu, nv] [i, j] hin
    rw [c2 _ (.cons hk hin), h2]
    have e : Layout.ravel [3, nu, nv] [k, i, j] = k * Layout.prod [nu, nv] + Layout.ravel [nu, nv] [i, j] := rfl
    have e2 : Layout.unravel [3, Layout.prod [nu, nv]] (k * Layout.prod [nu, nv] + Layout.ravel [nu, nv] [i, j]) = [k, Layout.ravel [nu, nv] [i, j]] := by
      rw [← ravel3]
      exact Hdf5.unravel_ravel _ _ (.cons hk (.cons hr .nil))
    rw [e, e2, h5 _ _ hk hr, Hdf5.unravel_ravel _ _ hin]

/-- **C225.** Values of the seeds of a mesh, one for each in order, become the mesh of the values: those of the k-th point are at its index. -/
theorem C225_values (m : Mesh α) (l : List β) (d : β) (h : l.length = m.nu * m.nv) :
    ∃ c, m.arr2mesh l d = .ok c ∧ c.shape = [m.nu, m.nv] ∧ (inC [m.nu, m.nv]).map c.get = l := by
  obtain ⟨c, hc⟩ := reshape_ok (⟨[l.length], fun i => (l[(i.head?).getD 0]?).getD d⟩ : Arr β) [m.nu, m.nv] (by simp [Layout.prod, h])
  obtain ⟨c1, c2⟩ := reshape_get _ _ _ hc
  refine ⟨c, by unfold Mesh.arr2mesh; rw [hc], c1, ?_⟩
  have hl : (inC [m.nu, m.nv]).length = l.length := by rw [← inC_eq]; simp [Layout.prod, h]
  apply List.ext_getElem (by simpa using hl)
  intro k h1 h2
  have hk : k < Layout.prod [m.nu, m.nv] := by simpa [Layout.prod, ← h] using h2
  simp only [List.getElem_map]
  have e : (inC [m.nu, m.nv])[k]'(by simpa using h1) = Layout.unravel [m.nu, m.nv] k := by
    simp only [← inC_eq, List.getElem_map, List.getElem_range]
  have hin : List.Forall₂ (· < ·) (Layout.unravel [m.nu, m.nv] k) [m.nu, m.nv] := by
    rw [← mem_inC, ← e]
    exact List.getElem_mem _
  have hr : Layout.ravel [m.nu, m.nv] (Layout.unravel [m.nu, m.nv] k) = k := by
    simp only [Layout.unravel, Layout.ravel, Layout.prod, List.foldr_cons, List.foldr_nil, Nat.mul_one, Nat.div_one, Nat.add_zero]
    rw [Nat.mul_comm]
    exact Nat.div_add_mod k m.nv
  rw [e, c2 _ hin, hr]
  simp [Layout.unravel, Layout.prod, h2]

/-- **C225, violated.** The local shape of a mesh cannot be had: `get_local_shape` calls itself, however many calls are allowed. -/
theorem C225_shape_violated (m : Mesh α) (depth : Nat) : m.localShape depth = .error .recursion := by
  induction depth with
  | zero => rfl
  | succ n ih => exact ih

/-- **C225.** The axes of a rectilinear mesh: if a coordinate is that of the row, and another that of the column, the axes have these. -/
theorem C225_axes (a : Arr α) (nu nv : Nat) (u v : Ax) (i j : Nat) (f g : Nat → α) (h : a.shape = [3, nu, nv]) (hu : 0 < nu) (hv : 0 < nv)
    (hi : axis u = some i) (hj : axis v = some j) (hf : ∀ k l, k < nu → l < nv → a.get [i, k, l] = f k) (hg : ∀ k l, k < nu → l < nv → a.get [j, k, l] = g l) :
    rectAxes a u v = .ok ((List.range nu).map f, (List.range nv).map g) := by
  have look : ∀ (u : Ax) (i : Nat), axis u = some i → lookAx u = .ok i := by
    intro u i h
    unfold axis at h
    split at h
    · split at h
      · rename_i e; subst e; cases h; rfl
      · split at h
        · rename_i e; subst e; cases h; rfl
        · cases h
    · split at h
      · rename_i e; subst e; cases h; rfl
      · split at h
        · rename_i e; subst e; cases h; rfl
        · cases h
  unfold rectAxes
  rw [look u i hi, look v j hj]
  simp only [meshInit, h, List.getElem?_cons_zero, List.getElem?_cons_succ, ne_eq, not_true_eq_false, if_false]
  congr 2
  · exact List.map_congr_left fun k hk => hf k 0 (List.mem_range.1 hk) hv
  · exact List.map_congr_left fun k hk => hg 0 k hu (List.mem_range.1 hk)

/-- **C225, violated.** Meshes along z cannot be made: the name of the axis is not known. -/
theorem C225_z_violated (a : Arr α) (u : Ax) (z : Ax) (hz : z = .chr 'z' ∨ z = .num 2) : rectAxes a z u = .error .key ∧ rectAxes a u z = .error .key := by
  have h : lookAx z = .error .key := by rcases hz with rfl | rfl <;> rfl
  have h2 : ∀ e, lookAx u = .error e → e = .key := by
    intro e he
    unfold lookAx at he
    split at he <;> cases he
    rfl
  unfold rectAxes
  rw [h]
  constructor
  · cases lookAx u <;> rfl
  · cases e : lookAx u with
    | ok n => rfl
    | error e' => rw [h2 e' e]

/-! ### Cases -/

namespace PSd
def grid : Arr Nat := ⟨[2, 2, 3], fun i => Layout.ravel [2, 2, 3] i⟩
end PSd

example : ∃ b, pointLocal grid = .ok b ∧ iter b = [(0, 1, 2), (6, 7, 8), (3, 4, 5), (9, 10, 11)] := ⟨_, rfl, by decide⟩
example : ∃ b, pointLocal grid = .ok b ∧ iter b ≠ (inC [2, 2]).map (ptLast grid) := C225_last_violated grid 2 2 rfl (by omega) (by omega) (by omega) (by decide)
example : ∃ b, pointLocal (⟨[3, 2, 2], fun i => Layout.ravel [3, 2, 2] i⟩ : Arr Nat) = .ok b ∧ iter b = [(0, 4, 8), (1, 5, 9), (2, 6, 10), (3, 7, 11)] :=
  ⟨_, rfl, by decide⟩
example : rectAxes (⟨[3, 2, 2], fun i => match i with | [0, k, _] => 10 * k | [1, _, l] => l | _ => 0⟩ : Arr Nat) (.chr 'x') (.chr 'y') = .ok ([0, 10], [0, 1]) :=
  C225_axes _ 2 2 _ _ 0 1 (fun k => 10 * k) (fun l => l) rfl (by omega) (by omega) rfl rfl (fun _ _ _ _ => rfl) (fun _ _ _ _ => rfl)

end Viscid.Props
