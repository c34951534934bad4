import Verif.Lemmas.Cluster
/-!
# C35: clusters are connected components; C64: periodic axes and single clusters
-/
namespace Viscid.Cluster
open Viscid.Spec.Cluster

/-- The entries of the loop. -/
def entries (inds : List (Nat × Nat)) (x y : List ℚ) : List Entry :=
  inds.zipIdx.map fun (p, i) => (⟨i, (p.1, p.2), (x.getD p.1 0, y.getD p.2 0)⟩ : Entry)

theorem mem_entries (inds : List (Nat × Nat)) (x y : List ℚ) (e : Entry) :
    e ∈ entries inds x y ↔ ∃ p, inds[e.num]? = some p ∧ e.ind = ((p.1 : Int), (p.2 : Int)) ∧
      e.loc = (x.getD p.1 0, y.getD p.2 0) := by
  unfold entries
  constructor
  · intro h
    obtain ⟨⟨p, i⟩, hp, rfl⟩ := List.mem_map.mp h
    exact ⟨p, List.mem_zipIdx_iff_getElem?.mp hp, rfl, rfl⟩
  · rintro ⟨p, h1, h2, h3⟩
    obtain ⟨n, a, b⟩ := e
    dsimp only at h1 h2 h3
    subst h2 h3
    exact List.mem_map.mpr ⟨(p, n), List.mem_zipIdx_iff_getElem?.mpr h1, rfl⟩

theorem nums_entries (inds : List (Nat × Nat)) (x y : List ℚ) :
    (entries inds x y).map (·.num) = List.range inds.length := by
  unfold entries
  rw [List.map_map]
  show inds.zipIdx.map (fun q => q.2) = _
  rw [List.zipIdx_map_snd, List.range'_eq_map_range]
  simp

theorem domain_flat (x y : List ℚ) (hx : x ≠ []) (hy : y ≠ []) (d : Bool) :
    domain x y (.off, .off) d = some (flat d) := by
  unfold domain
  unfold domainAxis
  dsimp only
  rw [List.getLast?_eq_some_getLast hx, List.getLast?_eq_some_getLast hy, List.head?_eq_some_head hx, List.head?_eq_some_head hy]
  simp [flat]

/-- C35: without periodic axes the result is the list of the mean locations of the connected components of the
points, for every list of points in every order. -/
theorem C35_components (inds : List (Nat × Nat)) (x y : List ℚ) (d : Bool)
    (hin : ∀ p ∈ inds, p.1 < x.length ∧ p.2 < y.length) (hx : x.headD 0 ≠ x.getLastD 0) (hy : y.headD 0 ≠ y.getLastD 0) :
    ∃ groups, AreComponents d inds groups ∧
      findClusters inds x y true (.off, .off) d =
        some (groups.map fun g => (some (mean inds x y g).1, some (mean inds x y g).2)) := by
  have hxne : x ≠ [] := by rintro rfl; exact hx rfl
  have hyne : y ≠ [] := by rintro rfl; exact hy rfl
  set S := entries inds x y with hSdef
  have inv : Inv d S S (S.foldl (addPoint (flat d)) []) := by
    have := inv_run d S S [] [] ⟨by simp, by simp, by simp, by simp⟩ (by simp) (fun f hf => hf)
    rwa [List.nil_append] at this
  set cls := S.foldl (addPoint (flat d)) [] with hcls
  have inS : ∀ c ∈ cls, ∀ e ∈ c, e ∈ S := fun c hc e he =>
    inv.perm.mem_iff.mp (List.mem_flatten.mpr ⟨c, hc, he⟩)
  have next_iff : ∀ e ∈ S, ∀ f ∈ S, (Next d e f ↔ Joined d inds e.num f.num) := by
    intro e he f hf
    obtain ⟨p, hp, hpi, -⟩ := (mem_entries inds x y e).mp he
    obtain ⟨q, hq, hqi, -⟩ := (mem_entries inds x y f).mp hf
    unfold Next Joined
    rw [hpi, hqi, near_adjacent]
    constructor
    · intro h; exact ⟨p, q, hp, hq, h⟩
    · rintro ⟨p', q', hp', hq', h⟩
      rw [hp] at hp'; rw [hq] at hq'
      cases hp'; cases hq'
      exact h
  have uniq : ∀ e ∈ S, ∀ f ∈ S, e.num = f.num → e = f := by
    intro e he f hf h
    obtain ⟨p, hp, hpi, hpl⟩ := (mem_entries inds x y e).mp he
    obtain ⟨q, hq, hqi, hql⟩ := (mem_entries inds x y f).mp hf
    rw [h, hq] at hp
    cases hp
    obtain ⟨n, a, b⟩ := e
    obtain ⟨n', a', b'⟩ := f
    dsimp only at *
    rw [h, hpi, hpl, hqi, hql]
  have exS : ∀ j, j < inds.length → ∃ f ∈ S, f.num = j := fun j hj =>
    ⟨⟨j, ((inds[j].1 : Int), (inds[j].2 : Int)), (x.getD inds[j].1 0, y.getD inds[j].2 0)⟩,
      (mem_entries inds x y _).mpr ⟨inds[j], by simp [hj], rfl, rfl⟩, rfl⟩
  have joined_lt : ∀ i j, Joined d inds i j → i < inds.length ∧ j < inds.length := by
    rintro i j ⟨p, q, hp, hq, -⟩
    exact ⟨(List.getElem?_eq_some_iff.mp hp).1, (List.getElem?_eq_some_iff.mp hq).1⟩
  refine ⟨cls.map (·.map (·.num)), ⟨?_, ?_, ?_⟩, ?_⟩
  · rw [← List.map_flatten, ← nums_entries inds x y]
    exact inv.perm.map _
  · intro g hg
    obtain ⟨c, hc, rfl⟩ := List.mem_map.mp hg
    simpa using inv.ne c hc
  · intro g hg i hi j hj
    obtain ⟨c, hc, rfl⟩ := List.mem_map.mp hg
    obtain ⟨e, he, rfl⟩ := List.mem_map.mp hi
    constructor
    · intro hj'
      obtain ⟨f, hf, rfl⟩ := List.mem_map.mp hj'
      have hp := inv.conn c hc e he f hf
      exact Relation.ReflTransGen.lift (r := fun e f => e ∈ S ∧ f ∈ S ∧ Next d e f) (fun e : Entry => e.num) (fun a b h => (next_iff a h.1 b h.2.1).mp h.2.2) _ _ hp
    · intro hp
      have : ∀ k, Connected d inds e.num k → ∃ f ∈ c, f.num = k := by
        intro k hk
        induction hk with
        | refl => exact ⟨e, he, rfl⟩
        | tail _ h2 ih =>
          rename_i b c' _
          obtain ⟨f, hf, rfl⟩ := ih
          obtain ⟨g, hg, rfl⟩ := exS c' (joined_lt _ _ h2).2
          obtain ⟨c2, hc2, hg2⟩ := List.mem_flatten.mp (inv.perm.mem_iff.mpr hg)
          by_cases hcc : c = c2
          · subst hcc; exact ⟨g, hg2, rfl⟩
          · exfalso
            have : Std.Symm (fun c c' : List Entry => ∀ e ∈ c, ∀ f ∈ c', ¬ Next d e f) := ⟨fun _ _ h => apart_symm d h⟩
            exact inv.apart.forall hc hc2 hcc f hf g hg2 ((next_iff f (inS c hc f hf) g hg).mpr h2)
      obtain ⟨f, hf, hfj⟩ := this j hp
      exact List.mem_map.mpr ⟨f, hf, hfj⟩
  · unfold findClusters
    rw [domain_flat x y hxne hyne d]
    dsimp only
    rw [if_pos rfl, if_pos hin]
    congr 1
    rw [List.map_map]
    refine List.map_congr_left fun c hc => ?_
    have hw : ∀ (l : List ℚ) (v : ℚ), l.headD 0 ≠ l.getLastD 0 → wrapBack l 0 v = some v := by
      intro l v hl
      unfold wrapBack
      dsimp only
      rw [if_neg (sub_ne_zero.mpr (Ne.symm hl))]
      congr 1; ring
    show (wrapBack x 0 _, wrapBack y 0 _) = _
    rw [hw x _ hx, hw y _ hy]
    have loc : ∀ e ∈ c, e.loc = (x.getD (inds.getD e.num (0, 0)).1 0, y.getD (inds.getD e.num (0, 0)).2 0) := by
      intro e he
      obtain ⟨p, hp, -, hl⟩ := (mem_entries inds x y e).mp (inS c hc e he)
      rw [hl]
      have : inds.getD e.num (0, 0) = p := by rw [List.getD_eq_getElem?_getD, hp]; rfl
      rw [this]
    dsimp only [Function.comp]
    unfold average mean
    rw [List.map_map, List.map_map, List.length_map, List.length_map, List.length_map]
    congr 3
    · congr 1
      refine List.map_congr_left fun e he => ?_
      rw [loc e he]; rfl
    · congr 1
      refine List.map_congr_left fun e he => ?_
      rw [loc e he]; rfl

/-- C35, error branch: an index out of range or an empty coordinate array raises. -/
theorem C35_bad_input (inds : List (Nat × Nat)) (x y : List ℚ) (per : Per × Per) (d : Bool)
    (h : x = [] ∨ y = [] ∨ ∃ p ∈ inds, x.length ≤ p.1 ∨ y.length ≤ p.2) :
    findClusters inds x y true per d = none := by
  unfold findClusters
  rcases h with rfl | rfl | ⟨p, hp, h⟩
  · rfl
  · have : domain x [] per d = none := by
      unfold domain
      cases domainAxis x per.1 <;> rfl
    rw [this]
  · cases domain x y per d with
    | none => rfl
    | some D =>
      dsimp only
      rw [if_pos rfl, if_neg]
      intro hall
      have := hall p hp
      omega

/-- The hypotheses are met by six points in two components. -/
example : ∃ groups, AreComponents true [(0, 0), (2, 2), (1, 1), (4, 0), (5, 0), (4, 1)] groups ∧
    findClusters [(0, 0), (2, 2), (1, 1), (4, 0), (5, 0), (4, 1)] [0, 1, 2, 3, 4, 6] [0, 1, 2] true (.off, .off) true =
      some (groups.map fun g => (some (mean [(0, 0), (2, 2), (1, 1), (4, 0), (5, 0), (4, 1)] [0, 1, 2, 3, 4, 6] [0, 1, 2] g).1,
        some (mean [(0, 0), (2, 2), (1, 1), (4, 0), (5, 0), (4, 1)] [0, 1, 2, 3, 4, 6] [0, 1, 2] g).2)) :=
  C35_components _ _ _ _ (by decide) (by decide +kernel) (by decide +kernel)

example : findClusters [(0, 0), (2, 2), (1, 1), (4, 0), (5, 0), (4, 1)] [0, 1, 2, 3, 4, 6] [0, 1, 2] true (.off, .off) true =
    some [(some 1, some 1), (some (14/3), some (1/3))] := by decide +kernel

/-- C35 fails on an axis whose first and last coordinate agree (an axis of one point, say): the results are
nan although the axis is not periodic. -/
theorem C35_one_point_axis_violated :
    findClusters [(0, 0), (1, 0)] [0, 1] [5] true (.off, .off) true = some [(some (1/2), none)] := by decide +kernel

/-- C64, what holds: two neighbouring points across the boundary of one periodic axis are one cluster. -/
example : findClusters [(0, 1), (3, 1)] [0, 1, 2, 3] [0, 1, 2] true (.plus, .off) true = some [(some (7/2), some 1)] := by
  decide +kernel

/-- C64 fails in the corners: with both axes periodic, (0, N-1) and (N-1, 0) are diagonal neighbours across the
corner, but remain two clusters, while (0, 0) and (N-1, N-1) are joined. -/
theorem C64_corner_violated :
    (findClusters [(0, 3), (3, 0)] [0, 1, 2, 3] [0, 1, 2, 3] true (.plus, .plus) true).map List.length = some 2 ∧
    (findClusters [(0, 0), (3, 3)] [0, 1, 2, 3] [0, 1, 2, 3] true (.plus, .plus) true).map List.length = some 1 := by
  constructor <;> decide +kernel

/-- The points of a line that winds around the periodic x axis of three points. -/
def winding : List (Nat × Nat) := [(0, 0), (1, 1), (2, 2), (0, 3), (1, 4), (2, 5), (0, 6), (1, 7)]

/-- C64 fails for clusters that wind around more than once: consecutive points of `winding` are diagonal
neighbours (across the boundary in x), but they come out as two clusters. -/
theorem C64_winding_violated :
    (findClusters winding [0, 1, 2] [0, 1, 2, 3, 4, 5, 6, 7] true (.plus, .off) true).map List.length = some 2 := by
  decide +kernel

/-- C64 fails for multiple=False: the mean is taken over the wrong indices (rows instead of columns): three
points on the line y = 0 with mean x = 2 yield (3/2, 1), and a single point raises. -/
theorem C64_single_violated :
    findClusters [(3, 0), (2, 0), (1, 0)] [0, 1, 2, 3] [0, 1, 2] false (.off, .off) true = some [(some (3/2), some 1)] ∧
    findClusters [(3, 0)] [0, 1, 2, 3] [0, 1, 2] false (.off, .off) true = none := by
  constructor <;> decide +kernel

end Viscid.Cluster
