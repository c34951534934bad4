import Verif.Spec.XdmfGeo
import Mathlib.Data.List.Perm.Basic
import Mathlib.Tactic.FieldSimp
import Mathlib.Tactic.Ring
import Mathlib.Tactic.Linarith
import Mathlib.Algebra.Order.AbsoluteValue.Basic
import Mathlib.Data.Rat.Cast.Order
/-!
# C151: the coordinates of grids in XDMF files
-/
namespace Viscid.XdmfGeo
open Viscid.Spec.XdmfGeo

/-- a data item that can be read -/
def good (i : String × List ℚ) : Item := ⟨some i.1, .ok i.2⟩

/-- placing arrays works exactly if the names are those that are looked for, each once -/
theorem place_iff (v : Bool) (its : List (String × List ℚ)) : ∀ (lk : List (List Char)) (g g' : List Char → List ℚ), lk.Nodup →
    (place v (its.map good) lk g = .ok g' ↔ (its.map fun i => itemKey v i.1).Perm lk ∧ (∀ i ∈ its, g' (itemKey v i.1) = i.2) ∧ ∀ k, k ∉ lk → g' k = g k) := by
  induction its with
  | nil =>
    intro lk g g' _
    simp only [List.map_nil, place, List.not_mem_nil, false_implies, implies_true, true_and, List.nil_perm]
    by_cases h : lk = []
    · subst h
      simp only [List.length_nil, gt_iff_lt, Nat.lt_irrefl, if_false, Except.ok.injEq, List.not_mem_nil, not_false_eq_true, forall_const, true_and]
      exact ⟨fun e k => by rw [e], fun e => (funext e).symm⟩
    · rw [if_pos (List.length_pos_iff.2 h)]
      simp [h]
  | cons i its ih =>
    intro lk g g' hn
    simp only [List.map_cons, place, good]
    by_cases hk : itemKey v i.1 ∈ lk
    · rw [if_pos hk, ih _ _ _ (hn.erase _)]
      rw [List.cons_perm_iff_perm_erase]
      have hnot : ∀ k, k ∉ lk.erase (itemKey v i.1) ↔ k ∉ lk ∨ k = itemKey v i.1 := by
        intro k
        rw [hn.mem_erase_iff]
        by_cases e : k = itemKey v i.1 <;> simp [e]
      constructor
      · rintro ⟨h1, h2, h3⟩
        refine ⟨⟨hk, h1⟩, ?_, fun k hk' => ?_⟩
        · intro j hj
          rcases List.mem_cons.1 hj with rfl | hj
          · rw [h3 _ ((hnot _).2 (.inr rfl)), if_pos rfl]
          · exact h2 j hj
        · rw [h3 _ ((hnot _).2 (.inl hk')), if_neg (by rintro rfl; exact hk' hk)]
      · rintro ⟨⟨_, h1⟩, h2, h3⟩
        refine ⟨h1, fun j hj => h2 j (by simp [hj]), fun k hk' => ?_⟩
        split
        · rename_i e
          rw [e]
          exact h2 i (by simp)
        · rename_i e
          exact h3 k (((hnot k).1 hk').resolve_right e)
    · rw [if_neg hk]
      simp only [reduceCtorEq, false_iff, not_and]
      intro hp
      exact absurd (hp.subset (List.mem_cons_self ..)) hk

theorem place_good (v : Bool) (items : List Item) : ∀ (lk : List (List Char)) (g g' : List Char → List ℚ), place v items lk g = .ok g' →
    ∃ its : List (String × List ℚ), items = its.map good := by
  induction items with
  | nil => intro _ _ _ _; exact ⟨[], rfl⟩
  | cons it items ih =>
    intro lk g g' h
    obtain ⟨name, data⟩ := it
    rw [place] at h
    cases name with
    | none => cases h
    | some n =>
      cases data with
      | error e => cases h
      | ok d =>
        simp only at h
        split at h
        · obtain ⟨its, rfl⟩ := ih _ _ _ h
          exact ⟨(n, d) :: its, rfl⟩
        · cases h

/-- the arrays that are found: those of the three data items, in any order, whose keys are `x`, `y` and `z` -/
theorem place_xyz (v : Bool) (items : List Item) (x y z : List ℚ) :
    (∃ g, place v items [['x'], ['y'], ['z']] (fun _ => []) = .ok g ∧ g ['x'] = x ∧ g ['y'] = y ∧ g ['z'] = z) ↔
    ∃ a b c : String, itemKey v a = ['x'] ∧ itemKey v b = ['y'] ∧ itemKey v c = ['z'] ∧
      items.Perm [⟨some a, .ok x⟩, ⟨some b, .ok y⟩, ⟨some c, .ok z⟩] := by
  constructor
  · rintro ⟨g, h, rfl, rfl, rfl⟩
    obtain ⟨its, rfl⟩ := place_good v items _ _ _ h
    obtain ⟨hp, hd, _⟩ := (place_iff v its _ _ _ (by decide)).1 h
    have pick : ∀ k ∈ [['x'], ['y'], ['z']], ∃ i ∈ its, itemKey v i.1 = k := fun k hk => by
      simpa using hp.symm.subset hk
    obtain ⟨a, ha, ka⟩ := pick ['x'] (by decide)
    obtain ⟨b, hb, kb⟩ := pick ['y'] (by decide)
    obtain ⟨c, hc, kc⟩ := pick ['z'] (by decide)
    refine ⟨a.1, b.1, c.1, ka, kb, kc, ?_⟩
    have hab : a ≠ b := by rintro rfl; rw [ka] at kb; exact absurd kb (by decide)
    have hac : a ≠ c := by rintro rfl; rw [ka] at kc; exact absurd kc (by decide)
    have hbc : b ≠ c := by rintro rfl; rw [kb] at kc; exact absurd kc (by decide)
    have hs : [a, b, c].Subperm its := List.subperm_of_subset (by simp [hab, hac, hbc]) (by
      intro j hj
      simp only [List.mem_cons, List.not_mem_nil, or_false] at hj
      rcases hj with rfl | rfl | rfl <;> assumption)
    have hl : its.length = 3 := by simpa using hp.length_eq
    have := (hs.perm_of_length_le (by simp [hl])).symm.map good
    rw [← ka, hd a ha, ← kb, hd b hb, ← kc, hd c hc]
    exact this
  · rintro ⟨a, b, c, ha, hb, hc, hp⟩
    have hi : ∃ its : List (String × List ℚ), items = its.map good := by
      have hall : ∀ it ∈ items, ∃ i, it = good i := by
        intro it h
        have := hp.subset h
        simp only [List.mem_cons, List.not_mem_nil, or_false] at this
        rcases this with rfl | rfl | rfl
        · exact ⟨(a, x), rfl⟩
        · exact ⟨(b, y), rfl⟩
        · exact ⟨(c, z), rfl⟩
      clear hp
      induction items with
      | nil => exact ⟨[], rfl⟩
      | cons it items ih =>
        obtain ⟨i, rfl⟩ := hall it (by simp)
        obtain ⟨its, rfl⟩ := ih fun j hj => hall j (by simp [hj])
        exact ⟨i :: its, rfl⟩
    obtain ⟨its, rfl⟩ := hi
    have hinj : Function.Injective good := by
      intro i j e
      simp only [good, Item.mk.injEq, Option.some.injEq, Except.ok.injEq] at e
      exact Prod.ext e.1 e.2
    have hp' : its.Perm [(a, x), (b, y), (c, z)] := (List.map_perm_map_iff hinj).1 hp
    let g : List Char → List ℚ := fun k => if k = ['x'] then x else if k = ['y'] then y else if k = ['z'] then z else []
    refine ⟨g, (place_iff v its _ _ g (by decide)).2 ⟨?_, ?_, ?_⟩, rfl, rfl, rfl⟩
    · have := hp'.map fun i => itemKey v i.1
      simpa [ha, hb, hc] using this
    · intro i hi
      have := hp'.subset hi
      simp only [List.mem_cons, List.not_mem_nil, or_false] at this
      rcases this with rfl | rfl | rfl
      · rw [ha]; rfl
      · rw [hb]; rfl
      · rw [hc]; rfl
    · intro k hk
      simp only [List.mem_cons, List.not_mem_nil, or_false, not_or] at hk
      simp [g, hk]

theorem linspace_spacing (o d : ℚ) (n : Nat) : Crds.linspace o (o + ((n : ℚ) - 1) * d) n = spacing o d n := by
  unfold Crds.linspace spacing
  split
  · rename_i h
    subst h
    simp
  · rename_i h
    apply List.map_congr_left
    intro i hi
    have : (n : ℚ) - 1 ≠ 0 := by
      intro e
      apply h
      have : (n : ℚ) = 1 := by linarith
      exact_mod_cast this
    field_simp
    ring

theorem diffs_spacing (o d : ℚ) (n : Nat) (hn : 2 ≤ n) : ∀ e ∈ diffs (spacing o d n), e = d := by
  intro e he
  unfold diffs at he
  rw [if_pos (by simp [spacing]; omega)] at he
  obtain ⟨i, hi, rfl⟩ := List.mem_iff_getElem.1 he
  simp only [List.getElem_zipWith, List.getElem_tail, List.getElem_dropLast, spacing, List.getElem_map, List.getElem_range]
  push_cast
  ring

theorem fullAxis_spacing (eps o d : ℚ) (n : Nat) (he : 0 ≤ eps) :
    ∃ u, fullAxis eps (spacing o d n) = .ok u ∧ Crds.linspace u.xl u.xh u.n = spacing o d n := by
  have hc : allClose (4 * eps) (diffs (spacing o d n)) = true := by
    unfold allClose
    rw [List.all_eq_true]
    intro e h
    have h0 : ∀ e ∈ diffs (spacing o d n), (diffs (spacing o d n)).headD 0 = e := by
      by_cases hn : 2 ≤ n
      · intro e h
        cases hl : diffs (spacing o d n) with
        | nil => rw [hl] at h; simp at h
        | cons a l =>
          have ha := diffs_spacing o d n hn a (by simp [hl])
          have he' := diffs_spacing o d n hn e h
          simp [ha, he']
      · intro e h
        unfold diffs at h ⊢
        rw [if_neg (by simp [spacing]; omega)] at h ⊢
        simp at h
        simp [h]
    rw [h0 e h, sub_self, abs_zero]
    have := abs_nonneg e
    have : 0 ≤ 4 * eps * |e| := by positivity
    apply decide_eq_true
    linarith
  unfold fullAxis
  rw [if_pos hc]
  cases n with
  | zero => exact ⟨⟨0, 0, 0⟩, rfl, rfl⟩
  | succ n =>
    have h1 : (spacing o d (n + 1)).head? = some o := by simp [spacing, List.range_succ_eq_map]
    have h2 : (spacing o d (n + 1)).getLast? = some (o + n * d) := by simp [spacing, List.range_succ]
    rw [h1, h2]
    refine ⟨_, rfl, ?_⟩
    have := linspace_spacing o d (n + 1)
    push_cast at this
    simpa [spacing] using this

end Viscid.XdmfGeo

namespace Viscid.Props
open Viscid.XdmfGeo Viscid.Spec.XdmfGeo

/-- C151: a grid of rectangles with one array for each axis has these coordinates, in whatever order they come and however the names are written; and
if it has coordinates, these are the ones given. -/
theorem C151_arrays (eps : ℚ) (t : Topo) (g : Geo) (ht : t.type = "3DRectMesh" ∨ t.type = "2DRectMesh") (hg : g.type = "X_Y_Z") (c : Coords) :
    parseGeometry eps t g = .ok c ↔ ∃ x y z, Arrays "x" "y" "z" g.items x y z ∧ nodes c = [("x", x), ("y", y), ("z", z)] ∧
      c = .arrays [("x", x), ("y", y), ("z", z)] := by
  have key : ∀ a : String, ∀ ch : String, itemKey false a = ch.toList.map Char.toLower ↔ SameName a ch := fun _ _ => Iff.rfl
  have e : parseGeometry eps t g = match place false g.items [['x'], ['y'], ['z']] (fun _ => []) with
      | .error e => .error e
      | .ok got => .ok (.arrays [("x", got ['x']), ("y", got ['y']), ("z", got ['z'])]) := by
    unfold parseGeometry geometry
    rw [hg]
    simp only [show ("X_Y_Z" = "XYZ") = False by decide, show ("X_Y_Z" = "XY") = False by decide, if_false, if_true]
    have h1 : ¬ (t.type = "3DCoRectMesh" ∨ t.type = "2DCoRectMesh") := by rcases ht with h | h <;> rw [h] <;> decide
    cases place false g.items [['x'], ['y'], ['z']] (fun _ => []) with
    | error e => rfl
    | ok got =>
      simp only [if_neg h1, if_pos ht, rectCrds]
  have hx := place_xyz false g.items
  constructor
  · intro h
    rw [e] at h
    cases hp : place false g.items [['x'], ['y'], ['z']] (fun _ => []) with
    | error _ => rw [hp] at h; cases h
    | ok got =>
      rw [hp] at h
      cases h
      exact ⟨_, _, _, (hx _ _ _).1 ⟨got, hp, rfl, rfl, rfl⟩, rfl, rfl⟩
  · rintro ⟨x, y, z, ha, _, rfl⟩
    obtain ⟨got, hp, rfl, rfl, rfl⟩ := (hx x y z).2 ha
    rw [e, hp]

/-- three axes, the last first, and one with a capital letter -/
example : Arrays "x" "y" "z" [⟨some "z", .ok [7]⟩, ⟨some "X", .ok [1, 2, 4]⟩, ⟨some "y", .ok [5, 6]⟩] [1, 2, 4] [5, 6] [7] :=
  ⟨"X", "y", "z", by decide, by decide, by decide, (List.Perm.swap ..).trans ((List.Perm.swap ..).cons _)⟩

/-- C151: the same for arrays called `VX`, `VY` and `VZ`. Missing: names with a small `v`. -/
theorem C151_varrays_partial (eps : ℚ) (t : Topo) (g : Geo) (ht : t.type = "3DRectMesh" ∨ t.type = "2DRectMesh") (hg : g.type = "VXVYVZ")
    (x y z : List ℚ) (h : Arrays "VX" "VY" "VZ" g.items x y z) (hv : ∀ i ∈ g.items, ∀ n, i.name = some n → n.toList.head? = some 'V') :
    parseGeometry eps t g = .ok (.arrays [("x", x), ("y", y), ("z", z)]) := by
  obtain ⟨a, b, c, ha, hb, hc, hp⟩ := h
  have key : ∀ (n : String) (ch : Char) (nm : String), nm.toList = ['V', ch] → n.toList.head? = some 'V' → SameName n nm → ch.toLower ≠ 'v' →
      itemKey true n = [ch.toLower] := by
    intro n ch nm hnm hh hs hne
    unfold SameName at hs
    rw [hnm] at hs
    unfold itemKey
    cases hl : n.toList with
    | nil => rw [hl] at hh; cases hh
    | cons c1 l =>
      rw [hl] at hh hs
      simp only [List.head?_cons, Option.some.injEq] at hh
      subst hh
      match l, hs with
      | [c2], hs =>
        simp only [List.map_cons, List.map_nil, List.cons.injEq, and_true, true_and] at hs
        have h2 : c2 ≠ 'V' := by
          rintro rfl
          rw [← hs] at hne
          exact hne (by decide)
        simp [h2, hs]
      | [], hs => simp at hs
      | _ :: _ :: _, hs => simp at hs
  have hin : ∀ j ∈ [(⟨some a, .ok x⟩ : Item), ⟨some b, .ok y⟩, ⟨some c, .ok z⟩], j ∈ g.items := fun j hj => hp.symm.subset hj
  obtain ⟨got, hpl, rfl, rfl, rfl⟩ := (place_xyz true g.items x y z).2 ⟨a, b, c,
    key a 'X' _ rfl (hv _ (hin ⟨some a, .ok x⟩ (by simp)) _ rfl) ha (by decide), key b 'Y' _ rfl (hv _ (hin ⟨some b, .ok y⟩ (by simp)) _ rfl) hb (by decide),
    key c 'Z' _ rfl (hv _ (hin ⟨some c, .ok z⟩ (by simp)) _ rfl) hc (by decide), hp⟩
  unfold parseGeometry geometry
  rw [hg]
  have h1 : ¬ (t.type = "3DCoRectMesh" ∨ t.type = "2DCoRectMesh") := by rcases ht with h | h <;> rw [h] <;> decide
  simp only [show ("VXVYVZ" = "XYZ") = False by decide, show ("VXVYVZ" = "XY") = False by decide, show ("VXVYVZ" = "X_Y_Z") = False by decide, if_false,
    if_true, hpl, if_neg h1, if_pos ht, rectCrds]

/-- C151: with a small `v` the file cannot be read: a KeyError. -/
theorem C151_smallv_violated (eps : ℚ) (t : Topo) (x y z : List ℚ) :
    Arrays "VX" "VY" "VZ" [⟨some "vx", .ok x⟩, ⟨some "vy", .ok y⟩, ⟨some "vz", .ok z⟩] x y z ∧
    parseGeometry eps t ⟨"VXVYVZ", [⟨some "vx", .ok x⟩, ⟨some "vy", .ok y⟩, ⟨some "vz", .ok z⟩]⟩ = .error .key :=
  ⟨⟨"vx", "vy", "vz", by decide, by decide, by decide, .refl _⟩, rfl⟩

/-- C151: a uniform grid given by origin and spacing, as `z y x`: the nodes are the origin plus multiples of the spacing. -/
theorem C151_origin (eps : ℚ) (t : Topo) (g : Geo) (ox oy oz dx dy dz : ℚ) (nx ny nz : Nat) (no nd : Option String)
    (ht : t.type ∈ ["3DCoRectMesh", "3DRectMesh", "2DCoRectMesh", "2DRectMesh"]) (hd : t.dims = some [nz, ny, nx])
    (hg : g.type = "ORIGIN_DXDYDZ") (hi : g.items = [⟨no, .ok [oz, oy, ox]⟩, ⟨nd, .ok [dz, dy, dx]⟩]) :
    ∃ c, parseGeometry eps t g = .ok c ∧ nodes c = [("x", spacing ox dx nx), ("y", spacing oy dy ny), ("z", spacing oz dz nz)] := by
  refine ⟨.uniform [("x", ⟨ox, ox + ((nx : ℚ) - 1) * dx, nx⟩), ("y", ⟨oy, oy + ((ny : ℚ) - 1) * dy, ny⟩), ("z", ⟨oz, oz + ((nz : ℚ) - 1) * dz, nz⟩)], ?_, ?_⟩
  · unfold parseGeometry geometry spaced
    rw [hg, hd, hi]
    simp only [List.mem_cons, List.not_mem_nil, or_false] at ht
    rcases ht with h | h | h | h <;> rw [h] <;> rfl
  · simp only [nodes, List.map_cons, List.map_nil, linspace_spacing]

/-- C151: a uniform grid with full arrays, evenly spaced: these are the nodes. Missing: arrays that are not evenly spaced have to be refused. -/
theorem C151_even_partial (eps : ℚ) (he : 0 ≤ eps) (t : Topo) (g : Geo) (ox oy oz dx dy dz : ℚ) (nx ny nz : Nat)
    (ht : t.type = "3DCoRectMesh" ∨ t.type = "2DCoRectMesh") (hg : g.type = "X_Y_Z")
    (ha : Arrays "x" "y" "z" g.items (spacing ox dx nx) (spacing oy dy ny) (spacing oz dz nz)) :
    ∃ c, parseGeometry eps t g = .ok c ∧ nodes c = [("x", spacing ox dx nx), ("y", spacing oy dy ny), ("z", spacing oz dz nz)] := by
  obtain ⟨got, hp, hx, hy, hz⟩ := (place_xyz false g.items _ _ _).2 ha
  obtain ⟨ux, fx, lx⟩ := fullAxis_spacing eps ox dx nx he
  obtain ⟨uy, fy, ly⟩ := fullAxis_spacing eps oy dy ny he
  obtain ⟨uz, fz, lz⟩ := fullAxis_spacing eps oz dz nz he
  refine ⟨.uniform [("x", ux), ("y", uy), ("z", uz)], ?_, ?_⟩
  · unfold parseGeometry geometry
    rw [hg]
    simp only [show ("X_Y_Z" = "XYZ") = False by decide, show ("X_Y_Z" = "XY") = False by decide, if_false, if_true, hp, if_pos ht, hx, hy, hz,
      uniformCrds, fx, fy, fz]
  · simp only [nodes, List.map_cons, List.map_nil, lx, ly, lz]

/-- C151: arrays on a scale of 1e-9 are taken to be evenly spaced whatever they are: here the node at 1e-9 is moved to 5e-9. -/
theorem C151_uneven_violated :
    let x : List ℚ := [0, 1 / 1000000000, 10 / 1000000000]
    let g : Geo := ⟨"X_Y_Z", [⟨some "x", .ok x⟩, ⟨some "y", .ok [0]⟩, ⟨some "z", .ok [0]⟩]⟩
    Arrays "x" "y" "z" g.items x [0] [0] ∧
    (parseGeometry (1 / 2 ^ 52) ⟨"3DCoRectMesh", none⟩ g).map nodes = .ok [("x", [0, 5 / 1000000000, 10 / 1000000000]), ("y", [0]), ("z", [0])] :=
  ⟨⟨"x", "y", "z", by decide, by decide, by decide, .refl _⟩, by decide +kernel⟩

/-- C151: and arrays that are clearly not evenly spaced are a ValueError. -/
theorem C151_uneven_refused (eps : ℚ) (t : Topo) (g : Geo) (x y z : List ℚ) (ht : t.type = "3DCoRectMesh" ∨ t.type = "2DCoRectMesh")
    (hg : g.type = "X_Y_Z") (ha : Arrays "x" "y" "z" g.items x y z) (a b c : ℚ) (l : List ℚ) (hx : x = a :: b :: c :: l)
    (hu : |(b - a) - (c - b)| > 1 / 100000000 + 4 * eps * |c - b|) : parseGeometry eps t g = .error .value := by
  obtain ⟨got, hp, rfl, rfl, rfl⟩ := (place_xyz false g.items _ _ _).2 ha
  have hf : fullAxis eps (got ['x']) = .error .value := by
    unfold fullAxis
    rw [if_neg]
    rw [hx]
    simp only [diffs, allClose, List.length_cons, List.tail_cons, List.dropLast_cons₂, List.zipWith_cons_cons, List.headD_cons, List.all_cons,
      Bool.and_eq_true, not_and_or]
    rw [if_pos (by omega)]
    cases l with
    | nil =>
      simp only [List.dropLast_singleton, List.headD_cons, List.all_cons, Bool.and_eq_true, not_and_or, List.zipWith_cons_cons, List.zipWith_nil_left]
      right; left
      simpa using hu
    | cons _ _ =>
      simp only [List.dropLast_cons₂, List.headD_cons, List.all_cons, Bool.and_eq_true, not_and_or, List.zipWith_cons_cons]
      right; left
      simpa using hu
  unfold parseGeometry geometry
  rw [hg]
  simp only [show ("X_Y_Z" = "XYZ") = False by decide, show ("X_Y_Z" = "XY") = False by decide, if_false, if_true, hp, if_pos ht, uniformCrds, hf]

/-- such an array -/
example : |((1 : ℚ) - 0) - (3 - 1)| > 1 / 100000000 + 4 * (1 / 2 ^ 52) * |3 - 1| := by decide +kernel

/-- C151: two-dimensional grids cannot be read: not with two arrays, not with two origins and spacings, and not with ORIGIN_DXDY. -/
theorem C151_plane_violated (eps : ℚ) (x y : List ℚ) (ox oy dx dy : ℚ) (nx ny : Nat) :
    parseGeometry eps ⟨"2DRectMesh", some [ny, nx]⟩ ⟨"X_Y_Z", [⟨some "x", .ok x⟩, ⟨some "y", .ok y⟩]⟩ = .error .runtime ∧
    parseGeometry eps ⟨"2DCoRectMesh", some [ny, nx]⟩ ⟨"ORIGIN_DXDYDZ", [⟨none, .ok [oy, ox]⟩, ⟨none, .ok [dy, dx]⟩]⟩ = .error .index ∧
    parseGeometry eps ⟨"2DCoRectMesh", some [ny, nx]⟩ ⟨"ORIGIN_DXDY", [⟨none, .ok [oy, ox]⟩, ⟨none, .ok [dy, dx]⟩]⟩ = .error .notImplemented :=
  ⟨rfl, rfl, rfl⟩

/-- C151: without Dimensions a uniform grid is a KeyError, also if the file has NumberOfElements. -/
theorem C151_elements_violated (eps : ℚ) (ty : String) (o d : List ℚ) (no nd : Option String) (its : List Item) :
    parseGeometry eps ⟨ty, none⟩ ⟨"ORIGIN_DXDYDZ", ⟨no, .ok o⟩ :: ⟨nd, .ok d⟩ :: its⟩ = .error .key := rfl

/-- C151: a grid on a sphere has the coordinates of the whole sphere, whatever points the file gives. -/
theorem C151_sphere_violated (eps : ℚ) (ntheta nphi : Nat) (g : Geo) (h : ∀ e, geometry ⟨"2DSMesh", some [ntheta, nphi]⟩ g ≠ .error e) :
    (parseGeometry eps ⟨"2DSMesh", some [ntheta, nphi]⟩ g).map nodes =
      .ok [("phi", Crds.linspace 0 360 nphi), ("theta", Crds.linspace 0 180 ntheta)] := by
  unfold parseGeometry
  cases hg : geometry ⟨"2DSMesh", some [ntheta, nphi]⟩ g with
  | error e => exact absurd hg (h e)
  | ok f => rfl

/-- a sphere of which the file has one point only -/
example : ∀ e, geometry ⟨"2DSMesh", some [3, 5]⟩ ⟨"XYZ", [⟨none, .ok [1, 0, 0]⟩]⟩ ≠ .error e := by intro e h; cases h

/-- C151: rectangles given by points have no coordinates at all, but no error either. -/
theorem C151_points_violated (eps : ℚ) (dims : Option (List Nat)) (d : List ℚ) (n : Option String) (its : List Item) :
    (parseGeometry eps ⟨"3DRectMesh", dims⟩ ⟨"XYZ", ⟨n, .ok d⟩ :: its⟩).map nodes = .ok [] := rfl

/-- C151: all other topologies are refused, whatever their geometry. -/
theorem C151_refused (eps : ℚ) (t : Topo) (g : Geo) (ht : t.type ∉ ["3DCoRectMesh", "2DCoRectMesh", "3DRectMesh", "2DRectMesh", "2DSMesh"]) :
    ∃ e, parseGeometry eps t g = .error e ∧ (∀ f, geometry t g = .ok f → e = .notImplemented) := by
  simp only [List.mem_cons, List.not_mem_nil, or_false, not_or] at ht
  unfold parseGeometry
  cases hg : geometry t g with
  | error e => exact ⟨e, rfl, fun f h => by cases h⟩
  | ok f =>
    refine ⟨.notImplemented, ?_, fun _ _ => rfl⟩
    simp [ht]

/-- C151: exceptions of data items are not lost: one without a name is a KeyError, one that cannot be read is its own exception, also where the points are
not used; a Geometry of points without data items is an AttributeError. -/
theorem C151_item_errors (eps : ℚ) (t : Topo) (d : Except Exc (List ℚ)) (e : Exc) (n : String) (n' : Option String) (its : List Item) (ty : String)
    (hty : ty ∈ ["X_Y_Z", "VXVYVZ"]) (pts : String) (hp : pts ∈ ["XYZ", "XY"]) :
    parseGeometry eps t ⟨ty, ⟨none, d⟩ :: its⟩ = .error .key ∧
    parseGeometry eps t ⟨ty, ⟨some n, .error e⟩ :: its⟩ = .error e ∧
    parseGeometry eps t ⟨pts, ⟨n', .error e⟩ :: its⟩ = .error e ∧
    parseGeometry eps t ⟨pts, []⟩ = .error .attribute := by
  simp only [List.mem_cons, List.not_mem_nil, or_false] at hty hp
  rcases hty with rfl | rfl <;> rcases hp with rfl | rfl <;> exact ⟨rfl, rfl, rfl, rfl⟩

/-- C151: a GeometryType that is not known is like no geometry at all: rectangles have no coordinates, spheres the usual ones, and uniform grids are a
NotImplementedError. -/
theorem C151_unknown_violated (eps : ℚ) (dims : Option (List Nat)) (ntheta nphi : Nat) (g : Geo)
    (hg : g.type ∉ ["XYZ", "XY", "X_Y_Z", "VXVYVZ", "ORIGIN_DXDYDZ"]) :
    parseGeometry eps ⟨"3DRectMesh", dims⟩ g = .ok .empty ∧ parseGeometry eps ⟨"3DCoRectMesh", dims⟩ g = .error .notImplemented ∧
    parseGeometry eps ⟨"2DSMesh", some [ntheta, nphi]⟩ g = .ok (.uniform [("phi", ⟨0, 360, nphi⟩), ("theta", ⟨0, 180, ntheta⟩)]) := by
  simp only [List.mem_cons, List.not_mem_nil, or_false, not_or] at hg
  obtain ⟨h1, h2, h3, h4, h5⟩ := hg
  have e : ∀ t, geometry t g = .ok .nothing := by
    intro t
    unfold geometry
    rw [if_neg h1, if_neg h2, if_neg h3, if_neg h4, if_neg h5]
  unfold parseGeometry
  simp only [e]
  exact ⟨rfl, rfl, rfl⟩

example : "ORIGIN_DXDY" ∉ ["XYZ", "XY", "X_Y_Z", "VXVYVZ", "ORIGIN_DXDYDZ"] := by decide

/-- C151: a sphere needs two Dimensions. -/
theorem C151_sphere_dims (eps : ℚ) (g : Geo) (dims : Option (List Nat)) (f : Found) (h : geometry ⟨"2DSMesh", dims⟩ g = .ok f) (hd : ∀ a b, dims ≠ some [a, b]) :
    parseGeometry eps ⟨"2DSMesh", dims⟩ g = .error (if dims = none then .attribute else .value) := by
  unfold parseGeometry
  rw [h]
  match dims, hd with
  | none, _ => rfl
  | some [], _ => rfl
  | some [a], _ => rfl
  | some [a, b], hd => exact absurd rfl (hd a b)
  | some (a :: b :: c :: l), _ => rfl

example : geometry ⟨"2DSMesh", some [3]⟩ ⟨"", []⟩ = .ok .nothing := rfl

end Viscid.Props
