import Verif.Model.LineColors
/-!
# C259: colours and markers of lines in plots, and the choice of a plot
-/
namespace Viscid.Spec.LineColors
open Viscid.LineColors (Pt Val)

/-- the first of two that is there -/
def orElse {α : Type} : Option α → Option α → Option α
  | some a, _ => some a
  | none, b => b

/-- a point in the plane of two directions -/
def seen (x y : Fin 3) (flip : Bool) (p : Pt) : ℚ × ℚ := if flip then (p y, p x) else (p x, p y)

end Viscid.Spec.LineColors

namespace Viscid.Props
open Viscid.LineColors Viscid.Spec.LineColors

namespace LC

theorem find_add {C : Type} (d : Dict C) (k k' : String) (v : Val C) :
    (d.add k v).find k' = orElse (d.find k') (if k' = k then some v else none) := by
  unfold Dict.add Dict.find
  rw [List.lookup_append]
  cases h : List.lookup k' d with
  | some w => simp [orElse]
  | none =>
    by_cases hk : k' = k
    · subst hk; simp [orElse, List.lookup]
    · have e : (k' == k) = false := by simp [hk]
      simp [orElse, List.lookup, hk, e]

theorem color_find {C : Type} (vc : Option (List C)) (vs : Option (List ℚ)) (mk : Dict C) (k : String) :
    (markerColor vc vs mk).find k =
      if k = "c" then orElse (mk.find "c") (orElse (vc.map .colors) (vs.map .nums)) else mk.find k := by
  unfold markerColor
  cases hc : mk.find "c" with
  | some v =>
    simp only [reduceCtorEq, if_false]
    split
    · next h => subst h; simp [hc, orElse]
    · rfl
  | none =>
    simp only [if_true]
    cases vc with
    | some l =>
      simp only [find_add]
      split
      · next h => subst h; simp [hc, orElse]
      · cases mk.find k <;> simp [orElse]
    | none =>
      cases vs with
      | some l =>
        simp only [find_add]
        split
        · next h => subst h; simp [hc, orElse]
        · cases mk.find k <;> simp [orElse]
      | none =>
        simp only [Option.map_none, orElse]
        split
        · next h => subst h; exact hc
        · rfl

theorem share_find {C : Type} (kwargs : Dict C) (names : List String) (mk : Dict C) (k : String) :
    (markerShare kwargs names mk).find k = if k ∈ names then orElse (mk.find k) (kwargs.find k) else mk.find k := by
  induction names generalizing mk with
  | nil => simp [markerShare]
  | cons n ns ih =>
    rw [markerShare, ih]
    by_cases hk : k = n
    · subst hk
      cases h1 : kwargs.find k with
      | none =>
        simp only [List.mem_cons, true_or, if_true, share1, h1]
        split <;> cases mk.find k <;> rfl
      | some v =>
        cases h2 : mk.find k with
        | none => simp [find_add, h1, h2, orElse, share1]
        | some w => simp [h1, h2, orElse, share1]
    · have e : (share1 kwargs n mk).find k = mk.find k := by
        unfold share1
        cases kwargs.find n <;> cases mk.find n <;> simp [find_add, hk]
        cases mk.find k <;> rfl
      rw [e]
      simp [hk]

/-- the options of the markers -/
theorem finish_marker {α C : Type} (lines : Lines α C) (verts : List α) (vc : Option (List C)) (vs : Option (List ℚ)) (kwargs mk : Dict C) :
    ∃ d, finish lines verts vc vs true kwargs mk = ⟨lines, some (verts, d), none, if mk = [] then [] else d⟩ ∧
      ∀ k, d.find k = if k = "c" then orElse (mk.find "c") (orElse (vc.map .colors) (vs.map .nums))
        else if k ∈ ["cmap", "norm", "vmin", "vmax"] then orElse (mk.find k) (kwargs.find k) else mk.find k := by
  refine ⟨_, by simp only [finish, if_true]; rfl, fun k => ?_⟩
  rw [share_find, color_find]
  by_cases hk : k = "c"
  · subst hk; simp
  · simp only [hk, if_false]

end LC
open LC

variable {C : Type}

/-- **C259, lines in a plane.** Every segment is drawn, in order, where it is in the plane (or the flipped one); the numbers for
    its colour are those of the scalars, and the colours those given, or else those of the scalars. -/
theorem C259_lines (prep : Prep C) (x y : Fin 3) (z : Option (Fin 3)) (flip marker : Bool) (colors : Option (Val C)) (kwargs mk : Dict C) :
    ∃ d, plot2dLines prep (x, y, z) flip (match colors with | none => .unset | some v => .given v) marker kwargs mk = .ok d ∧
      d.lines.segments = prep.segments.map (fun s => (seen x y flip s.1, seen x y flip s.2)) ∧
      d.lines.array = prep.segScalars ∧ d.lines.colors = orElse colors (prep.segColors.map .colors) ∧
      (d.scatter.map Prod.fst = if marker then some (prep.verts.map (seen x y flip)) else none) ∧
      (d.limits = if marker then none else some (prep.verts.map (seen x y flip))) ∧ (marker = false → d.caller = mk) := by
  cases colors <;> cases flip <;> cases marker <;>
    exact ⟨_, rfl, rfl, rfl, rfl, rfl, rfl, fun h => by first | rfl | cases h⟩

/-- **C259, place as colour.** With `colors='zloc'` (or `scalars='zloc'`) the number for the colour of a segment is the third
    coordinate of its first point; without a third direction AssertionError is raised. -/
theorem C259_zloc (prep : Prep C) (x y : Fin 3) (z : Fin 3) (flip marker : Bool) (colors : Colors C) (kwargs mk : Dict C) :
    (∃ d, plot2dLines prep (x, y, some z) flip (colorsOf true colors) marker kwargs mk = .ok d ∧
      d.lines.segments = prep.segments.map (fun s => (seen x y flip s.1, seen x y flip s.2)) ∧
      d.lines.array = some (prep.segments.map fun s => s.1 z) ∧
      (marker = true → mk.find "c" = none → prep.vertColors = none →
        ∃ m, d.scatter = some (prep.verts.map (seen x y flip), m) ∧ m.find "c" = some (.nums (prep.verts.map fun p => p z)))) ∧
    plot2dLines prep (x, y, none) flip (colorsOf true colors) marker kwargs mk = .error .assertion := by
  refine ⟨?_, rfl⟩
  simp only [colorsOf, if_true, plot2dLines]
  refine ⟨_, rfl, ?_, ?_, ?_⟩
  · cases marker <;> cases flip <;> rfl
  · cases marker <;> rfl
  · rintro rfl hc hv
    generalize (⟨_, _, _⟩ : Lines (ℚ × ℚ) C) = lines
    obtain ⟨d, h1, h2⟩ := finish_marker lines (prep.verts.map (plane (if flip = true then (y, x) else (x, y)).1 (if flip = true then (y, x) else (x, y)).2))
      prep.vertColors (some (prep.verts.map fun p => p z)) kwargs mk
    rw [h1]
    refine ⟨d, ?_, ?_⟩
    · cases flip <;> rfl
    · rw [h2]; simp [hc, hv, orElse]

/-- **C259, markers.** Markers are at the vertices. Their colours are those of their own options, else the colours, else the
    numbers of the vertices; the map of colours and its limits are their own, else those of the lines; all other options are
    their own. -/
theorem C259_markers (prep : Prep C) (x y : Fin 3) (z : Option (Fin 3)) (flip : Bool) (kwargs mk : Dict C) :
    ∃ d m, plot2dLines prep (x, y, z) flip .unset true kwargs mk = .ok d ∧ d.scatter = some (prep.verts.map (seen x y flip), m) ∧
      m.find "c" = orElse (mk.find "c") (orElse (prep.vertColors.map .colors) (prep.vertScalars.map .nums)) ∧
      (∀ k ∈ ["cmap", "norm", "vmin", "vmax"], m.find k = orElse (mk.find k) (kwargs.find k)) ∧
      (∀ k, k ∉ ["c", "cmap", "norm", "vmin", "vmax"] → m.find k = mk.find k) := by
  simp only [plot2dLines]
  generalize (⟨_, _, _⟩ : Lines (ℚ × ℚ) C) = lines
  obtain ⟨d, h1, h2⟩ := finish_marker lines (prep.verts.map (plane (if flip = true then (y, x) else (x, y)).1 (if flip = true then (y, x) else (x, y)).2))
      prep.vertColors prep.vertScalars kwargs mk
  rw [h1]
  refine ⟨_, d, rfl, ?_, ?_, fun k hk => ?_, fun k hk => ?_⟩
  · cases flip <;> rfl
  · rw [h2]; simp
  · rw [h2, if_neg (by rintro rfl; simp at hk), if_pos hk]
  · rw [h2]
    simp only [List.mem_cons, not_or] at hk
    rw [if_neg hk.1, if_neg (by simp only [List.mem_cons, not_or]; exact hk.2)]

/-- **C259, lines in space.** As in the plane, with all three coordinates. -/
theorem C259_space (prep : Prep C) (colors : Option (Val C)) (kwargs mk : Dict C) (marker : Bool) :
    (plot3dLines prep (match colors with | none => .unset | some v => .given v) marker kwargs mk).lines =
      ⟨prep.segments, prep.segScalars, orElse colors (prep.segColors.map .colors)⟩ ∧
    (∃ m, (plot3dLines prep (match colors with | none => .unset | some v => .given v) true kwargs mk).scatter = some (prep.verts, m) ∧
      m.find "c" = orElse (mk.find "c") (orElse (prep.vertColors.map .colors) (prep.vertScalars.map .nums)) ∧
      (∀ k ∈ ["cmap", "norm", "vmin", "vmax"], m.find k = orElse (mk.find k) (kwargs.find k)) ∧
      (∀ k, k ∉ ["c", "cmap", "norm", "vmin", "vmax"] → m.find k = mk.find k)) ∧
    (plot3dLines prep (match colors with | none => .unset | some v => .given v) false kwargs mk).limits = some prep.verts := by
  refine ⟨by cases colors <;> cases marker <;> rfl, ?_, by cases colors <;> rfl⟩
  simp only [plot3dLines]
  generalize (⟨_, _, _⟩ : Lines Pt C) = lines
  obtain ⟨d, h1, h2⟩ := finish_marker lines prep.verts prep.vertColors prep.vertScalars kwargs mk
  rw [h1]
  refine ⟨d, rfl, ?_, fun k hk => ?_, fun k hk => ?_⟩
  · rw [h2]; simp
  · rw [h2, if_neg (by rintro rfl; simp at hk), if_pos hk]
  · rw [h2]
    simp only [List.mem_cons, not_or] at hk
    rw [if_neg hk.1, if_neg (by simp only [List.mem_cons, not_or]; exact hk.2)]

/-- **C259 fails** for explicit colours and markers: markers are not drawn in the colours that are given, but as without them. -/
theorem C259_colors_violated (prep : Prep C) (x y : Fin 3) (z : Option (Fin 3)) (flip : Bool) (v : Val C) (kwargs mk : Dict C) :
    ∃ d e, plot2dLines prep (x, y, z) flip (.given v) true kwargs mk = .ok d ∧ plot2dLines prep (x, y, z) flip .unset true kwargs mk = .ok e ∧
      d.lines.colors = some v ∧ d.scatter = e.scatter := by
  cases flip <;> exact ⟨_, _, rfl, rfl, rfl, rfl⟩

/-- **C259 fails** for options of markers that are used twice: the markers of the second plot have the colours of the first. -/
theorem C259_markers_violated (p q : Prep C) (x y x' y' : Fin 3) (z z' : Option (Fin 3)) (flip flip' : Bool) (kwargs kwargs' mk : Dict C)
    (l : List C) (hm : mk ≠ []) (hc : mk.find "c" = none) (hp : p.vertColors = some l) :
    ∃ d e, plot2dLines p (x, y, z) flip .unset true kwargs mk = .ok d ∧ plot2dLines q (x', y', z') flip' .unset true kwargs' d.caller = .ok e ∧
      ∃ m, e.scatter = some (q.verts.map (seen x' y' flip'), m) ∧ m.find "c" = some (.colors l) := by
  obtain ⟨d, m, h1, h2, h3, -⟩ := C259_markers p x y z flip kwargs mk
  have hcaller : d.caller.find "c" = some (.colors l) := by
    simp only [plot2dLines] at h1
    generalize (⟨_, _, _⟩ : Lines (ℚ × ℚ) C) = lines at h1
    obtain ⟨m', k1, k2⟩ := finish_marker lines (p.verts.map (plane (if flip = true then (y, x) else (x, y)).1 (if flip = true then (y, x) else (x, y)).2))
      p.vertColors p.vertScalars kwargs mk
    rw [k1] at h1
    injection h1 with h1
    rw [← h1]
    simp only [hm, if_false]
    rw [k2]; simp [hc, hp, orElse]
  obtain ⟨e, m', e1, e2, e3, -⟩ := C259_markers q x' y' z' flip' kwargs' d.caller
  exact ⟨d, e, h1, e1, m', e2, by rw [e3, hcaller]; rfl⟩

/-- Options that meet the conditions. -/
example : ([("s", .other 5)] : Dict Nat) ≠ [] ∧ Dict.find (C := Nat) [("s", .other 5)] "c" = none := by
  constructor
  · simp
  · rfl

/-- **C259, points.** `scatter_2d` and `scatter_3d` colour points as told, or by the third coordinate. -/
theorem C259_scatter (points : List Pt) (z : Fin 3) (c : Val C) (oz : Option (Fin 3)) :
    scatter2dColor points oz (some c) = .ok c ∧ scatter2dColor (C := C) points (some z) none = .ok (.nums (points.map fun p => p z)) ∧
    scatter2dColor (C := C) points none none = .error .runtime ∧
    scatter3d points (some c) = ((points.map (· 0), points.map (· 1), points.map (· 2)), c) ∧
    (scatter3d (C := C) points none).2 = .nums (points.map (· 2)) := ⟨by cases oz <;> rfl, rfl, rfl, rfl, rfl⟩

/-- **C259, choice.** `plot` of a field of one component draws a line if one dimension is left, and a plane if two are, on a
    map for spherical coordinates unless `force_cartesian`; numbers and vectors raise TypeError, all else ValueError. -/
theorem C259_choice (fld : Option Sliced) (force : Bool) :
    (plot fld force = .ok .line ↔ ∃ f, fld = some f ∧ f.comps ≤ 1 ∧ f.sdims = 1) ∧
    (plot fld force = .ok .map ↔ ∃ f, fld = some f ∧ f.comps ≤ 1 ∧ f.sdims = 2 ∧ f.spherical = true ∧ force = false) ∧
    (plot fld force = .ok .plane ↔ ∃ f, fld = some f ∧ f.comps ≤ 1 ∧ f.sdims = 2 ∧ (f.spherical = false ∨ force = true)) ∧
    (plot fld force = .error .type ↔ ∀ f, fld = some f → f.comps > 1) ∧
    (plot fld force = .error .value ↔ ∃ f, fld = some f ∧ f.comps ≤ 1 ∧ f.sdims ≠ 1 ∧ f.sdims ≠ 2) := by
  cases fld with
  | none => simp [plot]
  | some f =>
    simp only [plot, Option.some.injEq, exists_eq_left', forall_eq']
    by_cases h1 : f.comps > 1
    · have : ¬ f.comps ≤ 1 := by omega
      simp [h1, this]
    · have h1' : f.comps ≤ 1 := by omega
      by_cases h2 : f.sdims = 1
      · simp [h1, h1', h2]
      · by_cases h3 : f.sdims = 2
        · cases hs : f.spherical <;> cases force <;> simp [h1, h1', h3]
        · simp [h1, h1', h2, h3]

end Viscid.Props
