import Verif.Model.Lines2d
import Verif.Spec.Lines2d
import Verif.Props.PlotAxes
/-!
# C245: lines and points in a plane
-/
namespace Viscid.Props
open Viscid.Lines2d Viscid.Spec.PlotAxes Viscid.Spec.AsCotr Viscid.Spec.Lines2d
open Viscid.PlotAxes (Err xyzind)

namespace LD

theorem cull_spec (segs : List Seg) (n : Nat) : ∀ (k : Nat) (r : List Nat),
    2 ≤ ((List.range k).filter fun i => !still (segs.getD i ([], []))).length + r.length →
    cull segs k (List.range k ++ r) = ((List.range k).filter fun i => !still (segs.getD i ([], []))) ++ r
  | 0, r, _ => by simp [cull]
  | k + 1, r, h => by
    rw [cull]
    rw [List.range_succ, List.filter_append, List.length_append] at h
    split
    · by_cases hs : still (segs.getD k ([], [])) = true
      · have e1 : (List.range (k + 1) ++ r).eraseIdx k = List.range k ++ r := by
          rw [List.range_succ, List.append_assoc, List.eraseIdx_append_of_length_le (by simp)]
          simp
        have e2 : ([k].filter fun i => !still (segs.getD i ([], []))) = [] := by
          rw [List.filter_cons_of_neg (by simp only [hs]; decide), List.filter_nil]
        rw [if_pos hs, e1, cull_spec segs n k r (by rw [e2] at h; simpa using h)]
        rw [List.range_succ, List.filter_append, e2, List.append_nil]
      · have hs' : still (segs.getD k ([], [])) = false := by simpa using hs
        have e2 : ([k].filter fun i => !still (segs.getD i ([], []))) = [k] := by
          rw [List.filter_cons_of_pos (by simp only [hs']; decide), List.filter_nil]
        rw [if_neg hs, List.range_succ, List.append_assoc, cull_spec segs n k ([k] ++ r) (by rw [e2] at h; simp at h ⊢; omega)]
        rw [List.filter_append, e2, List.append_assoc]
    · rename_i hl
      simp only [List.length_append, List.length_range] at hl
      have hle := List.length_filter_le (fun i => !still (segs.getD i ([], []))) (List.range (k + 1))
      have hfl : ((List.range (k + 1)).filter fun i => !still (segs.getD i ([], []))).length = (List.range (k + 1)).length := by
        rw [List.length_range] at hle ⊢
        rw [List.range_succ, List.filter_append, List.length_append] at hle ⊢
        omega
      rw [List.filter_eq_self.2 (List.length_filter_eq_length_iff.1 hfl)]

/-- those that move -/
def moving (segs : List Seg) : List Nat := (List.range segs.length).filter fun i => !still (segs.getD i ([], []))

theorem cull_all (segs : List Seg) (h : 2 ≤ (moving segs).length) : cull segs segs.length (List.range segs.length) = moving segs := by
  have := cull_spec segs 0 segs.length [] (by simpa [moving] using h)
  simpa [moving] using this

theorem mapM_ok {α β : Type} (f : α → Except Err β) (g : α → β) : ∀ (l : List α), (∀ a ∈ l, f a = .ok (g a)) → l.mapM f = .ok (l.map g)
  | [], _ => rfl
  | a :: l, h => by
    rw [List.mapM_cons, h a (by simp), mapM_ok f g l fun b hb => h b (by simp [hb])]
    rfl

theorem still_iff (p q : List ℚ) : still (p, q) = false ↔ Moves p q := by
  unfold still Moves
  rw [List.all_eq_false]
  constructor
  · rintro ⟨b, hb, hf⟩
    obtain ⟨k, hk⟩ := List.getElem?_of_mem hb
    rw [List.getElem?_zipWith_eq_some] at hk
    obtain ⟨x, y, h1, h2, h3⟩ := hk
    refine ⟨k, x, y, h1, h2, ?_⟩
    by_contra hc
    exact hf (by rw [← h3]; simpa using not_lt.1 hc)
  · rintro ⟨k, x, y, h1, h2, h3⟩
    refine ⟨false, ?_, by simp⟩
    apply List.mem_of_getElem? (i := k)
    rw [List.getElem?_zipWith_eq_some]
    exact ⟨x, y, h1, h2, by rw [decide_eq_false]; exact not_le.2 h3⟩

theorem moving_all (segs : List Seg) (h : ∀ g ∈ segs, Moves g.1 g.2) : moving segs = List.range segs.length := by
  unfold moving
  rw [List.filter_eq_self]
  intro i hi
  have hi' : i < segs.length := by simpa using hi
  rw [List.getD_eq_getElem?_getD, List.getElem?_eq_getElem hi', Option.getD_some, (still_iff _ _).2 (h _ (List.getElem_mem hi'))]
  rfl

theorem moving_two (segs : List Seg) (i j : Nat) (hij : i < j) (hj : j < segs.length) (h : ∀ (k : Nat) (g : Seg), segs[k]? = some g → (Moves g.1 g.2 ↔ k = i ∨ k = j)) :
    moving segs = [i, j] := by
  have hmem : ∀ k, k ∈ moving segs ↔ k ∈ [i, j] := by
    intro k
    unfold moving
    rw [List.mem_filter, List.mem_range]
    simp only [List.mem_cons, List.not_mem_nil, or_false]
    constructor
    · rintro ⟨hk, hs⟩
      rw [List.getD_eq_getElem?_getD, List.getElem?_eq_getElem hk, Option.getD_some] at hs
      exact (h k _ (List.getElem?_eq_getElem hk)).1 ((still_iff _ _).1 (by simpa using hs))
    · intro hk
      have hk' : k < segs.length := by omega
      refine ⟨hk', ?_⟩
      rw [List.getD_eq_getElem?_getD, List.getElem?_eq_getElem hk', Option.getD_some, (still_iff _ _).2 ((h k _ (List.getElem?_eq_getElem hk')).2 hk)]
      rfl
  have hs1 : (moving segs).Pairwise (· < ·) := List.pairwise_lt_range.filter _
  have hs2 : [i, j].Pairwise (· < ·) := by simpa using hij
  exact List.Perm.eq_of_pairwise (fun a b _ _ h1 h2 => absurd h1 (Nat.lt_asymm h2)) hs1 hs2
    ((List.perm_ext_iff_of_nodup (hs1.imp Nat.ne_of_lt) (hs2.imp Nat.ne_of_lt)).2 hmem)

end LD

/-- C245: points are drawn in the plane across the direction that is named, the axes in order and labelled; or exchanged if asked. -/
theorem C245_points (x y z : List ℚ) (s u : List Char) (hs : Name s u) :
    (u = ['x'] → scatter2d [x, y, z] s false = .ok ((y, z), ('y', 'z')) ∧ scatter2d [x, y, z] s true = .ok ((z, y), ('z', 'y'))) ∧
    (u = ['y'] → scatter2d [x, y, z] s false = .ok ((x, z), ('x', 'z')) ∧ scatter2d [x, y, z] s true = .ok ((z, x), ('z', 'x'))) ∧
    (u = ['z'] → scatter2d [x, y, z] s false = .ok ((x, y), ('x', 'y')) ∧ scatter2d [x, y, z] s true = .ok ((y, x), ('y', 'x'))) := by
  obtain ⟨h1, h2, h3, -⟩ := C219_named [x, y, z] s u hs (by simp)
  refine ⟨fun h => ?_, fun h => ?_, fun h => ?_⟩
  · unfold scatter2d; rw [h1 h]; exact ⟨rfl, rfl⟩
  · unfold scatter2d; rw [h2 h]; exact ⟨rfl, rfl⟩
  · unfold scatter2d; rw [h3 h]; exact ⟨rfl, rfl⟩

/-- C245: lines are drawn in the plane across the direction that is named if there are three segments or more. Missing: fewer segments, and lines without
a name, see the following theorems. -/
theorem C245_lines_partial (segs : List ((ℚ × ℚ × ℚ) × (ℚ × ℚ × ℚ))) (h3 : 3 ≤ segs.length) (s u : List Char) (hs : Name s u) :
    let l := segs.map fun g => ([g.1.1, g.1.2.1, g.1.2.2], [g.2.1, g.2.2.1, g.2.2.2])
    (u = ['x'] → lines2d l s false = .ok (segs.map fun g => ((g.1.2.1, g.1.2.2), (g.2.2.1, g.2.2.2)))) ∧
    (u = ['y'] → lines2d l s false = .ok (segs.map fun g => ((g.1.1, g.1.2.2), (g.2.1, g.2.2.2)))) ∧
    (u = ['z'] → lines2d l s false = .ok (segs.map fun g => ((g.1.1, g.1.2.1), (g.2.1, g.2.2.1)))) ∧
    (u = ['z'] → lines2d l s true = .ok (segs.map fun g => ((g.1.2.1, g.1.1), (g.2.2.1, g.2.1)))) := by
  intro l
  have e := (AC.clean_iff s u).2 hs
  have hl : ¬ l.length < 3 := by simp only [l, List.length_map]; omega
  refine ⟨?_, ?_, ?_, ?_⟩ <;> rintro rfl
  · have h : segInd l s = .ok (1, 2, some 0) := by unfold segInd; simp [e, hl]
    unfold lines2d
    rw [h]
    simp only [Bool.false_eq_true, if_false, l, List.mapM_map]
    exact LD.mapM_ok _ _ _ fun g _ => rfl
  · have h : segInd l s = .ok (0, 2, some 1) := by unfold segInd; simp [e, hl]
    unfold lines2d
    rw [h]
    simp only [Bool.false_eq_true, if_false, l, List.mapM_map]
    exact LD.mapM_ok _ _ _ fun g _ => rfl
  · have h : segInd l s = .ok (0, 1, some 2) := by unfold segInd; simp [e, hl]
    unfold lines2d
    rw [h]
    simp only [Bool.false_eq_true, if_false, l, List.mapM_map]
    exact LD.mapM_ok _ _ _ fun g _ => rfl
  · have h : segInd l s = .ok (0, 1, some 2) := by unfold segInd; simp [e, hl]
    unfold lines2d
    rw [h]
    simp only [if_true, l, List.mapM_map]
    exact LD.mapM_ok _ _ _ fun g _ => rfl

/-- C245 is violated: a direction that is named is refused if all the lines together have one or two segments. -/
theorem C245_short_violated (segs : List Seg) (h3 : segs.length < 3) (s u : List Char) (hs : Name s u) (hu : u ≠ []) (flip : Bool) :
    lines2d segs s flip = .error .value := by
  have e := (AC.clean_iff s u).2 hs
  unfold lines2d segInd
  simp only [e]
  rw [if_pos hu, if_pos h3]

/-- C245 is violated: without a name, lines with three segments or more, none of them of no length, are drawn by their x and y, in whichever plane they are; lines in a plane
of constant y are all on one straight line. -/
theorem C245_plane_violated (segs : List ((ℚ × ℚ × ℚ) × (ℚ × ℚ × ℚ))) (s : List Char) (hs : ∀ c ∈ s, Blank c) :
    let l := segs.map fun g => ([g.1.1, g.1.2.1, g.1.2.2], [g.2.1, g.2.2.1, g.2.2.2])
    3 ≤ segs.length → (∀ g ∈ l, Moves g.1 g.2) →
    lines2d l s false = .ok (segs.map fun g => ((g.1.1, g.1.2.1), (g.2.1, g.2.2.1))) ∧
    ∀ c, (∀ g ∈ segs, g.1.2.1 = c ∧ g.2.2.1 = c) → ∃ out, lines2d l s false = .ok out ∧ ∀ o ∈ out, o.1.2 = c ∧ o.2.2 = c := by
  intro l h3 hmv
  have hm : 3 ≤ (LD.moving l).length := by rw [LD.moving_all l hmv]; simpa [l] using h3
  have e : AsCotr.clean s = [] := PA.clean_blank s hs
  have hc := LD.cull_all l (by omega)
  have h1 : lines2d l s false = .ok (segs.map fun g => ((g.1.1, g.1.2.1), (g.2.1, g.2.2.1))) := by
    unfold lines2d segInd
    simp only [e]
    rw [if_neg (by simp), hc]
    match hmv : LD.moving l, hm with
    | a :: b :: c :: r, _ =>
      simp only [Bool.false_eq_true, if_false, l, List.mapM_map]
      exact LD.mapM_ok _ _ _ fun g _ => rfl
  refine ⟨h1, fun c h => ⟨_, h1, fun o ho => ?_⟩⟩
  obtain ⟨g, hg, rfl⟩ := List.mem_map.1 ho
  exact h g hg

/-- C245 is violated: one segment is drawn by its x only, for both axes. -/
theorem C245_single_violated (p q : ℚ × ℚ × ℚ) (s : List Char) (hs : ∀ c ∈ s, Blank c) (flip : Bool) :
    lines2d [([p.1, p.2.1, p.2.2], [q.1, q.2.1, q.2.2])] s flip = .ok [((p.1, p.1), (q.1, q.1))] := by
  have e : AsCotr.clean s = [] := PA.clean_blank s hs
  unfold lines2d segInd
  simp only [e]
  rw [if_neg (by simp)]
  cases flip <;> rfl

/-- C245 is violated: if two segments move, and one of them is not among the first three, drawing them is an IndexError. -/
theorem C245_index_violated (segs : List Seg) (i j : Nat) (hij : i < j) (hjl : j < segs.length) (hmv : ∀ (k : Nat) (g : Seg), segs[k]? = some g → (Moves g.1 g.2 ↔ k = i ∨ k = j)) (hj : 3 ≤ j) (h3 : ∀ g ∈ segs, g.1.length = 3) (s : List Char) (hs : ∀ c ∈ s, Blank c) :
    lines2d segs s false = .error .index := by
  have h := LD.moving_two segs i j hij hjl hmv
  have e : AsCotr.clean s = [] := PA.clean_blank s hs
  have hc := LD.cull_all segs (by rw [h]; simp)
  have hne : segs ≠ [] := by rintro rfl; simp [LD.moving] at h
  unfold lines2d segInd
  simp only [e]
  rw [if_neg (by simp), hc, h]
  simp only [Bool.false_eq_true, if_false]
  obtain ⟨g, l, rfl⟩ : ∃ g l, segs = g :: l := by
    cases segs with
    | nil => exact absurd rfl hne
    | cons g l => exact ⟨g, l, rfl⟩
  have hg : g.1[j]? = none := List.getElem?_eq_none (by rw [h3 g (by simp)]; exact hj)
  have hp : pick i j g.1 = .error .index := by
    unfold pick
    rw [hg]
    cases g.1[i]? <;> rfl
  rw [List.mapM_cons, hp]
  rfl

/-- The hypotheses of C245 are met. -/
example : LD.moving [([0, 0, 0], [1, 0, 0]), ([1, 0, 0], [2, 0, 1]), ([2, 0, 1], [3, 0, 5])] = [0, 1, 2] := by decide +kernel
example : LD.moving [([0, 0, 0], [1, 0, 0]), ([1, 0, 0], [1, 0, 0]), ([1, 0, 0], [1, 0, 0]), ([1, 0, 0], [3, 0, 5])] = [0, 3] := by decide +kernel

end Viscid.Props
