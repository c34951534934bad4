import Verif.Model.Quiver
import Verif.Spec.Quiver
import Verif.Lemmas.Crds
import Mathlib.Tactic.ByContra
/-!
# C239: arrows of a vector field in a plane
-/
namespace Viscid.Props
open Viscid.Quiver
open Viscid.Crds (Axis pySlice)
open Viscid.Spec.Slice (pyIndices pyRange rangeLen ap)

namespace QV

/-- how many -/
def cnt (n a s : Nat) : Nat := if a < n then (n - a - 1) / s + 1 else 0

theorem cnt_lt (n a s : Nat) (hs : 0 < s) (k : Nat) : k < cnt n a s ↔ a + k * s < n := by
  unfold cnt
  split
  · rename_i h
    rw [Nat.lt_add_one_iff, Nat.le_div_iff_mul_le hs]
    omega
  · rename_i h
    have : 0 ≤ k * s := Nat.zero_le _
    omega

theorem indices (n a s : Nat) (hs : 0 < s) :
    (pyIndices n (some (a : Int)) none s).map Int.toNat = (List.range (cnt n a s)).map fun k => a + k * s := by
  have h1 : ((s : Int) > 0) := by omega
  unfold pyIndices
  rw [if_pos h1]
  simp only [Option.elim_some, Option.elim_none, Spec.Slice.clampIdx]
  rw [if_neg (by omega)]
  by_cases h : a < n
  · rw [Int.min_eq_left (by omega)]
    have hc : rangeLen (a : Int) n s = cnt n a s := by
      unfold rangeLen cnt
      rw [if_pos h1, if_pos (by omega), if_pos h]
      rw [show ((n : Int) - a - 1) = ((n - a - 1 : Nat) : Int) by omega, ← Int.natCast_ediv]
      generalize (n - a - 1) / s = q
      omega
    unfold pyRange ap
    rw [hc, List.map_map]
    apply List.map_congr_left
    intro k _
    show ((a : Int) + k * s).toNat = _
    rw [← Int.natCast_mul, ← Int.natCast_add, Int.toNat_natCast]
  · rw [Int.min_eq_right (by omega)]
    have h2 : rangeLen (n : Int) n s = 0 := by unfold rangeLen; rw [if_pos h1, if_neg (by omega)]
    have h3 : cnt n a s = 0 := by unfold cnt; rw [if_neg h]
    unfold pyRange ap
    rw [h2, h3]; rfl

theorem slice_eq (l : List ℚ) (a s : Nat) (hs : 0 < s) :
    pySlice l ⟨some (a : Int), none, some (s : Int)⟩ = (List.range (cnt l.length a s)).map fun k => l.getD (a + k * s) 0 := by
  unfold pySlice
  simp only [Option.getD_some]
  have := congrArg (List.map fun i : Nat => l.getD i 0) (indices l.length a s hs)
  rw [List.map_map, List.map_map] at this
  exact this

theorem slice_all (l : List ℚ) : pySlice l ⟨some ((0 : Nat) : Int), none, some ((1 : Nat) : Int)⟩ = l := by
  rw [slice_eq l 0 1 (by omega)]
  apply List.ext_getElem?
  intro k
  have hc : cnt l.length 0 1 = l.length := by unfold cnt; split <;> omega
  rw [hc, List.getElem?_map]
  by_cases h : k < l.length
  · rw [List.getElem?_range h, List.getElem?_eq_getElem h]
    simp [List.getD_eq_getElem?_getD, h]
  · simp [List.getElem?_eq_none (show l.length ≤ k by omega), List.getElem?_eq_none (show (List.range l.length).length ≤ k by simp; omega)]

/-- the points of a slice are the slice of the points -/
theorem slice_pts (a : Axis) (cc : Bool) (hcc : cc = true → a.cc = none) (h1 : 1 ≤ (pts cc a).length) (h2 : cc = true → a.nodes.length = (pts cc a).length + 1)
    (s : Nat) (hs : 0 < s) :
    ∃ b, a.slice cc ⟨some (first (pts cc a).length s : Int), none, some (s : Int)⟩ = some b ∧
      pts cc b = pySlice (pts cc a) ⟨some (first (pts cc a).length s : Int), none, some (s : Int)⟩ := by
  have hf : first (pts cc a).length s < (pts cc a).length := by
    unfold first
    have := Nat.mod_le (pts cc a).length s
    omega
  cases cc with
  | false =>
    refine ⟨⟨pySlice a.nodes ⟨some (first (pts false a).length s : Int), none, some (s : Int)⟩, none, false⟩, ?_, rfl⟩
    unfold Axis.slice
    rw [if_neg (by simp; omega), if_neg (by simp)]
  | true =>
    by_cases h : s = 1
    · subst h
      have e0 : first (pts true a).length 1 = 0 := by unfold first; omega
      rw [e0, slice_all]
      refine ⟨⟨a.nodes, none, false⟩, ?_, ?_⟩
      · unfold Axis.slice
        rw [if_neg (by simp), if_neg (by simp)]
        simp only
        rw [slice_all]
      · have e : ∀ x : Axis, pts true x = x.centres := fun x => by unfold pts; rw [if_pos rfl]
        rw [e, e]
        unfold Axis.centres
        rw [hcc rfl]
        rfl
    · unfold Axis.slice
      rw [if_neg (by simp; omega), if_pos ⟨rfl, by simp, by simpa using h, by simp⟩]
      simp only [Option.getD_some]
      rw [if_pos (by omega)]
      generalize first (pts true a).length s = q at hf
      have hne : pySlice a.nodes ⟨some (q : Int), none, some ((1 : Nat) : Int)⟩ ≠ [] := by
        rw [slice_eq _ _ _ (by omega)]
        intro h0
        have h0 := List.map_eq_nil_iff.1 h0
        rw [List.range_eq_nil] at h0
        have := (cnt_lt a.nodes.length q 1 (by omega) 0).2 (by have := h2 rfl; omega)
        omega
      have e1 : (1 : Int) = ((1 : Nat) : Int) := rfl
      rw [e1]
      generalize pySlice a.nodes ⟨some (q : Int), none, some ((1 : Nat) : Int)⟩ = L at hne
      cases L with
      | nil => exact absurd rfl hne
      | cons x L =>
        have : ∃ y, (x :: L).getLast? = some y := ⟨_, List.getLast?_eq_some_getLast (by simp)⟩
        obtain ⟨y, hy⟩ := this
        rw [List.head?_cons, hy]
        exact ⟨_, rfl, rfl⟩

end QV

/-- C239: if the components are last, arrows are at every `sl`th and `sm`th point, where the points are, with the components there; there is at
least one along each axis, and no more than `sl - 1` and `sm - 1` points are left out at either end.
Missing: components first, see the next theorem. -/
theorem C239_arrows_partial {α : Type} (f : Fld α) (sl sm : Nat) (hsl : 0 < sl) (hsm : 0 < sm) (hflat : f.flat = false)
    (hcl : f.cc = true → f.l.cc = none ∧ f.l.nodes.length = f.l.centres.length + 1) (hcm : f.cc = true → f.m.cc = none ∧ f.m.nodes.length = f.m.centres.length + 1)
    (hl : 1 ≤ (pts f.cc f.l).length) (hm : 1 ≤ (pts f.cc f.m).length) :
    ∃ (rows : List (List (ℚ × ℚ × α × α))) (a b c d : Nat) (i j : Nat → Nat), quiver f [sl, sm] = some rows ∧
      Spec.Quiver.Every a sl (pts f.cc f.l).length i c ∧ Spec.Quiver.Every b sm (pts f.cc f.m).length j d ∧
      rows.length = c ∧ 0 < c ∧ 0 < d ∧ a < sl ∧ b < sm ∧ ∀ k : Nat, k < c → ∃ row, rows[k]? = some row ∧ row.length = d ∧
        ∀ k' : Nat, k' < d → ∃ x y, (pts f.cc f.l)[i k]? = some x ∧ (pts f.cc f.m)[j k']? = some y ∧
          row[k']? = some (x, y, f.vl (i k) (j k'), f.vm (i k) (j k')) := by
  set nl := (pts f.cc f.l).length with hnl
  set nm := (pts f.cc f.m).length with hnm
  have hcl2 : f.cc = true → f.l.nodes.length = (pts f.cc f.l).length + 1 := fun h => by rw [(hcl h).2, h]; rfl
  have hcm2 : f.cc = true → f.m.nodes.length = (pts f.cc f.m).length + 1 := fun h => by rw [(hcm h).2, h]; rfl
  obtain ⟨bl, el, pl⟩ := QV.slice_pts f.l f.cc (fun h => (hcl h).1) (hnl ▸ hl) hcl2 sl hsl
  obtain ⟨bm, em, pm⟩ := QV.slice_pts f.m f.cc (fun h => (hcm h).1) (hnm ▸ hm) hcm2 sm hsm
  rw [← hnl] at el pl
  rw [← hnm] at em pm
  rw [QV.slice_eq _ _ _ hsl, ← hnl] at pl
  rw [QV.slice_eq _ _ _ hsm, ← hnm] at pm
  have hs : f.shape = [nl, nm, 3] := by unfold Fld.shape; rw [hflat]; rfl
  have ha : first nl sl < nl := by unfold first; have := Nat.mod_le nl sl; omega
  have hb : first nm sm < nm := by unfold first; have := Nat.mod_le nm sm; omega
  refine ⟨List.zipWith (fun x i => List.zipWith (fun y j => (x, y, f.vl i j, f.vm i j)) (pts f.cc bm) ((pyIndices nm (some (first nm sm : Int)) none sm).map Int.toNat))
      (pts f.cc bl) ((pyIndices nl (some (first nl sl : Int)) none sl).map Int.toNat),
    first nl sl, first nm sm, QV.cnt nl (first nl sl) sl, QV.cnt nm (first nm sm) sm, fun k => first nl sl + k * sl, fun k => first nm sm + k * sm,
    ?_, fun k => ⟨QV.cnt_lt _ _ _ hsl k, rfl⟩, fun k => ⟨QV.cnt_lt _ _ _ hsm k, rfl⟩, ?_, (QV.cnt_lt _ _ _ hsl 0).2 (by omega), (QV.cnt_lt _ _ _ hsm 0).2 (by omega),
    ?_, ?_, fun k hk => ?_⟩
  · unfold quiver
    simp only [steps, hs, List.getD_cons_zero, List.getD_cons_succ]
    rw [if_neg (by omega), ← hnl, ← hnm, el, em]
  · rw [pl, QV.indices _ _ _ hsl]; simp
  · unfold first; have := Nat.mod_lt nl hsl; omega
  · unfold first; have := Nat.mod_lt nm hsm; omega
  · rw [pl, pm, QV.indices _ _ _ hsl, QV.indices _ _ _ hsm]
    refine ⟨_, by rw [List.getElem?_zipWith, List.getElem?_map, List.getElem?_map, List.getElem?_range hk, Option.map_some, Option.map_some], by simp, fun k' hk' => ?_⟩
    have h1 : first nl sl + k * sl < nl := (QV.cnt_lt _ _ _ hsl k).1 hk
    have h2 : first nm sm + k' * sm < nm := (QV.cnt_lt _ _ _ hsm k').1 hk'
    refine ⟨_, _, List.getElem?_eq_getElem (hnl ▸ h1), List.getElem?_eq_getElem (hnm ▸ h2), ?_⟩
    rw [List.getElem?_zipWith, List.getElem?_map, List.getElem?_map, List.getElem?_range hk', Option.map_some, Option.map_some]
    have g1 : (pts f.cc f.l).getD (first nl sl + k * sl) 0 = (pts f.cc f.l)[first nl sl + k * sl]'(hnl ▸ h1) := by
      rw [List.getD_eq_getElem?_getD, List.getElem?_eq_getElem (hnl ▸ h1)]; rfl
    have g2 : (pts f.cc f.m).getD (first nm sm + k' * sm) 0 = (pts f.cc f.m)[first nm sm + k' * sm]'(hnm ▸ h2) := by
      rw [List.getD_eq_getElem?_getD, List.getElem?_eq_getElem (hnm ▸ h2)]; rfl
    rw [g1, g2]

/-- C239: one step is the step along both axes. -/
theorem C239_one_step {α : Type} (f : Fld α) (s : Nat) : quiver f [s] = quiver f [s, s] := rfl

/-- C239 is violated: if the components are first, the number of them is taken for the number of points of the first axis, and that of the first
axis for the second; then the first arrow may be beyond the second axis, and no arrow is drawn at all. -/
theorem C239_flat_violated {α : Type} (f : Fld α) (sl sm : Nat) (hsl : 0 < sl) (hsm : 0 < sm) (hflat : f.flat = true)
    (h : (pts f.cc f.m).length ≤ (pts f.cc f.l).length % sm / 2) (rows : List (List (ℚ × ℚ × α × α))) (hr : quiver f [sl, sm] = some rows) :
    ∀ row ∈ rows, row = [] := by
  have hs : f.shape = [3, (pts f.cc f.l).length, (pts f.cc f.m).length] := by unfold Fld.shape; rw [if_pos hflat]
  unfold quiver at hr
  simp only [steps, hs, List.getD_cons_zero, List.getD_cons_succ] at hr
  rw [if_neg (by omega)] at hr
  have e : (pyIndices (pts f.cc f.m).length (some (first (pts f.cc f.l).length sm : Int)) none sm).map Int.toNat = [] := by
    rw [QV.indices _ _ _ hsm]
    have : QV.cnt (pts f.cc f.m).length (first (pts f.cc f.l).length sm) sm = 0 := by unfold QV.cnt first; rw [if_neg (by omega)]
    rw [this]; rfl
  rw [e] at hr
  split at hr
  · obtain rfl := Option.some.inj hr
    intro row hrow
    obtain ⟨k, hk, e⟩ := List.getElem_of_mem hrow
    rw [List.getElem_zipWith] at e
    rw [← e]
    simp
  · cases hr

/-- The hypotheses of C239 are met, and by nodes for which no arrow is drawn although an arrow for each 8th point was asked for. -/
def QV.nodes (n : Nat) : Axis := ⟨(List.range n).map fun k => (k : ℚ), none, false⟩
example : (quiver (⟨QV.nodes 5, QV.nodes 4, true, false, fun i j => 10 * i + j, fun i j => 10 * j + i⟩ : Fld Nat) [3, 2]) =
    some [[(1/2, 1/2, 0, 0), (1/2, 5/2, 2, 20)], [(7/2, 1/2, 30, 3), (7/2, 5/2, 32, 23)]] := by decide +kernel
example : (quiver (⟨QV.nodes 7, QV.nodes 3, false, true, fun i j => 10 * i + j, fun i j => 10 * j + i⟩ : Fld Nat) [8, 8]) = some [[]] := by decide +kernel

end Viscid.Props
