import Verif.Spec.MakeField
import Verif.Props.Layout
import Verif.Props.XdmfGeo
import Verif.Props.Crds
import Mathlib.Data.List.Forall2
import Mathlib.Algebra.Order.Field.Basic
import Mathlib.Tactic.Linarith
import Mathlib.Tactic.FieldSimp
import Mathlib.Tactic.Ring
/-!
# C157 coordinates made of arrays, C158 fields made of arrays
-/
namespace Viscid.MakeField
open Viscid.Layout (Arr prod reshape detect new)
open Viscid.Crds (Uniform linspace)
open Viscid.XdmfGeo (diffs allClose)
open Viscid.Hdf5 (Center cells)
open Viscid.Spec.MakeField Viscid.Props

theorem axisOf_ok (rtol : ℚ) (arr : List ℚ) (h : arr ≠ []) : ∃ u, axisOf rtol arr = .ok u ∧ (u.isSome = allClose rtol (diffs arr)) ∧
    ∀ v, u = some v → v.n = arr.length ∧ arr.head? = some v.xl ∧ arr.getLast? = some v.xh := by
  unfold axisOf
  rcases List.exists_cons_of_ne_nil h with ⟨a, l, rfl⟩
  split
  · rename_i hc
    have hl : (a :: l).getLast? = some ((a :: l).getLast h) := List.getLast?_eq_some_getLast h
    rw [hl]
    refine ⟨_, rfl, by simp [hc], ?_⟩
    rintro v ⟨⟩
    exact ⟨rfl, rfl, rfl⟩
  · rename_i hc
    exact ⟨none, rfl, by simpa using hc, by simp⟩

/-- the entries of `axesOf` -/
def Entry (rtol : ℚ) (a : String × List ℚ) (u : String × Option Uniform) : Prop :=
  u.1 = a.1 ∧ u.2.isSome = allClose rtol (diffs a.2) ∧ ∀ v, u.2 = some v → v.n = a.2.length ∧ a.2.head? = some v.xl ∧ a.2.getLast? = some v.xh

theorem axesOf_ok (rtol : ℚ) (as : List (String × List ℚ)) (h : ∀ a ∈ as, a.2 ≠ []) :
    ∃ us, axesOf rtol as = .ok us ∧ List.Forall₂ (Entry rtol) as us := by
  induction as with
  | nil => exact ⟨[], rfl, .nil⟩
  | cons a as ih =>
    obtain ⟨us, hus, hf⟩ := ih fun x hx => h x (by simp [hx])
    obtain ⟨u, hu, h1, h2⟩ := axisOf_ok rtol a.2 (h a (by simp))
    refine ⟨(a.1, u) :: us, ?_, .cons ⟨rfl, h1, h2⟩ hf⟩
    rw [axesOf, hu, hus]

theorem zip_ne_nil (names : List String) (arrs : List (List ℚ)) (h : ∀ a ∈ arrs, a ≠ []) : ∀ a ∈ names.zip arrs, a.2 ≠ [] := by
  intro a ha
  exact h _ (List.of_mem_zip ha).2

theorem entries_all (rtol : ℚ) (as : List (String × List ℚ)) (us) (h : List.Forall₂ (Entry rtol) as us) :
    us.all (fun u => u.2.isSome) = as.all fun a => allClose rtol (diffs a.2) := by
  induction h with
  | nil => rfl
  | cons h _ ih => rw [List.all_cons, List.all_cons, ih, h.2.1]

/-- if all are there, the uniform list has all of them -/
theorem uniformList_all (rtol : ℚ) (as : List (String × List ℚ)) (us) (h : List.Forall₂ (Entry rtol) as us) (hall : us.all (fun u => u.2.isSome) = true) :
    List.Forall₂ (fun a u => u.1 = a.1 ∧ u.2.n = a.2.length ∧ a.2.head? = some u.2.xl ∧ a.2.getLast? = some u.2.xh) as (uniformList us) := by
  induction h with
  | nil => exact .nil
  | @cons a u as us h _ ih =>
    rw [List.all_cons, Bool.and_eq_true] at hall
    obtain ⟨n, o⟩ := u
    cases o with
    | none => simp at hall
    | some v =>
      simp only [uniformList, List.filterMap_cons, Option.map_some]
      exact .cons ⟨h.1, h.2.2 v rfl⟩ (ih hall.2)

theorem forall₂_shape {as : List (String × List ℚ)} {us : List (String × Uniform)}
    (h : List.Forall₂ (fun a u => u.1 = a.1 ∧ u.2.n = a.2.length ∧ a.2.head? = some u.2.xl ∧ a.2.getLast? = some u.2.xh) as us) :
    us.map (fun u => u.2.n) = as.map fun a => a.2.length := by
  induction h with
  | nil => rfl
  | cons h _ ih => rw [List.map_cons, List.map_cons, ih, h.2.1]

theorem map_snd_zip (names : List String) (arrs : List (List ℚ)) (h : arrs.length ≤ names.length) : (names.zip arrs).map Prod.snd = arrs := by
  rw [List.map_snd_zip]; exact h

/-- the coordinates with automatic type -/
theorem auto_ok (rtol : ℚ) (names : List String) (arrs : List (List ℚ)) (h : Proper names arrs) :
    ∃ crds, arrays2crds rtol .auto names arrs = .ok crds ∧ crds.shapeNc = nodeShape arrs ∧
      ((∃ us, crds = .uniform us) → ∀ a ∈ arrs, allClose rtol (diffs a) = true) := by
  obtain ⟨h0, h1, h2⟩ := h
  obtain ⟨us, hus, hf⟩ := axesOf_ok rtol (names.zip arrs) (zip_ne_nil names arrs h2)
  unfold arrays2crds
  rw [if_neg h0, hus]
  simp only
  have hm := map_snd_zip names arrs h1
  by_cases hall : us.all (fun u => u.2.isSome) = true
  · rw [if_pos hall]
    refine ⟨_, rfl, ?_, fun _ a ha => ?_⟩
    · have := forall₂_shape (uniformList_all rtol _ us hf hall)
      rw [Crds.shapeNc, this, nodeShape]
      conv => rhs; rw [← hm, List.map_map]
      rfl
    · rw [entries_all rtol _ us hf, List.all_eq_true] at hall
      rw [← hm] at ha
      obtain ⟨x, hx, rfl⟩ := List.mem_map.1 ha
      exact hall x hx
  · rw [if_neg hall]
    refine ⟨_, rfl, ?_, by rintro ⟨us, h⟩; cases h⟩
    show (names.zip arrs).map (fun a => a.2.length) = _
    rw [nodeShape]
    conv => rhs; rw [← hm, List.map_map]
    rfl

/-- and the cells, if there are two nodes -/
theorem auto_cells (rtol : ℚ) (names : List String) (arrs : List (List ℚ)) (h : Proper names arrs) (h2 : ∀ a ∈ arrs, 2 ≤ a.length) (crds : Crds)
    (hc : arrays2crds rtol .auto names arrs = .ok crds) : crds.shapeCc = cellShape arrs := by
  obtain ⟨crds', hc', hs, _⟩ := auto_ok rtol names arrs h
  rw [hc] at hc'
  cases hc'
  have key : cellShape arrs = (nodeShape arrs).map (· - 1) := by simp [cellShape, nodeShape, Function.comp_def]
  cases crds with
  | uniform us =>
    rw [key, ← hs]
    simp [Crds.shapeCc, Crds.shapeNc, Uniform.shapeCc, Function.comp_def]
  | arrays as =>
    have h2' : ∀ a ∈ as, 2 ≤ a.2.length := by
      intro a ha
      have : a.2.length ∈ nodeShape arrs := by rw [← hs]; exact List.mem_map.2 ⟨a, ha, rfl⟩
      obtain ⟨b, hb, e⟩ := List.mem_map.1 this
      rw [← e]; exact h2 b hb
    rw [key, ← hs]
    simp only [Crds.shapeCc, Crds.shapeNc, List.map_map]
    apply List.map_congr_left
    intro a ha
    have := h2' a ha
    simp only [Function.comp_apply, cells]
    rw [if_neg (by omega)]

end Viscid.MakeField

namespace Viscid.Props
open Viscid.MakeField Viscid.Spec.MakeField
open Viscid.Layout (Arr prod reshape detect new)
open Viscid.Crds (Uniform linspace)
open Viscid.Crds (linspace_length linspace_get)
open Viscid.XdmfGeo (diffs allClose)
open Viscid.Hdf5 (Center cells)

/-! ## C157 -/

/-- C157: whatever the arrays, the axes are named in order, and have as many nodes as the arrays, from the same first to the same last one -/
theorem C157_ends (rtol : ℚ) (names : List String) (arrs : List (List ℚ)) (h : Proper names arrs) :
    ∃ crds, arrays2crds rtol .auto names arrs = .ok crds ∧
      List.Forall₂ (fun a n => n.1 = a.1 ∧ n.2.length = a.2.length ∧ n.2.head? = a.2.head? ∧ n.2.getLast? = a.2.getLast?) (names.zip arrs) crds.nodes := by
  obtain ⟨h0, h1, h2⟩ := h
  obtain ⟨us, hus, hf⟩ := axesOf_ok rtol (names.zip arrs) (zip_ne_nil names arrs h2)
  unfold arrays2crds
  rw [if_neg h0, hus]
  simp only
  by_cases hall : us.all (fun u => u.2.isSome) = true
  · rw [if_pos hall]
    refine ⟨_, rfl, ?_⟩
    rw [Crds.nodes, List.forall₂_map_right_iff]
    refine (uniformList_all rtol _ us hf hall).imp ?_
    rintro a ⟨n, u⟩ ⟨e1, e2, e3, e4⟩
    refine ⟨e1, by rw [linspace_length, e2], ?_, ?_⟩
    · rw [e3]
      have : (0 : Nat) < u.n := by
        rw [e2]
        rcases ha : a.2 with _ | ⟨x, l⟩
        · rw [ha] at e3; cases e3
        · simp
      by_cases hn : u.n = 1
      · rw [hn]; rfl
      · rw [List.head?_eq_getElem?, linspace_get _ _ _ hn 0 this]
        simp
    · rw [e4]
      have : (0 : Nat) < u.n := by
        rw [e2]
        rcases ha : a.2 with _ | ⟨x, l⟩
        · rw [ha] at e3; cases e3
        · simp
      by_cases hn : u.n = 1
      · rw [hn]
        have hl : a.2.length = 1 := by rw [← e2, hn]
        obtain ⟨x, hx⟩ := List.length_eq_one_iff.1 hl
        rw [hx] at e3 e4
        simp at e3 e4
        rw [← e3, e4]
        simp [linspace, ← e4, e3]
      · rw [List.getLast?_eq_getElem?, linspace_length, linspace_get _ _ _ hn (u.n - 1) (by omega)]
        have h1 : ((u.n : ℚ) - 1) ≠ 0 := by
          have : (1 : ℚ) < u.n := by exact_mod_cast (by omega : 1 < u.n)
          linarith
        have h2 : ((u.n - 1 : Nat) : ℚ) = (u.n : ℚ) - 1 := by
          rw [Nat.cast_sub (by omega)]; simp
        rw [h2]
        congr 1
        field_simp
        ring
  · rw [if_neg hall]
    refine ⟨_, rfl, ?_⟩
    exact List.forall₂_same.2 fun a _ => ⟨rfl, rfl, rfl, rfl⟩

/-- C157: if one array is clearly not evenly spaced, the coordinates are the arrays, and so they are whenever they are asked for as they are -/
theorem C157_arrays (rtol : ℚ) (names : List String) (arrs : List (List ℚ)) (h : Proper names arrs) :
    (∃ crds, arrays2crds rtol .nonuniform names arrs = .ok crds ∧ crds.nodes = names.zip arrs) ∧
    ∀ arr ∈ arrs, ∀ (i : Nat) (a b x y : ℚ), arr[0]? = some a → arr[1]? = some b → arr[i]? = some x → arr[i + 1]? = some y →
      |(b - a) - (y - x)| > 1 / 100000000 + rtol * |y - x| → ∃ crds, arrays2crds rtol .auto names arrs = .ok crds ∧ crds.nodes = names.zip arrs := by
  obtain ⟨h0, h1, h2⟩ := h
  obtain ⟨us, hus, hf⟩ := axesOf_ok rtol (names.zip arrs) (zip_ne_nil names arrs h2)
  refine ⟨⟨.arrays (names.zip arrs), ?_, rfl⟩, ?_⟩
  · unfold arrays2crds
    rw [if_neg h0, hus]
  · intro arr ha i a b x y h0' h1' hx hy hu
    refine ⟨.arrays (names.zip arrs), ?_, rfl⟩
    unfold arrays2crds
    rw [if_neg h0, hus]
    simp only
    rw [if_neg]
    rw [entries_all rtol _ us hf, List.all_eq_true]
    intro hall
    rw [← map_snd_zip names arrs h1] at ha
    obtain ⟨q, hq, e⟩ := List.mem_map.1 ha
    have := hall q hq
    rw [e] at this
    have hlen : i + 1 < arr.length := by
      rcases Nat.lt_or_ge (i + 1) arr.length with h | h
      · exact h
      · rw [List.getElem?_eq_none h] at hy; cases hy
    have hget : ∀ (k : Nat) (u v : ℚ), arr[k]? = some u → arr[k + 1]? = some v → (diffs arr)[k]? = some (v - u) := by
      intro k u v hu hv
      have hk : k + 1 < arr.length := by
        rcases Nat.lt_or_ge (k + 1) arr.length with h | h
        · exact h
        · rw [List.getElem?_eq_none h] at hv; cases hv
      unfold diffs
      rw [if_pos (by omega), List.getElem?_zipWith, List.getElem?_tail, hv, List.getElem?_dropLast, if_pos (by omega), hu]
    have hd := hget i x y hx hy
    have hd0 := hget 0 a b h0' h1'
    unfold allClose at this
    rw [List.all_eq_true] at this
    have := this _ (List.mem_of_getElem? hd)
    rw [decide_eq_true_eq] at this
    have hh : (diffs arr).headD 0 = b - a := by
      rw [List.headD_eq_head?_getD, List.head?_eq_getElem?, hd0]
      rfl
    rw [hh] at this
    linarith

theorem close_even (rtol : ℚ) (hr : 0 ≤ rtol) (o d : ℚ) (n : Nat) : allClose rtol (diffs (even o d n)) = true := by
  unfold allClose
  rw [List.all_eq_true]
  intro e h
  have h0 : ∀ e ∈ diffs (even o d n), (diffs (even o d n)).headD 0 = e := by
    by_cases hn : 2 ≤ n
    · intro e h
      cases hl : diffs (even o d n) with
      | nil => rw [hl] at h; simp at h
      | cons a l =>
        have ha := XdmfGeo.diffs_spacing o d n hn a (show a ∈ diffs (even o d n) by simp [hl])
        have he' := XdmfGeo.diffs_spacing o d n hn e h
        simp [ha, he']
    · intro e h
      unfold diffs at h ⊢
      rw [if_neg (by simp [even]; omega)] at h ⊢
      simp at h
      simp [h]
  rw [h0 e h, sub_self, abs_zero]
  have := mul_nonneg hr (abs_nonneg e)
  apply decide_eq_true
  linarith

theorem linspace_ends (o d : ℚ) (n : Nat) (u : Uniform) (h : u.n = (even o d n).length) (h1 : (even o d n).head? = some u.xl)
    (h2 : (even o d n).getLast? = some u.xh) : linspace u.xl u.xh u.n = even o d n := by
  have hl : (even o d n).length = n := by simp [even]
  rw [hl] at h
  cases n with
  | zero => simp [even] at h1
  | succ n =>
    have e1 : (even o d (n + 1)).head? = some o := by simp [even, List.range_succ_eq_map]
    have e2 : (even o d (n + 1)).getLast? = some (o + n * d) := by simp [even, List.range_succ]
    rw [e1] at h1
    rw [e2] at h2
    rw [← Option.some.inj h1, ← Option.some.inj h2, h]
    have := XdmfGeo.linspace_spacing o d (n + 1)
    rw [show o + (((n + 1 : Nat) : ℚ) - 1) * d = o + n * d by push_cast; ring] at this
    exact this

/-- C157: evenly spaced arrays are the coordinates -/
theorem C157_even (rtol : ℚ) (hr : 0 ≤ rtol) (names : List String) (arrs : List (List ℚ)) (h : Proper names arrs)
    (he : ∀ a ∈ arrs, ∃ o d n, a = even o d n) (type : CType) (ht : type = .auto ∨ type = .uniform) :
    ∃ crds, arrays2crds rtol type names arrs = .ok crds ∧ crds.nodes = names.zip arrs := by
  obtain ⟨h0, h1, h2⟩ := h
  obtain ⟨us, hus, hf⟩ := axesOf_ok rtol (names.zip arrs) (zip_ne_nil names arrs h2)
  have hall : us.all (fun u => u.2.isSome) = true := by
    rw [entries_all rtol _ us hf, List.all_eq_true]
    intro a ha
    obtain ⟨o, d, n, e⟩ := he _ (List.of_mem_zip ha).2
    rw [e]
    exact close_even rtol hr o d n
  have hu := uniformList_all rtol _ us hf hall
  refine ⟨.uniform (uniformList us), ?_, ?_⟩
  · unfold arrays2crds
    rw [if_neg h0, hus]
    rcases ht with rfl | rfl
    · simp only [if_pos hall]
    · rfl
  · have he' : ∀ a ∈ names.zip arrs, ∃ o d n, a.2 = even o d n := fun a ha => he _ (List.of_mem_zip ha).2
    rw [Crds.nodes]
    clear hus hf hall h2 h1 h0 he
    generalize names.zip arrs = as at *
    generalize uniformList us = vs at *
    induction hu with
    | nil => rfl
    | @cons a u as us h _ ih =>
      rw [List.map_cons, ih fun x hx => he' x (by simp [hx])]
      obtain ⟨o, d, n, e⟩ := he' a (by simp)
      obtain ⟨a1, a2⟩ := a
      obtain ⟨u1, u2⟩ := u
      obtain ⟨g1, g2, g3, g4⟩ := h
      simp only at e g1 g2 g3 g4
      subst e
      rw [linspace_ends o d n u2 g2 g3 g4, g1]

example : Proper ["x", "y"] [even 0 2 3, even 1 1 2] ∧ [even 0 2 3, even 1 1 2] = [[0, 2, 4], [1, 2]] := by
  refine ⟨⟨by simp, by simp, ?_⟩, by decide +kernel⟩
  intro a ha
  simp only [List.mem_cons, List.not_mem_nil, or_false] at ha
  rcases ha with rfl | rfl <;> decide +kernel

theorem line_close (δ : ℚ) (a : Nat → ℚ) (m : Nat) (h : ∀ k, k < m → |(a 1 - a 0) - (a (k + 1) - a k)| ≤ δ) :
    ∀ i, i ≤ m → |a i - (a 0 + i * (a 1 - a 0))| ≤ i * δ := by
  intro i
  induction i with
  | zero => intro _; simp
  | succ i ih =>
    intro hi
    have h1 := ih (by omega)
    have h2 := h i (by omega)
    rw [abs_le] at h1 h2 ⊢
    push_cast
    constructor <;> nlinarith [h1.1, h1.2, h2.1, h2.2]

/-- C157: arrays that are nearly evenly spaced are the coordinates up to rounding: node `i` is off by at most `2 i` tolerances -/
theorem C157_close_partial (rtol B : ℚ) (hr : 0 ≤ rtol) (names : List String) (arrs : List (List ℚ)) (h : Proper names arrs)
    (hB : ∀ arr ∈ arrs, ∀ (i : Nat) (a b : ℚ), arr[i]? = some a → arr[i + 1]? = some b → |b - a| ≤ B) :
    ∃ crds, arrays2crds rtol .auto names arrs = .ok crds ∧
      List.Forall₂ (fun a n => ∀ (i : Nat) (x y : ℚ), a.2[i]? = some x → n.2[i]? = some y → |y - x| ≤ 2 * i * (1 / 100000000 + rtol * B))
        (names.zip arrs) crds.nodes := by
  obtain ⟨h0, h1, h2⟩ := h
  obtain ⟨us, hus, hf⟩ := axesOf_ok rtol (names.zip arrs) (zip_ne_nil names arrs h2)
  unfold arrays2crds
  rw [if_neg h0, hus]
  simp only
  by_cases hall : us.all (fun u => u.2.isSome) = true
  · rw [if_pos hall]
    refine ⟨_, rfl, ?_⟩
    have hc : ∀ a ∈ names.zip arrs, allClose rtol (diffs a.2) = true ∧ ∀ (i : Nat) (x y : ℚ), a.2[i]? = some x → a.2[i + 1]? = some y → |y - x| ≤ B := by
      intro a ha
      rw [entries_all rtol _ us hf, List.all_eq_true] at hall
      exact ⟨hall a ha, hB _ (List.of_mem_zip ha).2⟩
    have hu := uniformList_all rtol _ us hf hall
    rw [Crds.nodes, List.forall₂_map_right_iff]
    clear hus hf hall h2 h1 h0 hB
    generalize names.zip arrs = as at *
    generalize uniformList us = vs at *
    induction hu with
    | nil => exact .nil
    | @cons a u as us h _ ih =>
      refine .cons ?_ (ih fun x hx => hc x (by simp [hx]))
      obtain ⟨hcl, hb⟩ := hc a (by simp)
      obtain ⟨a1, arr⟩ := a
      obtain ⟨u1, u⟩ := u
      obtain ⟨-, g2, g3, g4⟩ := h
      simp only at hcl hb g2 g3 g4 ⊢
      intro i x y hx hy
      have hi : i < arr.length := (List.getElem?_eq_some_iff.1 hx).1
      by_cases hn : u.n = 1
      · have : i = 0 := by omega
        subst this
        rw [← List.head?_eq_getElem?, g3] at hx
        rw [hn] at hy
        simp only [linspace, if_true, List.getElem?_cons_zero, Option.some.injEq] at hy
        cases hx
        subst hy
        simp
      · rw [linspace_get _ _ _ hn i (by omega)] at hy
        cases hy
        let f : Nat → ℚ := fun k => arr.getD k 0
        have hf : ∀ k, k < arr.length → arr[k]? = some (f k) := by
          intro k hk
          simp only [f, List.getD_eq_getElem?_getD, List.getElem?_eq_getElem hk, Option.getD_some]
        have hlen : 2 ≤ arr.length := by
          have : 0 < arr.length := by omega
          omega
        have hd : ∀ k, k + 1 < arr.length → |(f 1 - f 0) - (f (k + 1) - f k)| ≤ 1 / 100000000 + rtol * B := by
          intro k hk
          unfold allClose at hcl
          rw [List.all_eq_true] at hcl
          have hdk : ∀ k, k + 1 < arr.length → (diffs arr)[k]? = some (f (k + 1) - f k) := by
            intro k hk
            unfold diffs
            rw [if_pos (by omega), List.getElem?_zipWith, List.getElem?_tail, List.getElem?_dropLast, if_pos (by omega), hf (k + 1) hk, hf k (by omega)]
          have hmem := List.mem_of_getElem? (hdk k hk)
          have := hcl _ hmem
          rw [decide_eq_true_eq] at this
          have hh : (diffs arr).headD 0 = f 1 - f 0 := by
            have := hdk 0 (by omega)
            rw [← List.head?_eq_getElem?] at this
            rw [List.headD_eq_head?_getD, this]
            rfl
          rw [hh] at this
          have hbk := hb k _ _ (hf k (by omega)) (hf (k + 1) hk)
          have := mul_le_mul_of_nonneg_left hbk hr
          linarith
        have hline := line_close (1 / 100000000 + rtol * B) f (arr.length - 1) fun k hk => hd k (by omega)
        have e0 : u.xl = f 0 := by
          have := hf 0 (by omega)
          rw [← List.head?_eq_getElem?, g3] at this
          exact Option.some.inj this
        have e1 : u.xh = f (arr.length - 1) := by
          have := hf (arr.length - 1) (by omega)
          rw [← List.getLast?_eq_getElem?, g4] at this
          exact Option.some.inj this
        have ex : x = f i := by
          have := hf i hi
          rw [hx] at this
          exact Option.some.inj this
        rw [ex, e0, e1, g2]
        have m1 := hline i (by omega)
        have m2 := hline (arr.length - 1) le_rfl
        have hN : ((arr.length - 1 : Nat) : ℚ) = (arr.length : ℚ) - 1 := by rw [Nat.cast_sub (by omega)]; simp
        rw [hN] at m2
        have hpos : (0 : ℚ) < (arr.length : ℚ) - 1 := by
          have : (2 : ℚ) ≤ arr.length := by exact_mod_cast hlen
          linarith
        generalize (arr.length : ℚ) - 1 = N at *
        generalize f (arr.length - 1) = L at *
        have hi0 : (0 : ℚ) ≤ i := by positivity
        have key : |(i : ℚ) * ((L - f 0) / N) - i * (f 1 - f 0)| ≤ i * (1 / 100000000 + rtol * B) := by
          have : (i : ℚ) * ((L - f 0) / N) - i * (f 1 - f 0) = i * ((L - (f 0 + N * (f 1 - f 0))) / N) := by
            field_simp
            ring
          rw [this, abs_mul, abs_of_nonneg hi0, abs_div, abs_of_pos hpos]
          apply mul_le_mul_of_nonneg_left _ hi0
          rw [div_le_iff₀ hpos]
          linarith
        rw [abs_le] at m1 key ⊢
        constructor <;> linarith [m1.1, m1.2, key.1, key.2]
  · rw [if_neg hall]
    refine ⟨_, rfl, ?_⟩
    rw [Crds.nodes, List.forall₂_same]
    intro a ha i x y hx hy
    rw [hx] at hy
    cases hy
    rw [sub_self, abs_zero]
    have hB0 : 0 ≤ B ∨ i = 0 := by
      by_cases h0 : i = 0
      · exact .inr h0
      · left
        have hlt := (List.getElem?_eq_some_iff.1 hx).1
        have hb := hB a.2 (List.of_mem_zip ha).2 0 a.2[0] a.2[1] (List.getElem?_eq_getElem _) (List.getElem?_eq_getElem _)
        exact le_trans (abs_nonneg _) hb
    rcases hB0 with hB0 | rfl
    · have := mul_nonneg hr hB0
      have hi0 : (0 : ℚ) ≤ i := by positivity
      have : (0 : ℚ) ≤ 1 / 100000000 + rtol * B := by linarith
      positivity
    · simp

/-- C157: but on a scale of 1e-9 this is anything: the node at 1e-9 is moved to 5e-9 -/
theorem C157_small_violated :
    (arrays2crds (4 / 2 ^ 52) .auto ["x"] [[0, 1 / 1000000000, 10 / 1000000000]]).map Crds.nodes =
      .ok [("x", [0, 5 / 1000000000, 10 / 1000000000])] := by decide +kernel

/-- C157: asked to be uniform, axes that are not are dropped without notice -/
theorem C157_uniform_violated (rtol : ℚ) (names : List String) (arrs : List (List ℚ)) (h : Proper names arrs)
    (arr : List ℚ) (ha : arr ∈ arrs) (a b c : ℚ) (l : List ℚ) (e : arr = a :: b :: c :: l) (hu : |(b - a) - (c - b)| > 1 / 100000000 + rtol * |c - b|) :
    ∃ crds, arrays2crds rtol .uniform names arrs = .ok crds ∧ crds.nodes.length < arrs.length := by
  obtain ⟨h0, h1, h2⟩ := h
  obtain ⟨us, hus, hf⟩ := axesOf_ok rtol (names.zip arrs) (zip_ne_nil names arrs h2)
  refine ⟨.uniform (uniformList us), ?_, ?_⟩
  · unfold arrays2crds
    rw [if_neg h0, hus]
  have hnc : allClose rtol (diffs arr) = false := by
    rw [Bool.eq_false_iff]
    intro this
    subst e
    simp only [diffs, allClose, List.length_cons, List.tail_cons, List.dropLast_cons_cons, List.zipWith_cons_cons] at this
    rw [if_pos (by omega)] at this
    cases l with
    | nil =>
      simp only [List.dropLast_singleton, List.headD_cons, List.all_cons, Bool.and_eq_true, List.zipWith_nil_left, decide_eq_true_eq] at this
      linarith [this.2.1]
    | cons d l =>
      simp only [List.dropLast_cons_cons, List.headD_cons, List.all_cons, Bool.and_eq_true, List.zipWith_cons_cons, decide_eq_true_eq] at this
      linarith [this.2.1]
  rw [Crds.nodes, List.length_map]
  have hlen : us.length = arrs.length := by
    rw [← hf.length_eq, List.length_zip]; omega
  rw [← hlen]
  have hmem : ∃ x ∈ names.zip arrs, x.2 = arr := by
    rw [← map_snd_zip names arrs h1] at ha
    exact List.mem_map.1 ha
  obtain ⟨x, hx, e⟩ := hmem
  clear hus h0 h1 h2 hlen ha
  generalize names.zip arrs = as at *
  unfold uniformList
  induction hf with
  | nil => cases hx
  | @cons y u as us h _ ih =>
    obtain ⟨u1, o⟩ := u
    rcases List.mem_cons.1 hx with rfl | hx
    · have := h.2.1
      rw [e, hnc] at this
      cases o with
      | some v => simp at this
      | none =>
        simp only [List.filterMap_cons, Option.map_none, List.length_cons]
        have := List.length_filterMap_le (fun u : String × Option Uniform => u.2.map fun v => (u.1, v)) us
        omega
    · have := ih hx
      cases o with
      | some v => simp only [List.filterMap_cons, Option.map_some, List.length_cons]; omega
      | none => simp only [List.filterMap_cons, Option.map_none, List.length_cons]; omega

/-- C157: axes without a name are dropped without notice -/
theorem C157_many_violated (rtol : ℚ) (names : List String) (arrs : List (List ℚ)) (h0 : arrs ≠ []) (h2 : ∀ a ∈ arrs, a ≠ []) (h : names.length < arrs.length) :
    ∃ crds, arrays2crds rtol .auto names arrs = .ok crds ∧ crds.nodes.length = names.length := by
  obtain ⟨us, hus, hf⟩ := axesOf_ok rtol (names.zip arrs) (zip_ne_nil names arrs h2)
  unfold arrays2crds
  rw [if_neg h0, hus]
  simp only
  have hz : (names.zip arrs).length = names.length := by rw [List.length_zip]; omega
  by_cases hall : us.all (fun u => u.2.isSome) = true
  · rw [if_pos hall]
    refine ⟨_, rfl, ?_⟩
    rw [Crds.nodes, List.length_map, ← (uniformList_all rtol _ us hf hall).length_eq, hz]
  · rw [if_neg hall]
    exact ⟨_, rfl, hz⟩

/-- C157: an empty array is an IndexError, whatever the type -/
theorem C157_empty_violated (rtol : ℚ) (hr : 0 ≤ rtol) (type : CType) (n : String) (names : List String) (arrs : List (List ℚ)) :
    arrays2crds rtol type (n :: names) ([] :: arrs) = .error .index := by
  have : allClose rtol (diffs []) = true := by
    have := close_even rtol hr 0 0 0
    simpa [even] using this
  unfold arrays2crds
  rw [if_neg (by simp), List.zip_cons_cons, axesOf, axisOf]
  simp [this]

/-- C157: an unknown type is refused -/
theorem C157_other (rtol : ℚ) (names : List String) (arrs : List (List ℚ)) (h : Proper names arrs) :
    arrays2crds rtol .other names arrs = .error .notImplemented := by
  obtain ⟨h0, h1, h2⟩ := h
  obtain ⟨us, hus, hf⟩ := axesOf_ok rtol (names.zip arrs) (zip_ne_nil names arrs h2)
  unfold arrays2crds
  rw [if_neg h0, hus]

/-! ## C158 -/

/-- The shape of the points of a field with these coordinates and this centering -/
private def pts (crds : Crds) : Center → List Nat
  | .node => crds.shapeNc
  | .cell => crds.shapeCc

theorem sshape_pts (m : Made α) : m.sshape = pts m.crds m.center := by
  unfold Made.sshape pts
  cases m.center <;> rfl

theorem wrap_scalar (dat : Arr α) (crds : Crds) (c : Center) (h : dat.shape = pts crds c) : IsScalar (wrapField dat crds false c) c dat := by
  have hv : (wrapField dat crds false c).vector = false := by
    have : (wrapField dat crds false c).vector = (prod (pts crds c) ≠ 0 && prod dat.shape % prod (pts crds c) = 0 && prod dat.shape / prod (pts crds c) > 1) := by
      unfold wrapField
      cases c <;> rfl
    rw [this, ← h]
    by_cases h0 : prod dat.shape = 0
    · simp [h0]
    · rw [Nat.div_self (by omega)]; simp
  have hl : (wrapField dat crds false c).layout = .scalar := by
    unfold Made.layout; rw [hv]; rfl
  have hd : (wrapField dat crds false c).data = .ok dat := by
    unfold Made.data
    rw [hv, sshape_pts]
    have e : (wrapField dat crds false c).dat = dat := rfl
    have e2 : pts (wrapField dat crds false c).crds (wrapField dat crds false c).center = dat.shape := h.symm
    rw [e, e2]
    simp [reshape, lift]
  refine ⟨hv, rfl, fun k idx => ?_⟩
  unfold value
  rw [hd, hl]

theorem wrap_flat (g : List Nat → α) (crds : Crds) (c : Center) (n : Nat) :
    IsVector (wrapField ⟨n :: pts crds c, g⟩ crds true c) c (fun k idx => g (k :: idx)) ∧ (wrapField ⟨n :: pts crds c, g⟩ crds true c).layout = .flat := by
  have hv : (wrapField ⟨n :: pts crds c, g⟩ crds true c).vector = true := rfl
  have hs : (wrapField ⟨n :: pts crds c, g⟩ crds true c).sshape = pts crds c := sshape_pts _
  have he : (wrapField ⟨n :: pts crds c, g⟩ crds true c).dat = ⟨n :: pts crds c, g⟩ := rfl
  have hl : (wrapField ⟨n :: pts crds c, g⟩ crds true c).layout = .flat := by
    unfold Made.layout Layout.Fld.layout
    rw [hv, hs, he]
    simp [new, (C55_detect (pts crds c) n).1]
  have hd : (wrapField ⟨n :: pts crds c, g⟩ crds true c).data = .ok ⟨n :: pts crds c, g⟩ := by
    unfold Made.data
    rw [hv, hs, he]
    simp only [if_true]
    rw [data_flat _ n g .default (.inl rfl)]
    rfl
  refine ⟨⟨hv, rfl, fun k idx => ?_⟩, hl⟩
  unfold value
  rw [hd, hl]

theorem wrap_interlaced (g : List Nat → α) (crds : Crds) (c : Center) (n : Nat) (hne : pts crds c ≠ List.replicate (pts crds c).length n) :
    IsVector (wrapField ⟨pts crds c ++ [n], g⟩ crds true c) c (fun k idx => g (idx ++ [k])) ∧
      (wrapField ⟨pts crds c ++ [n], g⟩ crds true c).layout = .interlaced := by
  have hv : (wrapField ⟨pts crds c ++ [n], g⟩ crds true c).vector = true := rfl
  have hs : (wrapField ⟨pts crds c ++ [n], g⟩ crds true c).sshape = pts crds c := sshape_pts _
  have he : (wrapField ⟨pts crds c ++ [n], g⟩ crds true c).dat = ⟨pts crds c ++ [n], g⟩ := rfl
  have hl : (wrapField ⟨pts crds c ++ [n], g⟩ crds true c).layout = .interlaced := by
    unfold Made.layout Layout.Fld.layout
    rw [hv, hs, he]
    simp [new, (C55_detect (pts crds c) n).2, hne]
  have hd : (wrapField ⟨pts crds c ++ [n], g⟩ crds true c).data = .ok ⟨pts crds c ++ [n], g⟩ := by
    unfold Made.data
    rw [hv, hs, he]
    simp only [if_true]
    rw [data_interlaced _ n g .default (.inl rfl) hne]
    rfl
  refine ⟨⟨hv, rfl, fun k idx => ?_⟩, hl⟩
  unfold value
  rw [hd, hl]

theorem wrap_flat' (dat : Arr α) (crds : Crds) (c : Center) (n : Nat) (h : dat.shape = n :: pts crds c) :
    IsVector (wrapField dat crds true c) c (fun k idx => dat.get (k :: idx)) ∧ (wrapField dat crds true c).layout = .flat := by
  obtain ⟨shape, g⟩ := dat
  simp only at h
  subst h
  exact wrap_flat g crds c n

theorem wrap_interlaced' (dat : Arr α) (crds : Crds) (c : Center) (n : Nat) (h : dat.shape = pts crds c ++ [n])
    (hne : pts crds c ≠ List.replicate (pts crds c).length n) :
    IsVector (wrapField dat crds true c) c (fun k idx => dat.get (idx ++ [k])) ∧ (wrapField dat crds true c).layout = .interlaced := by
  obtain ⟨shape, g⟩ := dat
  simp only at h
  subst h
  exact wrap_interlaced g crds c n hne

theorem shape_cells (arrs : List (List ℚ)) (h0 : arrs ≠ []) (h2 : ∀ a ∈ arrs, 2 ≤ a.length) : nodeShape arrs ≠ cellShape arrs := by
  obtain ⟨a, l, rfl⟩ := List.exists_cons_of_ne_nil h0
  intro e
  simp only [nodeShape, cellShape, List.map_cons, List.cons.injEq] at e
  have := h2 a (by simp)
  omega

theorem len_shapes (arrs : List (List ℚ)) : (nodeShape arrs).length = arrs.length ∧ (cellShape arrs).length = arrs.length := by
  simp [nodeShape, cellShape]

/-- C158: an array with the shape of the nodes or of the cells is a scalar field with these values -/
theorem C158_scalar (rtol : ℚ) (names : List String) (arrs : List (List ℚ)) (h : Proper names arrs) (dat : Arr α) :
    (dat.shape = nodeShape arrs → ∃ m, arrays2field rtol .auto names arrs dat = .ok m ∧ IsScalar m .node dat ∧ arrays2crds rtol .auto names arrs = .ok m.crds) ∧
    ((∀ a ∈ arrs, 2 ≤ a.length) → dat.shape = cellShape arrs →
      ∃ m, arrays2field rtol .auto names arrs dat = .ok m ∧ IsScalar m .cell dat ∧ arrays2crds rtol .auto names arrs = .ok m.crds) := by
  obtain ⟨crds, hc, hs, _⟩ := auto_ok rtol names arrs h
  constructor
  · intro hd
    refine ⟨wrapField dat crds false .node, ?_, wrap_scalar dat crds .node (by rw [hd, ← hs]; rfl), hc⟩
    unfold arrays2field
    rw [hc]
    unfold discover
    simp [hs, hd]
  · intro h2 hd
    have hcc := auto_cells rtol names arrs h h2 crds hc
    refine ⟨wrapField dat crds false .cell, ?_, wrap_scalar dat crds .cell (by rw [hd, ← hcc]; rfl), hc⟩
    unfold arrays2field
    rw [hc]
    unfold discover
    simp only [hs, hd, hcc, (len_shapes arrs).1, (len_shapes arrs).2, if_true, if_neg (shape_cells arrs h.1 h2)]

/-- C158: one with the components last is a vector field with these values, unless there are as many points along each axis as components -/
theorem C158_interlaced_partial (rtol : ℚ) (names : List String) (arrs : List (List ℚ)) (h : Proper names arrs) (dat : Arr α) (n : Nat) :
    (dat.shape = nodeShape arrs ++ [n] → (∃ a ∈ arrs, a.length ≠ n) →
      ∃ m, arrays2field rtol .auto names arrs dat = .ok m ∧ IsVector m .node (fun c idx => dat.get (idx ++ [c])) ∧ arrays2crds rtol .auto names arrs = .ok m.crds) ∧
    ((∀ a ∈ arrs, 2 ≤ a.length) → dat.shape = cellShape arrs ++ [n] → (∃ a ∈ arrs, a.length ≠ n + 1) →
      ∃ m, arrays2field rtol .auto names arrs dat = .ok m ∧ IsVector m .cell (fun c idx => dat.get (idx ++ [c])) ∧ arrays2crds rtol .auto names arrs = .ok m.crds) := by
  obtain ⟨crds, hc, hs, _⟩ := auto_ok rtol names arrs h
  constructor
  · rintro hd ⟨a, ha, hne⟩
    have hnr : nodeShape arrs ≠ List.replicate (nodeShape arrs).length n := by
      intro e
      have : a.length ∈ nodeShape arrs := List.mem_map_of_mem ha
      rw [e] at this
      exact hne (List.eq_of_mem_replicate this)
    refine ⟨wrapField dat crds true .node, ?_, (wrap_interlaced' dat crds .node n (by rw [hd, ← hs]; rfl) (by
      show crds.shapeNc ≠ List.replicate crds.shapeNc.length n
      rw [hs]; exact hnr)).1, hc⟩
    unfold arrays2field
    rw [hc]
    unfold discover
    simp [hs, hd]
  · rintro h2 hd ⟨a, ha, hne⟩
    have hcc := auto_cells rtol names arrs h h2 crds hc
    have hnr : cellShape arrs ≠ List.replicate (cellShape arrs).length n := by
      intro e
      have : a.length - 1 ∈ cellShape arrs := List.mem_map.2 ⟨a, ha, rfl⟩
      rw [e] at this
      have := List.eq_of_mem_replicate this
      have := h2 a ha
      omega
    refine ⟨wrapField dat crds true .cell, ?_, (wrap_interlaced' dat crds .cell n (by rw [hd, ← hcc]; rfl) (by
      show crds.shapeCc ≠ List.replicate crds.shapeCc.length n
      rw [hcc]; exact hnr)).1, hc⟩
    unfold arrays2field
    rw [hc]
    unfold discover
    simp [hs, hd, hcc, (len_shapes arrs).1, (len_shapes arrs).2, shape_cells arrs h.1 h2]

theorem dropLast_cells (n : Nat) (s : List Nat) (h : s = (n :: s).dropLast) : s = List.replicate s.length n := shift_eq n s h.symm

/-- C158: one with the components first is a vector field with these values, unless the shape without the last axis is that of the cells, or of the nodes -/
theorem C158_flat_partial (rtol : ℚ) (names : List String) (arrs : List (List ℚ)) (h : Proper names arrs) (h2 : ∀ a ∈ arrs, 2 ≤ a.length) (dat : Arr α) (n : Nat) :
    (dat.shape = n :: nodeShape arrs → cellShape arrs ≠ dat.shape.dropLast →
      ∃ m, arrays2field rtol .auto names arrs dat = .ok m ∧ IsVector m .node (fun c idx => dat.get (c :: idx)) ∧ arrays2crds rtol .auto names arrs = .ok m.crds) ∧
    (dat.shape = n :: cellShape arrs → nodeShape arrs ≠ dat.shape.dropLast →
      ∃ m, arrays2field rtol .auto names arrs dat = .ok m ∧ IsVector m .cell (fun c idx => dat.get (c :: idx)) ∧ arrays2crds rtol .auto names arrs = .ok m.crds) := by
  obtain ⟨crds, hc, hs, _⟩ := auto_ok rtol names arrs h
  have hcc := auto_cells rtol names arrs h h2 crds hc
  constructor
  · intro hd hne
    refine ⟨wrapField dat crds true .node, ?_, (wrap_flat' dat crds .node n (by rw [hd, ← hs]; rfl)).1, hc⟩
    unfold arrays2field
    rw [hc]
    unfold discover
    rw [hd] at hne
    simp only [hs, hd, hcc, (len_shapes arrs).1, List.length_cons, List.tail_cons, if_neg hne, if_true, if_neg (by omega : ¬ arrs.length + 1 = arrs.length)]
    by_cases hq : nodeShape arrs = (n :: nodeShape arrs).dropLast
    · rw [if_pos hq]
    · rw [if_neg hq]
  · intro hd hne
    refine ⟨wrapField dat crds true .cell, ?_, (wrap_flat' dat crds .cell n (by rw [hd, ← hcc]; rfl)).1, hc⟩
    unfold arrays2field
    rw [hc]
    unfold discover
    rw [hd] at hne
    simp only [hs, hd, hcc, (len_shapes arrs).1, (len_shapes arrs).2, List.length_cons, List.tail_cons, if_neg hne, if_true, if_neg (by omega : ¬ arrs.length + 1 = arrs.length),
      if_neg (shape_cells arrs h.1 h2)]
    by_cases hq : cellShape arrs = (n :: cellShape arrs).dropLast
    · rw [if_pos hq]
    · rw [if_neg hq]

example : Proper xyzuvw [[0, 1, 4], [0, 1]] ∧ (∀ a ∈ [[0, 1, 4], [0, 1]], 2 ≤ (a : List ℚ).length) ∧ nodeShape [[0, 1, 4], [0, 1]] = [3, 2] ∧
    cellShape [[0, 1, 4], [0, 1]] ≠ [5, 3, 2].dropLast ∧ ∃ a ∈ ([[0, 1, 4], [0, 1]] : List (List ℚ)), a.length ≠ 3 := by
  refine ⟨⟨by simp, by simp [xyzuvw], by simp⟩, by simp, rfl, by decide, ⟨_, List.mem_cons_of_mem _ List.mem_cons_self, by decide⟩⟩

/-- C158: with as many points along each axis as components, components that come last are taken to come first, although `arrays2field` says interlaced -/
theorem C158_cube_violated (rtol : ℚ) (names : List String) (arrs : List (List ℚ)) (h : Proper names arrs) (dat : Arr α) (n : Nat)
    (hd : dat.shape = nodeShape arrs ++ [n]) (hn : ∀ a ∈ arrs, a.length = n) :
    ∃ m, arrays2field rtol .auto names arrs dat = .ok m ∧ m.layout = .flat ∧ IsVector m .node (fun c idx => dat.get (c :: idx)) := by
  obtain ⟨crds, hc, hs, _⟩ := auto_ok rtol names arrs h
  have hr : nodeShape arrs = List.replicate arrs.length n := by
    rw [List.eq_replicate_iff]
    refine ⟨(len_shapes arrs).1, fun b hb => ?_⟩
    obtain ⟨a, ha, rfl⟩ := List.mem_map.1 hb
    exact hn a ha
  have := wrap_flat' dat crds .node n (by
    rw [hd]
    show nodeShape arrs ++ [n] = n :: crds.shapeNc
    rw [hs, hr, ← List.replicate_succ, List.replicate_succ'])
  refine ⟨wrapField dat crds true .node, ?_, this.2, this.1⟩
  unfold arrays2field
  rw [hc]
  unfold discover
  simp [hs, hd]

theorem discover_error (crds : Crds) (shape : List Nat) (h1 : shape ≠ crds.shapeNc) (h2 : shape ≠ crds.shapeCc) (h3 : shape.dropLast ≠ crds.shapeNc)
    (h4 : shape.dropLast ≠ crds.shapeCc) (h5 : shape.tail ≠ crds.shapeNc) (h6 : shape.tail ≠ crds.shapeCc) : discover crds shape = .error .value := by
  unfold discover
  simp [h1.symm, h2.symm, h3.symm, h4.symm, h5.symm, h6.symm]

/-- C158: arrays of other shapes are a ValueError -/
theorem C158_refused (rtol : ℚ) (names : List String) (arrs : List (List ℚ)) (h : Proper names arrs) (hl : ∀ a ∈ arrs, 2 ≤ a.length) (dat : Arr α)
    (h1 : ∀ s ∈ [nodeShape arrs, cellShape arrs], dat.shape ≠ s ∧ dat.shape.dropLast ≠ s ∧ dat.shape.tail ≠ s) :
    arrays2field rtol .auto names arrs dat = .error .value := by
  obtain ⟨crds, hc, hs, _⟩ := auto_ok rtol names arrs h
  have hcc := auto_cells rtol names arrs h hl crds hc
  have hn := h1 _ List.mem_cons_self
  have hk := h1 _ (List.mem_cons_of_mem _ List.mem_cons_self)
  rw [← hs] at hn
  rw [← hcc] at hk
  unfold arrays2field
  rw [hc]
  simp only [discover_error crds dat.shape hn.1 hk.1 hn.2.1 hk.2.1 hn.2.2 hk.2.2]

/-! ### `dat2field` -/

theorem arange_even (n : Nat) : arange n = even 0 1 n := by
  simp [arange, even]

theorem arange_proper (s : List Nat) (h0 : s ≠ []) (h6 : s.length ≤ 6) (hp : ∀ n ∈ s, n ≠ 0) : Proper xyzuvw (s.map arange) := by
  refine ⟨by simpa using h0, by simpa [xyzuvw] using h6, ?_⟩
  intro a ha
  obtain ⟨n, hn, rfl⟩ := List.mem_map.1 ha
  intro e
  have := congrArg List.length e
  simp [arange] at this
  exact hp n hn this

theorem arange_shape (s : List Nat) : nodeShape (s.map arange) = s := by
  simp [nodeShape, Function.comp_def, arange]

theorem arange_cells (s : List Nat) : cellShape (s.map arange) = s.map (· - 1) := by
  simp [cellShape, Function.comp_def, arange]

/-- C158: `dat2field` of a scalar array, or one with the components last (but not as many as points along each axis), is a node centred field with these
values; its coordinates are 0, 1, 2, … -/
theorem C158_dat2field (rtol : ℚ) (hr : 0 ≤ rtol) (dat : Arr α) (s : List Nat) (h0 : s ≠ []) (h6 : s.length ≤ 6) (hp : ∀ n ∈ s, n ≠ 0) :
    (dat.shape = s → ∃ m, dat2field rtol .scalar dat = .ok m ∧ IsScalar m .node dat ∧ m.crds.nodes = xyzuvw.zip (s.map (even 0 1))) ∧
    (∀ n, dat.shape = s ++ [n] → (∃ k ∈ s, k ≠ n) →
      ∃ m, dat2field rtol .interlaced dat = .ok m ∧ IsVector m .node (fun c idx => dat.get (idx ++ [c])) ∧ m.crds.nodes = xyzuvw.zip (s.map (even 0 1))) := by
  have hpr := arange_proper s h0 h6 hp
  obtain ⟨crds, hc, hn⟩ := C157_even rtol hr xyzuvw (s.map arange) hpr (by
    intro a ha
    obtain ⟨n, _, rfl⟩ := List.mem_map.1 ha
    exact ⟨0, 1, n, arange_even n⟩) .auto (.inl rfl)
  have hfe : s.map arange = s.map (even 0 1) := List.map_congr_left fun n _ => arange_even n
  constructor
  · intro hd
    obtain ⟨m, hm, hi, hcm⟩ := (C158_scalar rtol xyzuvw (s.map arange) hpr dat).1 (by rw [hd, arange_shape])
    rw [hc] at hcm
    refine ⟨m, ?_, hi, ?_⟩
    · show arrays2field rtol .auto xyzuvw (dat.shape.map arange) dat = _
      rw [hd, hm]
    · rw [← Except.ok.inj hcm, hn, hfe]
  · rintro n hd ⟨k, hk, hne⟩
    obtain ⟨m, hm, hi, hcm⟩ := (C158_interlaced_partial rtol xyzuvw (s.map arange) hpr dat n).1 (by rw [hd, arange_shape])
      ⟨arange k, List.mem_map_of_mem hk, by simpa [arange] using hne⟩
    rw [hc] at hcm
    refine ⟨m, ?_, hi, ?_⟩
    · show arrays2field rtol .auto xyzuvw (dat.shape.dropLast.map arange) dat = _
      rw [hd, List.dropLast_concat, hm]
    · rw [← Except.ok.inj hcm, hn, hfe]

/-- C158: with the components first, if the sizes do not go up by one from the number of components -/
theorem C158_dat2field_flat_partial (rtol : ℚ) (dat : Arr α) (s : List Nat) (n : Nat) (h0 : s ≠ []) (h6 : s.length ≤ 6) (hp : ∀ n ∈ s, 2 ≤ n)
    (hd : dat.shape = n :: s) (hne : s.map (· - 1) ≠ (n :: s).dropLast) :
    ∃ m, dat2field rtol .flat dat = .ok m ∧ IsVector m .node (fun c idx => dat.get (c :: idx)) := by
  have hpr := arange_proper s h0 h6 fun n hn => by have := hp n hn; omega
  obtain ⟨m, hm, hi, _⟩ := (C158_flat_partial rtol xyzuvw (s.map arange) hpr (by
    intro a ha
    obtain ⟨k, hk, rfl⟩ := List.mem_map.1 ha
    simpa [arange] using hp k hk) dat n).1 (by rw [hd, arange_shape]) (by rw [hd, arange_cells]; exact hne)
  refine ⟨m, ?_, hi⟩
  show arrays2field rtol .auto xyzuvw (dat.shape.tail.map arange) dat = _
  rw [hd, List.tail_cons, hm]

/-- C158: if they do, the array is taken for a cell centred field with the components last: 3 components of 4 points become 4 components of 3 cells -/
theorem C158_dat2field_flat_violated (rtol : ℚ) (dat : Arr α) (s : List Nat) (n : Nat) (h0 : s ≠ []) (h6 : s.length ≤ 6) (hp : ∀ n ∈ s, 2 ≤ n)
    (hd : dat.shape = n :: s) (he : s.map (· - 1) = (n :: s).dropLast) :
    ∃ m, dat2field rtol .flat dat = .ok m ∧ IsVector m .cell (fun c idx => dat.get (idx ++ [c])) := by
  have hpr := arange_proper s h0 h6 fun n hn => by have := hp n hn; omega
  obtain ⟨crds, hc, hs, _⟩ := auto_ok rtol xyzuvw (s.map arange) hpr
  have h2 : ∀ a ∈ s.map arange, 2 ≤ a.length := by
    intro a ha
    obtain ⟨k, hk, rfl⟩ := List.mem_map.1 ha
    simpa [arange] using hp k hk
  have hcc := auto_cells rtol xyzuvw (s.map arange) hpr h2 crds hc
  rw [arange_cells] at hcc
  rw [arange_shape] at hs
  have hlast : (n :: s) = s.map (· - 1) ++ [s.getLast h0] := by
    rw [he]
    have := (List.dropLast_append_getLast (l := n :: s) (by simp)).symm
    rwa [List.getLast_cons h0] at this
  have hsn : s ≠ s.map (· - 1) := by
    intro e
    obtain ⟨a, l, rfl⟩ := List.exists_cons_of_ne_nil h0
    simp only [List.map_cons, List.cons.injEq] at e
    have := hp a (by simp)
    omega
  refine ⟨wrapField dat crds true .cell, ?_, (wrap_interlaced' dat crds .cell (s.getLast h0) (by
      rw [hd, hlast]
      show _ = crds.shapeCc ++ _
      rw [hcc]) (by
      show crds.shapeCc ≠ List.replicate crds.shapeCc.length _
      rw [hcc]
      intro e
      have hm : s.getLast h0 - 1 ∈ s.map (· - 1) := List.mem_map_of_mem (List.getLast_mem h0)
      rw [e] at hm
      have := List.eq_of_mem_replicate hm
      have := hp _ (List.getLast_mem h0)
      omega)).1⟩
  show arrays2field rtol .auto xyzuvw (dat.shape.tail.map arange) dat = _
  unfold arrays2field
  rw [hd, List.tail_cons, hc]
  unfold discover
  simp only [hs, hcc, List.length_cons, if_neg (by omega : ¬ s.length + 1 = s.length), if_true, ← he, if_neg hsn]

example : [4].map (· - 1) = [3, 4].dropLast ∧ [3, 4].map (· - 1) = [2, 3, 4].dropLast := by decide

/-- C158: an unknown type or layout is a ValueError, an array without points along an axis an IndexError -/
theorem C158_dat2field_errors (rtol : ℚ) (hr : 0 ≤ rtol) (dat : Arr α) : dat2field rtol .unknown dat = .error .value ∧
    (∀ s, dat.shape = 0 :: s → dat2field rtol .scalar dat = .error .index) ∧ (dat.shape = [] → dat2field rtol .scalar dat = .error .index) := by
  refine ⟨rfl, ?_, ?_⟩
  · intro s hd
    show arrays2field rtol .auto xyzuvw (dat.shape.map arange) dat = _
    unfold arrays2field
    rw [hd, List.map_cons, show arange 0 = [] from rfl, xyzuvw, C157_empty_violated rtol hr]
  · intro hd
    show arrays2field rtol .auto xyzuvw (dat.shape.map arange) dat = _
    rw [hd]
    rfl

/-! ### `full` -/

theorem full_vector (crds : Crds) (v : α) (c : Center) (il : Bool) (n : Nat) (hn : n ≠ 0) :
    fullOn crds v c il n = wrapField ⟨if il then pts crds c ++ [n] else n :: pts crds c, fun _ => v⟩ crds true c := by
  unfold fullOn pts
  cases c <;> simp [hn]

theorem cube_swap (s : List Nat) (n : Nat) (h : s = List.replicate s.length n) : s ++ [n] = n :: s := by
  rw [h, ← List.replicate_succ, List.replicate_succ']

/-- C158: `full`: a field with this value everywhere, for scalar fields and vector fields -/
theorem C158_full (crds : Crds) (v : α) (c : Center) (il : Bool) (n : Nat) :
    (fullOn crds v c il n).crds = crds ∧ (fullOn crds v c il n).center = c ∧ ((fullOn crds v c il n).vector = true ↔ n ≠ 0) ∧
      ∀ k idx, value (fullOn crds v c il n) k idx = some v := by
  by_cases hn : n = 0
  · subst hn
    have e : fullOn crds v c il 0 = wrapField ⟨pts crds c, fun _ => v⟩ crds false c := by
      unfold fullOn pts
      cases c <;> simp
    have := wrap_scalar ⟨pts crds c, fun _ => v⟩ crds c rfl
    rw [e]
    refine ⟨rfl, rfl, ?_, this.values⟩
    rw [this.vector]
    simp
  · rw [full_vector crds v c il n hn]
    refine ⟨rfl, rfl, by simp [wrapField, hn], ?_⟩
    cases il with
    | false => exact (wrap_flat _ crds c n).1.values
    | true =>
      simp only [if_true]
      by_cases hne : pts crds c = List.replicate (pts crds c).length n
      · rw [cube_swap _ n hne]
        exact (wrap_flat _ crds c n).1.values
      · exact (wrap_interlaced _ crds c n hne).1.values

/-- C158: and with the layout that was asked for, unless there are as many points along each axis as components: then it is flat -/
theorem C158_full_layout_violated (crds : Crds) (v : α) (c : Center) (n : Nat) (hn : n ≠ 0) :
    (fullOn crds v c false n).layout = .flat ∧
    ((∃ k ∈ (fullOn crds v c true n).sshape, k ≠ n) → (fullOn crds v c true n).layout = .interlaced) ∧
    ((∀ k ∈ (fullOn crds v c true n).sshape, k = n) → (fullOn crds v c true n).layout = .flat) := by
  rw [full_vector crds v c _ n hn, full_vector crds v c _ n hn, sshape_pts]
  simp only [if_true]
  refine ⟨(wrap_flat _ crds c n).2, ?_, ?_⟩
  · rintro ⟨k, hk, hne⟩
    refine (wrap_interlaced _ crds c n fun e => ?_).2
    have hk : k ∈ pts crds c := hk
    rw [e] at hk
    exact hne (List.eq_of_mem_replicate hk)
  · intro hall
    rw [cube_swap (pts crds c) n (List.eq_replicate_iff.2 ⟨rfl, hall⟩)]
    exact (wrap_flat _ crds c n).2

example : (fullOn (.arrays [("x", [0, 1, 5]), ("y", [0, 1, 2]), ("z", [0, 2, 3])]) (7 : Nat) .node true 3).sshape = [3, 3, 3] := rfl

/-- C158: integers are the shape of the nodes, and a cell centred field (which is the default) has one point less along each axis; the documentation calls
them the shape -/
theorem C158_full_shape_violated (rtol : ℚ) (hr : 0 ≤ rtol) (ns : List Nat) (h0 : ns ≠ []) (h6 : ns.length ≤ 6) (hp : ∀ n ∈ ns, n ≠ 0) (v : α) :
    (∃ m, fullOf rtol ns v .node false 0 = .ok m ∧ m.sshape = ns ∧ m.dat.shape = ns) ∧
    ∃ m, fullOf rtol ns v .cell false 0 = .ok m ∧ m.sshape = ns.map (· - 1) ∧ m.dat.shape = ns.map (· - 1) := by
  have hpr := arange_proper ns h0 h6 hp
  obtain ⟨crds, hc, hs, _⟩ := auto_ok rtol xyzuvw (ns.map arange) hpr
  rw [arange_shape] at hs
  have hcc : crds.shapeCc = ns.map (· - 1) := by
    obtain ⟨us, hus, hf⟩ := axesOf_ok rtol (xyzuvw.zip (ns.map arange)) (zip_ne_nil _ _ hpr.2.2)
    have hall : us.all (fun u => u.2.isSome) = true := by
      rw [entries_all rtol _ us hf, List.all_eq_true]
      intro a ha
      obtain ⟨n, _, e⟩ := List.mem_map.1 (List.of_mem_zip ha).2
      rw [← e, arange_even]
      exact close_even rtol hr 0 1 n
    unfold arrays2crds at hc
    rw [if_neg hpr.1, hus] at hc
    simp only [if_pos hall] at hc
    cases hc
    rw [← hs]
    simp [Crds.shapeCc, Crds.shapeNc, Uniform.shapeCc, Function.comp_def]
  refine ⟨⟨fullOn crds v .node false 0, ?_, hs, hs⟩, fullOn crds v .cell false 0, ?_, hcc, hcc⟩
  · unfold fullOf; rw [hc]
  · unfold fullOf; rw [hc]

/-- C158: `full_like` keeps coordinates, centering, type and layout -/
theorem C158_full_like (m : Made α) (v : β) (n : Nat) (hs : m.dat.shape = if m.vector then n :: m.sshape else m.sshape) :
    ∃ m', fullLike m v = .ok m' ∧ m'.crds = m.crds ∧ m'.center = m.center ∧ m'.vector = m.vector ∧ m'.layout = m.layout ∧ m'.dat.shape = m.dat.shape ∧
      ∀ k idx, value m' k idx = some v := by
  obtain ⟨crds, c, vec, dat⟩ := m
  obtain ⟨shape, g⟩ := dat
  cases vec with
  | false =>
    simp only [Bool.false_eq_true, if_false] at hs
    have := wrap_scalar (⟨(Made.mk crds c false (⟨shape, g⟩ : Arr α)).sshape, fun _ => v⟩ : Arr β) crds c (sshape_pts _)
    refine ⟨_, rfl, rfl, rfl, this.vector, ?_, hs.symm, this.values⟩
    have h := this.vector
    show (wrapField (⟨(Made.mk crds c false (⟨shape, g⟩ : Arr α)).sshape, fun _ => v⟩ : Arr β) crds false c).layout = _
    unfold Made.layout
    rw [h]
    rfl
  | true =>
    simp only [if_true] at hs
    rw [sshape_pts] at hs
    simp only at hs
    subst hs
    have hw := wrap_flat (fun _ => v) crds c n
    have hw' := wrap_flat g crds c n
    have hl : (Made.mk crds c true (⟨n :: pts crds c, g⟩ : Arr α)).layout = .flat := hw'.2
    refine ⟨wrapField ⟨n :: pts crds c, fun _ => v⟩ crds true c, ?_, rfl, rfl, rfl, hw.2.trans hl.symm, rfl, hw.1.values⟩
    unfold fullLike
    rw [sshape_pts]
    unfold Layout.Fld.shape Layout.Fld.nrComp Layout.Fld.nrComps Layout.Fld.layout
    simp only [new, (C55_detect (pts crds c) n).1]
    rfl

example : (⟨.arrays [("x", [0, 1, 5]), ("y", [0, 1])], .node, true, ⟨[2, 3, 2], fun i => i.sum⟩⟩ : Made Nat).dat.shape =
    if true then 2 :: (⟨.arrays [("x", [0, 1, 5]), ("y", [0, 1])], .node, true, ⟨[2, 3, 2], fun i => i.sum⟩⟩ : Made Nat).sshape else [] := rfl

end Viscid.Props
