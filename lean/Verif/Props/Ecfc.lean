import Verif.Lemmas.Ecfc
import Mathlib.Tactic.FinCases
/-!
# C41, C68: face and edge centred fields
-/
namespace Viscid.Ecfc
open Viscid.Spec.Ecfc

theorem prep_ge2 {n : Nat} (h : 2 ≤ n) : prepSlices n = (.upto, .upto, .from1) := by
  unfold prepSlices; rw [if_neg (by omega)]

theorem getD_dropLast (l : List ℚ) (i : Nat) (h : i + 1 < l.length) : l.dropLast.getD i 0 = l.getD i 0 := by
  rw [List.getD_eq_getElem?_getD, List.getD_eq_getElem?_getD, List.getElem?_dropLast, if_pos (by omega)]

/-- The three difference quotients of a leading field. -/
def quotients (F : Fin 3 → Nat → Nat → Nat → ℚ) (x : Fin 3 → Nat → ℚ) (i j k : Nat) : ℚ :=
  (F 0 (i + 1) j k - F 0 i j k) / (x 0 (i + 1) - x 0 i) + (F 1 i (j + 1) k - F 1 i j k) / (x 1 (j + 1) - x 1 j) +
    (F 2 i j (k + 1) - F 2 i j k) / (x 2 (k + 1) - x 2 k)

theorem divFc_cells {f g : Fld} (hg : makeLeading f = .ok g) (hn : ∀ d, 2 ≤ g.n d)
    (hx : ∀ d, (g.nodes d).length = g.n d + 1)
    (hi : ∀ d i, i + 1 < (g.nodes d).length → (g.nodes d).getD i 0 < (g.nodes d).getD (i + 1) 0) :
    ∃ s, divFc f = .ok s ∧ (∀ d, s.n d = g.n d - 1) ∧
      ∀ i j k, i + 1 < g.n 0 → j + 1 < g.n 1 → k + 1 < g.n 2 →
        s.at' i j k = some (quotients g.comp (fun d i => (g.nodes d).getD i 0) i j k) := by
  have h0 : ∀ d, s0 g d = .upto := fun d => by unfold s0; rw [prep_ge2 (hn d)]
  have hm : ∀ d, sm g d = .upto := fun d => by unfold sm; rw [prep_ge2 (hn d)]
  have hp : ∀ d, sp g d = .from1 := fun d => by unfold sp; rw [prep_ge2 (hn d)]
  have hok : prepOk g = true := by
    unfold prepOk
    have := hn 0; have := hn 1; have := hn 2
    exact decide_eq_true ⟨by omega, by omega, by omega⟩
  have hfit : nodesFit g = true := by
    unfold nodesFit
    refine decide_eq_true fun d => ?_
    rw [h0, hm, hp, hx d]
    have := hn d
    exact ⟨rfl, rfl⟩
  refine ⟨_, by unfold divFc; rw [hg]; simp only [hok, hfit, not_true_eq_false, if_false]; rfl, ?_, ?_⟩
  · intro d; show (s0 g d).len (g.n d) = _; rw [h0]; rfl
  · intro i j k hi' hj' hk'
    have hne : ∀ d m, m + 1 < g.n d → (g.nodes d).dropLast.getD (m + 1) 0 - (g.nodes d).dropLast.getD m 0 =
        (g.nodes d).getD (m + 1) 0 - (g.nodes d).getD m 0 ∧ (g.nodes d).getD (m + 1) 0 - (g.nodes d).getD m 0 ≠ 0 := by
      intro d m hm'
      have hl := hx d
      rw [getD_dropLast _ _ (by omega), getD_dropLast _ _ (by omega)]
      have := hi d m (by omega)
      exact ⟨rfl, by intro h; linarith⟩
    have t0 : divTerm g 0 i j k i = some ((g.comp 0 (i + 1) j k - g.comp 0 i j k) /
        ((g.nodes 0).getD (i + 1) 0 - (g.nodes 0).getD i 0)) := by
      obtain ⟨he, hz⟩ := hne 0 i hi'
      simp only [divTerm, Arr.slice, Fld.arr, faceSl, h0, hm, hp, if_true, Sl.off, Bool.false_eq_true, if_false,
        show ¬ ((1 : Fin 3) = 0) by decide, show ¬ ((2 : Fin 3) = 0) by decide, Nat.add_zero]
      rw [fdiv, he, if_neg hz]
    have t1 : divTerm g 1 i j k j = some ((g.comp 1 i (j + 1) k - g.comp 1 i j k) /
        ((g.nodes 1).getD (j + 1) 0 - (g.nodes 1).getD j 0)) := by
      obtain ⟨he, hz⟩ := hne 1 j hj'
      simp only [divTerm, Arr.slice, Fld.arr, faceSl, h0, hm, hp, if_true, Sl.off, Bool.false_eq_true, if_false,
        show ¬ ((0 : Fin 3) = 1) by decide, show ¬ ((2 : Fin 3) = 1) by decide, Nat.add_zero]
      rw [fdiv, he, if_neg hz]
    have t2 : divTerm g 2 i j k k = some ((g.comp 2 i j (k + 1) - g.comp 2 i j k) /
        ((g.nodes 2).getD (k + 1) 0 - (g.nodes 2).getD k 0)) := by
      obtain ⟨he, hz⟩ := hne 2 k hk'
      simp only [divTerm, Arr.slice, Fld.arr, faceSl, h0, hm, hp, if_true, Sl.off, Bool.false_eq_true, if_false,
        show ¬ ((0 : Fin 3) = 2) by decide, show ¬ ((1 : Fin 3) = 2) by decide, Nat.add_zero]
      rw [fdiv, he, if_neg hz]
    show add3 _ _ _ = _
    rw [t0, t1, t2]
    rfl

theorem pairwise_getD {l : List ℚ} (h : l.Pairwise (· < ·)) (i : Nat) (hi : i + 1 < l.length) :
    l.getD i 0 < l.getD (i + 1) 0 := by
  have h1 : i < l.length := by omega
  rw [List.getD_eq_getElem?_getD, List.getD_eq_getElem?_getD, List.getElem?_eq_getElem h1, List.getElem?_eq_getElem hi]
  exact List.pairwise_iff_getElem.mp h i (i + 1) (by omega) hi (by omega)

/-- C41, divergence theorem, for fields that are leading staggered (any field not read from an OpenGGCM
file) with at least two cells along each axis and increasing nodes: the divergence is a number in every
cell, and its sum times the cell volumes over any block of cells is the net flux through the block's outer
faces.  Missing (and false, see below): axes with a single cell. -/
theorem C41_divergence_theorem_partial (f : Fld) (hp : f.preprocessed ≠ some false) (hn : ∀ d, 2 ≤ f.n d)
    (hx : ∀ d, (f.nodes d).length = f.n d + 1) (hinc : ∀ d, (f.nodes d).Pairwise (· < ·)) :
    ∃ s, divFc f = .ok s ∧ (∀ d, s.n d = f.n d - 1) ∧
      (∀ i j k, i < s.n 0 → j < s.n 1 → k < s.n 2 → (s.at' i j k).isSome) ∧
      ∀ i0 i1 j0 j1 k0 k1, i0 ≤ i1 → i1 ≤ s.n 0 → j0 ≤ j1 → j1 ≤ s.n 1 → k0 ≤ k1 → k1 ≤ s.n 2 →
        ∑ i ∈ Finset.Ico i0 i1, ∑ j ∈ Finset.Ico j0 j1, ∑ k ∈ Finset.Ico k0 k1,
          (s.at' i j k).getD 0 * vol (fun d i => (f.nodes d).getD i 0) i j k =
        blockFlux f.comp (fun d i => (f.nodes d).getD i 0) i0 i1 j0 j1 k0 k1 := by
  obtain ⟨g, hg, h1, h2, h3⟩ := makeLeading_asis f hp
  obtain ⟨s, hs, hsn, hv⟩ := divFc_cells hg (fun d => by rw [h1]; exact hn d)
    (fun d => by rw [h1, h3]; exact hx d) (fun d i hi => by rw [h3] at hi ⊢; exact pairwise_getD (hinc d) i hi)
  rw [h1] at hsn hv
  rw [h2, h3] at hv
  refine ⟨s, hs, hsn, ?_, ?_⟩
  · intro i j k hi hj hk
    rw [hsn] at hi hj hk
    rw [hv i j k (by omega) (by omega) (by omega)]
    rfl
  · intro i0 i1 j0 j1 k0 k1 hi hi1 hj hj1 hk hk1
    rw [hsn] at hi1 hj1 hk1
    have hd : ∀ d m, m + 1 < (f.nodes d).length → (f.nodes d).getD (m + 1) 0 - (f.nodes d).getD m 0 ≠ 0 := by
      intro d m hm h
      have := pairwise_getD (hinc d) m hm
      linarith
    have := hn 0; have := hn 1; have := hn 2
    refine telescope f.comp _ _ i0 i1 j0 j1 k0 k1 hi hj hk ?_ ?_ ?_ ?_
    · intro i hi'; have := Finset.mem_Ico.mp hi'; exact hd 0 i (by rw [hx]; omega)
    · intro i hi'; have := Finset.mem_Ico.mp hi'; exact hd 1 i (by rw [hx]; omega)
    · intro i hi'; have := Finset.mem_Ico.mp hi'; exact hd 2 i (by rw [hx]; omega)
    · intro i hi' j hj' k hk'
      have := Finset.mem_Ico.mp hi'; have := Finset.mem_Ico.mp hj'; have := Finset.mem_Ico.mp hk'
      rw [hv i j k (by omega) (by omega) (by omega)]
      rfl

/-- Value of component `c` on the lower face, along `c`, of interior cell (i + 1, j + 1, k + 1). -/
def lowerFace (f : Fld) (c : Fin 3) (i j k : Nat) : ℚ :=
  match c with
  | 0 => f.comp 0 (low (f.stag 0) (f.flip 0) (i + 1)) (j + 1) (k + 1)
  | 1 => f.comp 1 (i + 1) (low (f.stag 1) (f.flip 1) (j + 1)) (k + 1)
  | 2 => f.comp 2 (i + 1) (j + 1) (low (f.stag 2) (f.flip 2) (k + 1))

theorem raw_face (f : Fld) (hp : f.preprocessed = some false) (hc : f.center = .face) (hn : ∀ d, 2 ≤ f.n d) :
    ∃ g, makeLeading f = .ok g ∧ (∀ d, g.n d = f.n d - 1) ∧ (∀ d, g.nodes d = (f.nodes d).drop 1) ∧
      ∀ c i j k, i < f.n 0 - 1 → j < f.n 1 - 1 → k < f.n 2 - 1 → g.comp c i j k = lowerFace f c i j k := by
  obtain ⟨g, hg, h1, h2, h3⟩ := makeLeading_raw f hp (by rw [hc]; decide) hn
  refine ⟨g, hg, h1, h2, ?_⟩
  intro c i j k hi hj hk
  rw [h3 c i j k hi hj hk]
  have hne : ∀ d, f.n d ≠ 1 := fun d => by have := hn d; omega
  rw [sd_off_face f hc c 0 (hne c), sd_off_face f hc c 1 (hne c), sd_off_face f hc c 2 (hne c)]
  match c with
  | 0 => rfl
  | 1 => rfl
  | 2 => rfl

theorem getD_drop1 (l : List ℚ) (i : Nat) : (l.drop 1).getD i 0 = l.getD (i + 1) 0 := by
  rw [List.getD_eq_getElem?_getD, List.getD_eq_getElem?_getD, List.getElem?_drop, Nat.add_comm]

/-- C41, divergence theorem, for face fields as read from OpenGGCM files (any staggering and flipping per
axis, at least three cells along each axis): the result covers the interior cells (index shifted by one),
and again sums to the flux through the outer faces of any block. -/
theorem C41_divergence_theorem_raw_partial (f : Fld) (hp : f.preprocessed = some false) (hc : f.center = .face)
    (hn : ∀ d, 3 ≤ f.n d) (hx : ∀ d, (f.nodes d).length = f.n d + 1)
    (hinc : ∀ d, (f.nodes d).Pairwise (· < ·)) :
    ∃ s, divFc f = .ok s ∧ (∀ d, s.n d = f.n d - 2) ∧
      (∀ i j k, i < s.n 0 → j < s.n 1 → k < s.n 2 → (s.at' i j k).isSome) ∧
      ∀ i0 i1 j0 j1 k0 k1, i0 ≤ i1 → i1 ≤ s.n 0 → j0 ≤ j1 → j1 ≤ s.n 1 → k0 ≤ k1 → k1 ≤ s.n 2 →
        ∑ i ∈ Finset.Ico i0 i1, ∑ j ∈ Finset.Ico j0 j1, ∑ k ∈ Finset.Ico k0 k1,
          (s.at' i j k).getD 0 * vol (fun d i => (f.nodes d).getD (i + 1) 0) i j k =
        blockFlux (lowerFace f) (fun d i => (f.nodes d).getD (i + 1) 0) i0 i1 j0 j1 k0 k1 := by
  obtain ⟨g, hg, h1, h3, h2⟩ := raw_face f hp hc (fun d => by have := hn d; omega)
  have hinc' : ∀ d i, i + 1 < (g.nodes d).length → (g.nodes d).getD i 0 < (g.nodes d).getD (i + 1) 0 := by
    intro d i hi
    rw [h3] at hi ⊢
    rw [List.length_drop] at hi
    rw [getD_drop1, getD_drop1]
    exact pairwise_getD (hinc d) (i + 1) (by omega)
  have hlen : ∀ d, (g.nodes d).length = g.n d + 1 := by
    intro d
    rw [h1, h3, List.length_drop, hx d]
    have := hn d; omega
  obtain ⟨s, hs, hsn, hv⟩ := divFc_cells hg (fun d => by rw [h1]; have := hn d; omega) hlen hinc'
  have hsn' : ∀ d, s.n d = f.n d - 2 := fun d => by rw [hsn, h1]; omega
  refine ⟨s, hs, hsn', ?_, ?_⟩
  · intro i j k hi hj hk
    rw [hsn] at hi hj hk
    rw [hv i j k (by omega) (by omega) (by omega)]
    rfl
  · intro i0 i1 j0 j1 k0 k1 hi hi1 hj hj1 hk hk1
    rw [hsn'] at hi1 hj1 hk1
    have hd : ∀ d m, m + 2 < (f.nodes d).length → (f.nodes d).getD (m + 1 + 1) 0 - (f.nodes d).getD (m + 1) 0 ≠ 0 := by
      intro d m hm h
      have := pairwise_getD (hinc d) (m + 1) (by omega)
      linarith
    have := hn 0; have := hn 1; have := hn 2
    refine telescope (lowerFace f) _ _ i0 i1 j0 j1 k0 k1 hi hj hk ?_ ?_ ?_ ?_
    · intro i hi'; have := Finset.mem_Ico.mp hi'; exact hd 0 i (by rw [hx]; omega)
    · intro i hi'; have := Finset.mem_Ico.mp hi'; exact hd 1 i (by rw [hx]; omega)
    · intro i hi'; have := Finset.mem_Ico.mp hi'; exact hd 2 i (by rw [hx]; omega)
    · intro i hi' j hj' k hk'
      have := Finset.mem_Ico.mp hi'; have := Finset.mem_Ico.mp hj'; have := Finset.mem_Ico.mp hk'
      rw [hv i j k (by rw [h1]; omega) (by rw [h1]; omega) (by rw [h1]; omega)]
      simp only [Option.getD_some, quotients]
      rw [h2 0 (i + 1) j k (by omega) (by omega) (by omega), h2 0 i j k (by omega) (by omega) (by omega),
        h2 1 i (j + 1) k (by omega) (by omega) (by omega), h2 1 i j k (by omega) (by omega) (by omega),
        h2 2 i j (k + 1) (by omega) (by omega) (by omega), h2 2 i j k (by omega) (by omega) (by omega)]
      simp only [h3, getD_drop1]

/-- C41: a field whose flux through the outer faces of a block vanishes has total divergence zero there. -/
theorem C41_zero_flux (f : Fld) (hp : f.preprocessed ≠ some false) (hn : ∀ d, 2 ≤ f.n d)
    (hx : ∀ d, (f.nodes d).length = f.n d + 1) (hinc : ∀ d, (f.nodes d).Pairwise (· < ·))
    (h0 : ∀ j k, f.comp 0 0 j k = 0 ∧ f.comp 0 (f.n 0 - 1) j k = 0)
    (h1 : ∀ i k, f.comp 1 i 0 k = 0 ∧ f.comp 1 i (f.n 1 - 1) k = 0)
    (h2 : ∀ i j, f.comp 2 i j 0 = 0 ∧ f.comp 2 i j (f.n 2 - 1) = 0) :
    ∃ s, divFc f = .ok s ∧
      ∑ i ∈ Finset.Ico 0 (s.n 0), ∑ j ∈ Finset.Ico 0 (s.n 1), ∑ k ∈ Finset.Ico 0 (s.n 2),
        (s.at' i j k).getD 0 * vol (fun d i => (f.nodes d).getD i 0) i j k = 0 := by
  obtain ⟨s, hs, hsn, _, hblock⟩ := C41_divergence_theorem_partial f hp hn hx hinc
  refine ⟨s, hs, ?_⟩
  rw [hblock 0 _ 0 _ 0 _ (Nat.zero_le _) (le_refl _) (Nat.zero_le _) (le_refl _) (Nat.zero_le _) (le_refl _)]
  unfold blockFlux
  simp only [hsn, (h0 _ _).1, (h0 _ _).2, (h1 _ _).1, (h1 _ _).2, (h2 _ _).1, (h2 _ _).2, sub_self, zero_mul,
    Finset.sum_const_zero, add_zero]

theorem add3_none_iff (a b c : Option ℚ) : add3 a b c = none ↔ a = none ∨ b = none ∨ c = none := by
  cases a <;> cases b <;> cases c <;> simp [add3]

/-- C41 fails as soon as an axis has a single cell (every 2-D field, after atleast_3d): the divergence is
nan (0 / 0) in every cell. -/
theorem C41_single_cell_violated (f : Fld) (hp : f.preprocessed ≠ some false) (d : Fin 3) (hd : f.n d = 1)
    (s : Scal) (hs : divFc f = .ok s) (i j k : Nat) : s.at' i j k = none := by
  obtain ⟨g, hg, h1, _, _⟩ := makeLeading_asis f hp
  unfold divFc at hs
  rw [hg] at hs
  dsimp only at hs
  split at hs
  · cases hs
  · split at hs
    · cases hs
    · cases hs
      have hsp : sp g d = .all ∧ sm g d = .all := by
        unfold sp sm prepSlices
        rw [h1, if_pos hd]
        exact ⟨rfl, rfl⟩
      have hz : ∀ m, divTerm g d i j k m = none := by
        intro m
        unfold divTerm fdiv
        rw [hsp.1, hsp.2]
        simp
      show add3 _ _ _ = none
      rw [add3_none_iff]
      match d with
      | 0 => exact Or.inl (hz _)
      | 1 => exact Or.inr (Or.inl (hz _))
      | 2 => exact Or.inr (Or.inr (hz _))

/-- A leading field: 3 x 2 x 2 cells, x component i², on nodes 0, 1, 3, 6 etc. -/
def demo : Fld where
  n := fun d => match d with | 0 => 3 | 1 => 2 | 2 => 2
  comp := fun c i j k => match c with | 0 => i * i | 1 => 5 * i + j | 2 => k * j
  nodes := fun d => match d with | 0 => [0, 1, 3, 6] | 1 => [0, 2, 3] | 2 => [1, 2, 4]
  center := .face
  preprocessed := none
  stag := fun _ => .leading
  flip := fun _ => false

/-- `demo` meets the hypotheses of the divergence theorem, and its divergence is not trivial. -/
example : (∀ d, 2 ≤ demo.n d) ∧ (∀ d, (demo.nodes d).length = demo.n d + 1) ∧
    (∀ d, (demo.nodes d).Pairwise (· < ·)) ∧ demo.preprocessed ≠ some false ∧
    (divFc demo).map (fun s => (s.at' 0 0 0, s.at' 1 0 0)) = .ok (some (3 / 2), some 2) := by
  decide +kernel

/-- `demo` on a single layer: the divergence is nan. -/
example : (divFc { demo with n := fun d => match d with | 0 => 3 | 1 => 2 | 2 => 1, nodes := fun d => match d with
    | 0 => [0, 1, 3, 6] | 1 => [0, 2, 3] | 2 => [-1, 1] }).map (fun s => s.at' 0 0 0) = .ok none := by
  decide +kernel

/-! ### averages -/

theorem slice_range (s : Sl) {n i : Nat} (h : i < s.len n) : i + s.off < n := by
  cases s <;> simp only [Sl.len, Sl.off] at * <;> omega

theorem assign_range {n : Fin 3 → Nat} {src : Arr} {g : Nat → Nat → Nat → ℚ} (h : assign n src = .ok g) {v : ℚ}
    (hv : ∀ i j k, i < src.n 0 → j < src.n 1 → k < src.n 2 → src.at' i j k = v) :
    ∀ i j k, i < n 0 → j < n 1 → k < n 2 → g i j k = v := by
  unfold assign at h
  split at h
  · rename_i hc
    cases h
    intro i j k hi hj hk
    obtain ⟨h0, h1, h2⟩ := hc
    refine hv _ _ _ ?_ ?_ ?_ <;> split <;> omega
  · cases h

theorem slice_const (a : Arr) (s : Fin 3 → Sl) {v : ℚ}
    (hv : ∀ i j k, i < a.n 0 → j < a.n 1 → k < a.n 2 → a.at' i j k = v) :
    ∀ i j k, i < (a.slice s).n 0 → j < (a.slice s).n 1 → k < (a.slice s).n 2 → (a.slice s).at' i j k = v :=
  fun _ _ _ hi hj hk => hv _ _ _ (slice_range _ hi) (slice_range _ hj) (slice_range _ hk)

/-- Component `c` has the value `v` in the whole array. -/
def IsConst (f : Fld) (c : Fin 3) (v : ℚ) : Prop :=
  ∀ i j k, i < f.n 0 → j < f.n 1 → k < f.n 2 → f.comp c i j k = v

theorem makeLeading_const {f g : Fld} (h : makeLeading f = .ok g) {c : Fin 3} {v : ℚ} (hv : IsConst f c v) :
    IsConst g c v := by
  unfold makeLeading at h
  split at h
  · cases h; exact hv
  · cases h; exact hv
  · split at h
    · cases h
    · split at h
      · cases h
      · dsimp only at h
        split at h
        · rename_i x y z hx hy hz
          cases h
          match c with
          | 0 => exact assign_range hx (slice_const (f.arr 0) _ hv)
          | 1 => exact assign_range hy (slice_const (f.arr 1) _ hv)
          | 2 => exact assign_range hz (slice_const (f.arr 2) _ hv)
        · cases h

theorem sl_len (n : Nat) : (prepSlices n).2.1.len n = (prepSlices n).1.len n ∧
    (prepSlices n).2.2.len n = (prepSlices n).1.len n := by
  unfold prepSlices
  split
  · exact ⟨rfl, rfl⟩
  · exact ⟨rfl, rfl⟩

theorem faceSl_len (f : Fld) (c : Fin 3) (b : Bool) (d : Fin 3) :
    (faceSl f c b d).len (f.n d) = (s0 f d).len (f.n d) := by
  unfold faceSl
  split
  · cases b
    · exact (sl_len _).1
    · exact (sl_len _).2
  · rfl

theorem edgeSl_len (f : Fld) (c : Fin 3) (a b : Bool) (d : Fin 3) :
    (edgeSl f c a b d).len (f.n d) = (s0 f d).len (f.n d) := by
  have hb : ∀ e : Bool, (if e then sp f d else sm f d).len (f.n d) = (s0 f d).len (f.n d) := by
    intro e
    cases e
    · exact (sl_len _).1
    · exact (sl_len _).2
  unfold edgeSl
  dsimp only
  by_cases h1 : d = c
  · rw [if_pos h1]
  · rw [if_neg h1]
    by_cases h2 : d = if c = 0 then 1 else 0
    · rw [if_pos h2]; exact hb a
    · rw [if_neg h2]; exact hb b

/-- C41: fc2cc reproduces constants exactly, whatever the staggering, flipping and shape (whenever it
returns a result). -/
theorem C41_fc2cc_constant (f : Fld) (r : Vec) (h : fc2cc f = .ok r) (c : Fin 3) (v : ℚ) (hv : IsConst f c v)
    (i j k : Nat) (hi : i < r.n 0) (hj : j < r.n 1) (hk : k < r.n 2) : r.comp c i j k = v := by
  unfold fc2cc at h
  cases hg : makeLeading f with
  | error e => rw [hg] at h; cases h
  | ok g =>
    rw [hg] at h
    dsimp only at h
    split at h
    · cases h
      have hgc := makeLeading_const hg hv
      have key : ∀ b, ((g.arr c).slice (faceSl g c b)).at' i j k = v := by
        intro b
        refine slice_const (g.arr c) (faceSl g c b) hgc i j k ?_ ?_ ?_
        · show i < (faceSl g c b 0).len (g.n 0); rw [faceSl_len]; exact hi
        · show j < (faceSl g c b 1).len (g.n 1); rw [faceSl_len]; exact hj
        · show k < (faceSl g c b 2).len (g.n 2); rw [faceSl_len]; exact hk
      show avg2 _ _ i j k = v
      unfold avg2
      rw [key, key]; ring
    · cases h

/-- C41, edges: ec2cc reproduces constants exactly. -/
theorem C41_ec2cc_constant (f : Fld) (r : Vec) (h : ec2cc f = .ok r) (c : Fin 3) (v : ℚ) (hv : IsConst f c v)
    (i j k : Nat) (hi : i < r.n 0) (hj : j < r.n 1) (hk : k < r.n 2) : r.comp c i j k = v := by
  unfold ec2cc at h
  cases hg : makeLeading f with
  | error e => rw [hg] at h; cases h
  | ok g =>
    rw [hg] at h
    dsimp only at h
    split at h
    · cases h
      have hgc := makeLeading_const hg hv
      have key : ∀ a b, ((g.arr c).slice (edgeSl g c a b)).at' i j k = v := by
        intro a b
        refine slice_const (g.arr c) (edgeSl g c a b) hgc i j k ?_ ?_ ?_
        · show i < (edgeSl g c a b 0).len (g.n 0); rw [edgeSl_len]; exact hi
        · show j < (edgeSl g c a b 1).len (g.n 1); rw [edgeSl_len]; exact hj
        · show k < (edgeSl g c a b 2).len (g.n 2); rw [edgeSl_len]; exact hk
      show avg4 _ _ _ _ i j k = v
      unfold avg4
      rw [key, key, key, key]; ring
    · cases h

theorem fc2cc_cells {f g : Fld} (hg : makeLeading f = .ok g) (hn : ∀ d, 2 ≤ g.n d) :
    ∃ r, fc2cc f = .ok r ∧ (∀ d, r.n d = g.n d - 1) ∧ ∀ i j k,
      r.comp 0 i j k = (g.comp 0 i j k + g.comp 0 (i + 1) j k) / 2 ∧
      r.comp 1 i j k = (g.comp 1 i j k + g.comp 1 i (j + 1) k) / 2 ∧
      r.comp 2 i j k = (g.comp 2 i j k + g.comp 2 i j (k + 1)) / 2 := by
  have h0 : ∀ d, s0 g d = .upto := fun d => by unfold s0; rw [prep_ge2 (hn d)]
  have hm : ∀ d, sm g d = .upto := fun d => by unfold sm; rw [prep_ge2 (hn d)]
  have hp : ∀ d, sp g d = .from1 := fun d => by unfold sp; rw [prep_ge2 (hn d)]
  have hok : prepOk g = true := by
    unfold prepOk
    have := hn 0; have := hn 1; have := hn 2
    exact decide_eq_true ⟨by omega, by omega, by omega⟩
  refine ⟨_, by unfold fc2cc; rw [hg]; simp only [hok, if_true]; rfl, ?_, ?_⟩
  · intro d; show (s0 g d).len (g.n d) = _; rw [h0]; rfl
  · intro i j k
    refine ⟨?_, ?_, ?_⟩ <;>
    · simp only [avg2, Arr.slice, Fld.arr, faceSl, h0, hm, hp, Sl.off, Bool.false_eq_true, if_false, if_true,
        show ¬ ((1 : Fin 3) = 0) by decide, show ¬ ((2 : Fin 3) = 0) by decide, show ¬ ((0 : Fin 3) = 1) by decide,
        show ¬ ((2 : Fin 3) = 1) by decide, show ¬ ((0 : Fin 3) = 2) by decide, show ¬ ((1 : Fin 3) = 2) by decide,
        Nat.add_zero]
      ring

/-- C68, fields that are leading staggered: the value in cell (i, j, k) is the mean of the cell's two
faces along the component's axis. -/
theorem C68_fc2cc_leading_partial (f : Fld) (hp : f.preprocessed ≠ some false) (hn : ∀ d, 2 ≤ f.n d) :
    ∃ r, fc2cc f = .ok r ∧ (∀ d, r.n d = f.n d - 1) ∧ ∀ i j k,
      r.comp 0 i j k = (f.comp 0 i j k + f.comp 0 (i + 1) j k) / 2 ∧
      r.comp 1 i j k = (f.comp 1 i j k + f.comp 1 i (j + 1) k) / 2 ∧
      r.comp 2 i j k = (f.comp 2 i j k + f.comp 2 i j (k + 1)) / 2 := by
  obtain ⟨g, hg, h1, h2, _⟩ := makeLeading_asis f hp
  obtain ⟨r, hr, hrn, hv⟩ := fc2cc_cells hg (fun d => by rw [h1]; exact hn d)
  rw [h1] at hrn
  rw [h2] at hv
  exact ⟨r, hr, hrn, hv⟩

/-- C68, fields read from OpenGGCM files, any staggering and flipping per axis, at least three cells per
axis: entry (i, j, k) of the result is the mean of the two faces of cell (i + 1, j + 1, k + 1). -/
theorem C68_fc2cc_raw_partial (f : Fld) (hp : f.preprocessed = some false) (hc : f.center = .face)
    (hn : ∀ d, 3 ≤ f.n d) :
    ∃ r, fc2cc f = .ok r ∧ (∀ d, r.n d = f.n d - 2) ∧ ∀ i j k, i < r.n 0 → j < r.n 1 → k < r.n 2 →
      r.comp 0 i j k = (f.comp 0 (low (f.stag 0) (f.flip 0) (i + 1)) (j + 1) (k + 1) +
        f.comp 0 (low (f.stag 0) (f.flip 0) (i + 1) + 1) (j + 1) (k + 1)) / 2 ∧
      r.comp 1 i j k = (f.comp 1 (i + 1) (low (f.stag 1) (f.flip 1) (j + 1)) (k + 1) +
        f.comp 1 (i + 1) (low (f.stag 1) (f.flip 1) (j + 1) + 1) (k + 1)) / 2 ∧
      r.comp 2 i j k = (f.comp 2 (i + 1) (j + 1) (low (f.stag 2) (f.flip 2) (k + 1)) +
        f.comp 2 (i + 1) (j + 1) (low (f.stag 2) (f.flip 2) (k + 1) + 1)) / 2 := by
  obtain ⟨g, hg, h1, h3, h2⟩ := raw_face f hp hc (fun d => by have := hn d; omega)
  obtain ⟨r, hr, hrn, hv⟩ := fc2cc_cells hg (fun d => by rw [h1]; have := hn d; omega)
  have hrn' : ∀ d, r.n d = f.n d - 2 := fun d => by rw [hrn, h1]; omega
  refine ⟨r, hr, hrn', ?_⟩
  intro i j k hi hj hk
  rw [hrn'] at hi hj hk
  have hlow : ∀ s b m, low s b (m + 2) = low s b (m + 1) + 1 := by
    intro s b m; cases s <;> cases b <;> simp [low]
  obtain ⟨v0, v1, v2⟩ := hv i j k
  rw [h2 0 i j k (by omega) (by omega) (by omega), h2 0 (i + 1) j k (by omega) (by omega) (by omega)] at v0
  rw [h2 1 i j k (by omega) (by omega) (by omega), h2 1 i (j + 1) k (by omega) (by omega) (by omega)] at v1
  rw [h2 2 i j k (by omega) (by omega) (by omega), h2 2 i j (k + 1) (by omega) (by omega) (by omega)] at v2
  refine ⟨?_, ?_, ?_⟩
  · rw [v0]; simp only [lowerFace, hlow]
  · rw [v1]; simp only [lowerFace, hlow]
  · rw [v2]; simp only [lowerFace, hlow]

/-- Edge fields: offset along the component's own axis and along the others. -/
theorem sd_off_edge (f : Fld) (hc : f.center = .edge) (i j : Fin 3) (hi : f.n i ≠ 1) (m : Nat) :
    m + (sd f i j).off = if i = j then m + 1 else low (f.stag i) (f.flip j) (m + 1) := by
  unfold sd
  have hcf : ¬ (f.center = .face) := by rw [hc]; decide
  rw [if_neg hi]
  simp only [if_neg hcf]
  by_cases hij : i = j
  · subst hij
    simp only [bne_self_eq_false, Bool.and_false, Bool.false_eq_true, if_false, if_true]
    cases f.stag i <;> simp [offsets, pick, Sl.off]
  · have : (i != j) = true := by simpa using hij
    simp only [this, if_neg hij, Bool.and_true, if_true]
    cases f.stag i <;> cases f.flip j <;> simp [offsets, pick, Sl.off, low]

/-- C68, edges, OpenGGCM files with the same staggering on all axes and any flipping: entry (i, j, k) of the
result is the mean of the four edges of cell (i + 1, j + 1, k + 1) along the component's axis. -/
theorem C68_ec2cc_raw_partial (f : Fld) (st : Stag) (hst : ∀ d, f.stag d = st) (hp : f.preprocessed = some false)
    (hc : f.center = .edge) (hn : ∀ d, 3 ≤ f.n d) :
    ∃ r, ec2cc f = .ok r ∧ (∀ d, r.n d = f.n d - 2) ∧ ∀ i j k, i < r.n 0 → j < r.n 1 → k < r.n 2 →
      let I := low st (f.flip 0) (i + 1); let J := low st (f.flip 1) (j + 1); let K := low st (f.flip 2) (k + 1)
      r.comp 0 i j k = (f.comp 0 (i + 1) J K + f.comp 0 (i + 1) J (K + 1) +
        f.comp 0 (i + 1) (J + 1) K + f.comp 0 (i + 1) (J + 1) (K + 1)) / 4 ∧
      r.comp 1 i j k = (f.comp 1 I (j + 1) K + f.comp 1 I (j + 1) (K + 1) +
        f.comp 1 (I + 1) (j + 1) K + f.comp 1 (I + 1) (j + 1) (K + 1)) / 4 ∧
      r.comp 2 i j k = (f.comp 2 I J (k + 1) + f.comp 2 I (J + 1) (k + 1) +
        f.comp 2 (I + 1) J (k + 1) + f.comp 2 (I + 1) (J + 1) (k + 1)) / 4 := by
  obtain ⟨g, hg, h1, _, h2⟩ := makeLeading_raw f hp (by rw [hc]; decide) (fun d => by have := hn d; omega)
  have hne : ∀ d, f.n d ≠ 1 := fun d => by have := hn d; omega
  have hgn : ∀ d, 2 ≤ g.n d := fun d => by rw [h1]; have := hn d; omega
  have h0 : ∀ d, s0 g d = .upto := fun d => by unfold s0; rw [prep_ge2 (hgn d)]
  have hm : ∀ d, sm g d = .upto := fun d => by unfold sm; rw [prep_ge2 (hgn d)]
  have hpl : ∀ d, sp g d = .from1 := fun d => by unfold sp; rw [prep_ge2 (hgn d)]
  have hok : prepOk g = true := by
    unfold prepOk
    have := hgn 0; have := hgn 1; have := hgn 2
    exact decide_eq_true ⟨by omega, by omega, by omega⟩
  have hrn : ∀ d, (s0 g d).len (g.n d) = f.n d - 2 := by
    intro d; rw [h0, h1]; show f.n d - 1 - 1 = _; omega
  refine ⟨_, by unfold ec2cc; rw [hg]; simp only [hok, if_true]; rfl, hrn, ?_⟩
  intro i j k hi hj hk
  have hi' : i < f.n 0 - 2 := by rw [← hrn 0]; exact hi
  have hj' : j < f.n 1 - 2 := by rw [← hrn 1]; exact hj
  have hk' : k < f.n 2 - 2 := by rw [← hrn 2]; exact hk
  have hlow : ∀ s b m, low s b (m + 1 + 1) = low s b (m + 1) + 1 := by
    intro s b m; cases s <;> cases b <;> simp [low]
  have hv : ∀ c a b e, a ≤ i + 1 → b ≤ j + 1 → e ≤ k + 1 → g.comp c a b e =
      f.comp c (if c = 0 then a + 1 else low st (f.flip 0) (a + 1)) (if c = 1 then b + 1 else low st (f.flip 1) (b + 1))
        (if c = 2 then e + 1 else low st (f.flip 2) (e + 1)) := by
    intro c a b e ha hb he
    rw [h2 c a b e (by omega) (by omega) (by omega), sd_off_edge f hc c 0 (hne c), sd_off_edge f hc c 1 (hne c),
      sd_off_edge f hc c 2 (hne c), hst]
  dsimp only
  refine ⟨?_, ?_, ?_⟩ <;>
  · simp only [avg4, Arr.slice, Fld.arr, edgeSl, h0, hm, hpl, Sl.off, Bool.false_eq_true, if_false, if_true,
        show ¬ ((1 : Fin 3) = 0) by decide, show ¬ ((2 : Fin 3) = 0) by decide, show ¬ ((0 : Fin 3) = 1) by decide,
        show ¬ ((2 : Fin 3) = 1) by decide, show ¬ ((0 : Fin 3) = 2) by decide, show ¬ ((1 : Fin 3) = 2) by decide,
        Nat.add_zero]
    simp only [hv _ _ _ _ (Nat.le_succ i) (Nat.le_succ j) (Nat.le_succ k),
      hv _ _ _ _ (Nat.le_refl (i + 1)) (Nat.le_succ j) (Nat.le_succ k),
      hv _ _ _ _ (Nat.le_succ i) (Nat.le_refl (j + 1)) (Nat.le_succ k),
      hv _ _ _ _ (Nat.le_succ i) (Nat.le_succ j) (Nat.le_refl (k + 1)),
      hv _ _ _ _ (Nat.le_refl (i + 1)) (Nat.le_refl (j + 1)) (Nat.le_succ k),
      hv _ _ _ _ (Nat.le_refl (i + 1)) (Nat.le_succ j) (Nat.le_refl (k + 1)),
      hv _ _ _ _ (Nat.le_succ i) (Nat.le_refl (j + 1)) (Nat.le_refl (k + 1)),
      Bool.false_eq_true, if_false, if_true, hlow,
      show ¬ ((1 : Fin 3) = 0) by decide, show ¬ ((2 : Fin 3) = 0) by decide, show ¬ ((0 : Fin 3) = 1) by decide,
      show ¬ ((2 : Fin 3) = 1) by decide, show ¬ ((0 : Fin 3) = 2) by decide, show ¬ ((1 : Fin 3) = 2) by decide]
    ring

/-- A raw edge field with `trailing` staggering along x only. -/
def mixed : Fld where
  n := fun _ => 3
  comp := fun c i j k => match c with | 0 => i | 1 => i | 2 => k * j
  nodes := fun _ => [0, 1, 2, 3]
  center := .edge
  preprocessed := some false
  stag := fun d => match d with | 0 => .trailing | 1 => .leading | 2 => .leading
  flip := fun _ => false

/-- C68 fails for edge fields whose axes are staggered differently: the y component of `mixed` in cell
(1, 1, 1) should average the edges at x index 0 and 1 (trailing), but averages those at 1 and 2: the slices are
chosen by the staggering of the component's own axis instead of the axis being sliced. -/
theorem C68_mixed_staggering_violated :
    (ec2cc mixed).map (fun r => r.comp 1 0 0 0) = .ok (3 / 2) ∧
    (mixed.comp 1 (low .trailing false 1) 1 1 + mixed.comp 1 (low .trailing false 1 + 1) 1 1) / 2 = 1 / 2 := by
  decide +kernel

/-- C68 fails for raw fields with a single cell along one axis and several along another (every 2-D plane read
from a file): preparing the field raises, because row and column of the slice table are mixed up. -/
theorem C68_raw_single_cell_violated (f : Fld) (hp : f.preprocessed = some false) (d e : Fin 3) (hd : f.n d = 1)
    (he : 2 ≤ f.n e) (r : Vec) : fc2cc f ≠ .ok r ∧ ec2cc f ≠ .ok r := by
  have hde : d ≠ e := by intro h; rw [h] at hd; omega
  have hbad : ∀ n src, (∃ a : Fin 3, src.n a ≠ n a ∧ src.n a ≠ 1) → ∃ x, assign n src = .error x := by
    rintro n src ⟨a, h1, h2⟩
    unfold assign
    rw [if_neg]
    · exact ⟨_, rfl⟩
    · rintro ⟨h0', h1', h2'⟩
      match a with
      | 0 => exact h0'.elim h1 h2
      | 1 => exact h1'.elim h1 h2
      | 2 => exact h2'.elim h1 h2
  -- component d takes all of axis e, one cell too many
  have hd' : ∃ x, assign (fun a => (sc f a).len (f.n a)) ((f.arr d).slice (sd f d)) = .error x := by
    refine hbad _ _ ⟨e, ?_, ?_⟩
    · show (sd f d e).len (f.n e) ≠ (sc f e).len (f.n e)
      unfold sd sc
      rw [if_pos hd, if_neg (by omega)]
      simp only [Sl.len]; omega
    · show (sd f d e).len (f.n e) ≠ 1
      unfold sd
      rw [if_pos hd]
      simp only [Sl.len]; omega
  have hml : ∃ x, makeLeading f = .error x := by
    unfold makeLeading
    rw [hp]
    dsimp only
    split
    · exact ⟨_, rfl⟩
    · split
      · exact ⟨_, rfl⟩
      · obtain ⟨x, hx⟩ := hd'
        split
        · rename_i h0 h1 h2
          exfalso
          match d with
          | 0 => rw [h0] at hx; cases hx
          | 1 => rw [h1] at hx; cases hx
          | 2 => rw [h2] at hx; cases hx
        · exact ⟨_, rfl⟩
  obtain ⟨x, hx⟩ := hml
  refine ⟨?_, ?_⟩
  · unfold fc2cc; rw [hx]; intro h; cases h
  · unfold ec2cc; rw [hx]; intro h; cases h

/-- C68, shape: with the default `bnd=True` the result has the shape of the field for raw fields with at least
three cells per axis ... -/
theorem C68_shape_raw_partial (f : Fld) (hp : f.preprocessed = some false) (hc : f.center = .face) (hn : ∀ d, 3 ≤ f.n d) :
    ∃ r, fc2cc f = .ok r ∧ ∀ d, r.bnd.n d = f.n d := by
  obtain ⟨r, hr, hrn, _⟩ := C68_fc2cc_raw_partial f hp hc hn
  refine ⟨r, hr, fun d => ?_⟩
  show r.n d + 2 = f.n d
  have := hn d
  rw [hrn]; omega

/-- ... and its interior is the unpadded result. -/
theorem C68_bnd_interior (r : Vec) (c : Fin 3) (i j k : Nat) (hi : i < r.n 0) (hj : j < r.n 1) (hk : k < r.n 2) :
    r.bnd.comp c (i + 1) (j + 1) (k + 1) = r.comp c i j k := by
  have key : ∀ {n m : Nat} (g : Nat → ℚ), m < n → ext1 n g (m + 1) = g m := by
    intro n m g h
    unfold ext1
    rw [if_neg (by omega), if_pos (by omega)]
    rfl
  show extend r.n (r.comp c) (i + 1) (j + 1) (k + 1) = _
  unfold extend
  rw [key _ hk, key _ hj, key _ hi]

/-- C68 fails for all other fields: the padded result has one cell more than the field along every axis with at
least two cells. -/
theorem C68_shape_violated (f : Fld) (hp : f.preprocessed ≠ some false) (hn : ∀ d, 2 ≤ f.n d) :
    ∃ r, fc2cc f = .ok r ∧ ∀ d, r.bnd.n d = f.n d + 1 := by
  obtain ⟨r, hr, hrn, _⟩ := C68_fc2cc_leading_partial f hp hn
  refine ⟨r, hr, fun d => ?_⟩
  show r.n d + 2 = f.n d + 1
  have := hn d
  rw [hrn]; omega

/-- A raw face field with x flipped: the hypotheses of `C68_fc2cc_raw_partial` and the raw divergence theorem. -/
def rawDemo : Fld where
  n := fun d => match d with | 0 => 4 | 1 => 3 | 2 => 3
  comp := fun c i j k => match c with | 0 => i * i | 1 => 5 * i + j | 2 => k * j
  nodes := fun d => match d with | 0 => [0, 1, 3, 6, 7] | 1 => [0, 2, 3, 4] | 2 => [1, 2, 4, 5]
  center := .face
  preprocessed := some false
  stag := fun _ => .trailing
  flip := fun d => d == 0

example : (∀ d, 3 ≤ rawDemo.n d) ∧ (∀ d, (rawDemo.nodes d).length = rawDemo.n d + 1) ∧
    (∀ d, (rawDemo.nodes d).Pairwise (· < ·)) ∧ rawDemo.preprocessed = some false ∧ rawDemo.center = .face ∧
    (fc2cc rawDemo).map (fun r => (r.comp 0 0 0 0, r.comp 0 1 0 0, r.comp 1 0 0 0)) =
      .ok (5 / 2, 13 / 2, 11 / 2) ∧
    (divFc rawDemo).map (fun r => r.at' 1 0 0) = .ok (some (5 / 3 + 1 + 1 / 2)) := by
  decide +kernel

end Viscid.Ecfc
