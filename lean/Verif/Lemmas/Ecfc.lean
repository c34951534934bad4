import Verif.Spec.Ecfc
import Mathlib.Tactic.Ring
import Mathlib.Algebra.BigOperators.Ring.Finset
import Mathlib.Tactic.FieldSimp
import Mathlib.Tactic.Linarith
/-! # Lemmas for ecfc -/
namespace Viscid.Ecfc
open Viscid.Spec.Ecfc

theorem tel (g : Nat → ℚ) (m n : Nat) (h : m ≤ n) : ∑ i ∈ Finset.Ico m n, (g (i + 1) - g i) = g n - g m := by
  induction n, h using Nat.le_induction with
  | base => simp
  | succ n h ih => rw [Finset.sum_Ico_succ_top h, ih]; ring

/-- Telescoping: cells whose divergence is the sum of the three difference quotients. -/
theorem telescope (F : Fin 3 → Nat → Nat → Nat → ℚ) (x : Fin 3 → Nat → ℚ) (D : Nat → Nat → Nat → ℚ)
    (i0 i1 j0 j1 k0 k1 : Nat) (hi : i0 ≤ i1) (hj : j0 ≤ j1) (hk : k0 ≤ k1)
    (hx : ∀ i ∈ Finset.Ico i0 i1, x 0 (i + 1) - x 0 i ≠ 0)
    (hy : ∀ j ∈ Finset.Ico j0 j1, x 1 (j + 1) - x 1 j ≠ 0)
    (hz : ∀ k ∈ Finset.Ico k0 k1, x 2 (k + 1) - x 2 k ≠ 0)
    (hD : ∀ i ∈ Finset.Ico i0 i1, ∀ j ∈ Finset.Ico j0 j1, ∀ k ∈ Finset.Ico k0 k1, D i j k =
      (F 0 (i + 1) j k - F 0 i j k) / (x 0 (i + 1) - x 0 i) + (F 1 i (j + 1) k - F 1 i j k) / (x 1 (j + 1) - x 1 j) +
      (F 2 i j (k + 1) - F 2 i j k) / (x 2 (k + 1) - x 2 k)) :
    ∑ i ∈ Finset.Ico i0 i1, ∑ j ∈ Finset.Ico j0 j1, ∑ k ∈ Finset.Ico k0 k1, D i j k * vol x i j k =
      blockFlux F x i0 i1 j0 j1 k0 k1 := by
  have h1 : ∀ i ∈ Finset.Ico i0 i1, ∀ j ∈ Finset.Ico j0 j1, ∀ k ∈ Finset.Ico k0 k1, D i j k * vol x i j k =
      (F 0 (i + 1) j k - F 0 i j k) * ((x 1 (j + 1) - x 1 j) * (x 2 (k + 1) - x 2 k)) +
      (F 1 i (j + 1) k - F 1 i j k) * ((x 0 (i + 1) - x 0 i) * (x 2 (k + 1) - x 2 k)) +
      (F 2 i j (k + 1) - F 2 i j k) * ((x 0 (i + 1) - x 0 i) * (x 1 (j + 1) - x 1 j)) := by
    intro i hi' j hj' k hk'
    rw [hD i hi' j hj' k hk', vol]
    have := hx i hi'; have := hy j hj'; have := hz k hk'
    field_simp
  rw [Finset.sum_congr rfl fun i hi' => Finset.sum_congr rfl fun j hj' => Finset.sum_congr rfl fun k hk' =>
    h1 i hi' j hj' k hk']
  simp only [Finset.sum_add_distrib]
  unfold blockFlux
  congr 1
  · congr 1
    · rw [Finset.sum_comm]
      refine Finset.sum_congr rfl fun j _ => ?_
      rw [Finset.sum_comm]
      refine Finset.sum_congr rfl fun k _ => ?_
      rw [← Finset.sum_mul, tel (fun i => F 0 i j k) i0 i1 hi]
    · refine Finset.sum_congr rfl fun i _ => ?_
      rw [Finset.sum_comm]
      refine Finset.sum_congr rfl fun k _ => ?_
      rw [← Finset.sum_mul, tel (fun j => F 1 i j k) j0 j1 hj]
  · refine Finset.sum_congr rfl fun i _ => Finset.sum_congr rfl fun j _ => ?_
    rw [← Finset.sum_mul, tel (fun k => F 2 i j k) k0 k1 hk]

/-- A field make_ecfc_field_leading returns as it is (up to the meta data). -/
theorem makeLeading_asis (f : Fld) (h : f.preprocessed ≠ some false) :
    ∃ g, makeLeading f = .ok g ∧ g.n = f.n ∧ g.comp = f.comp ∧ g.nodes = f.nodes := by
  unfold makeLeading
  match hp : f.preprocessed with
  | some true => exact ⟨f, rfl, rfl, rfl, rfl⟩
  | none => exact ⟨_, rfl, rfl, rfl, rfl⟩
  | some false => exact absurd hp h

theorem assign_eq (n : Fin 3 → Nat) (src : Arr) (h : ∀ d, src.n d = n d) :
    ∃ g, assign n src = .ok g ∧ ∀ i j k, i < n 0 → j < n 1 → k < n 2 → g i j k = src.at' i j k := by
  unfold assign
  rw [if_pos ⟨Or.inl (h 0), Or.inl (h 1), Or.inl (h 2)⟩]
  refine ⟨_, rfl, ?_⟩
  intro i j k hi hj hk
  have e0 : (if src.n 0 = 1 then 0 else i) = i := by rw [h 0]; split <;> omega
  have e1 : (if src.n 1 = 1 then 0 else j) = j := by rw [h 1]; split <;> omega
  have e2 : (if src.n 2 = 1 then 0 else k) = k := by rw [h 2]; split <;> omega
  simp only [e0, e1, e2]

theorem sd_len (f : Fld) (i j : Fin 3) (hi : f.n i ≠ 1) : (sd f i j).len (f.n j) = f.n j - 1 := by
  unfold sd
  rw [if_neg hi]
  cases f.stag i <;> cases f.flip j <;> cases (if f.center = .face then i == j else i != j) <;> rfl

/-- The prepared field: component `c` at (i, j, k) is the original one shifted by the offsets of its slices. -/
theorem makeLeading_raw (f : Fld) (hp : f.preprocessed = some false) (hc : f.center ≠ .other)
    (hn : ∀ d, 2 ≤ f.n d) :
    ∃ g, makeLeading f = .ok g ∧ (∀ d, g.n d = f.n d - 1) ∧ (∀ d, g.nodes d = (f.nodes d).drop 1) ∧
      ∀ c i j k, i < f.n 0 - 1 → j < f.n 1 - 1 → k < f.n 2 - 1 → g.comp c i j k =
        f.comp c (i + (sd f c 0).off) (j + (sd f c 1).off) (k + (sd f c 2).off) := by
  have h1 : ∀ d, f.n d ≠ 1 := fun d => by have := hn d; omega
  have hsc : ∀ d, (sc f d).len (f.n d) = f.n d - 1 := fun d => by
    unfold sc; rw [if_neg (h1 d)]; rfl
  have ha : ∀ c : Fin 3, ∃ g, assign (fun d => (sc f d).len (f.n d)) ((f.arr c).slice (sd f c)) = .ok g ∧
      ∀ i j k, i < f.n 0 - 1 → j < f.n 1 - 1 → k < f.n 2 - 1 → g i j k =
        f.comp c (i + (sd f c 0).off) (j + (sd f c 1).off) (k + (sd f c 2).off) := by
    intro c
    obtain ⟨g, hg, hv⟩ := assign_eq (fun d => (sc f d).len (f.n d)) ((f.arr c).slice (sd f c))
      (fun d => by rw [hsc d]; exact sd_len f c d (h1 c))
    refine ⟨g, hg, fun i j k hi hj hk => ?_⟩
    rw [hv i j k (by rw [hsc]; exact hi) (by rw [hsc]; exact hj) (by rw [hsc]; exact hk)]
    rfl
  obtain ⟨x, hx, hvx⟩ := ha 0
  obtain ⟨y, hy, hvy⟩ := ha 1
  obtain ⟨z, hz, hvz⟩ := ha 2
  unfold makeLeading
  rw [hp]
  simp only [if_neg hc, hx, hy, hz]
  rw [if_neg (by have := hn 0; have := hn 1; have := hn 2; omega)]
  refine ⟨_, rfl, hsc, fun d => if_neg (h1 d), ?_⟩
  intro c i j k hi hj hk
  match c with
  | 0 => exact hvx i j k hi hj hk
  | 1 => exact hvy i j k hi hj hk
  | 2 => exact hvz i j k hi hj hk

/-- Face fields: offset along the component's own axis and along the others. -/
theorem sd_off_face (f : Fld) (hc : f.center = .face) (i j : Fin 3) (hi : f.n i ≠ 1) (m : Nat) :
    m + (sd f i j).off = if i = j then low (f.stag i) (f.flip i) (m + 1) else m + 1 := by
  unfold sd
  rw [if_neg hi, if_pos hc]
  by_cases hij : i = j
  · subst hij
    simp only [beq_self_eq_true, if_true]
    cases f.stag i <;> cases f.flip i <;> simp [offsets, pick, Sl.off, low]
  · have : (i == j) = false := by simpa using hij
    simp only [this, if_neg hij, Bool.and_false]
    cases f.stag i <;> simp [offsets, pick, Sl.off]

end Viscid.Ecfc
