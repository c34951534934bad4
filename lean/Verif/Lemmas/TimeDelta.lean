import Verif.Spec.TimeDelta
import Mathlib.Tactic.Linarith
import Mathlib.Tactic.Ring
import Mathlib.Tactic.FieldSimp
import Mathlib.Algebra.Order.Field.Basic
/-!
# Lemmas for C106 and C107
-/
namespace Viscid.TimeDelta
open Viscid.NpTime (U Time Err units)
open Viscid.Spec.TimeDelta

theorem nint_near (x : ℚ) : |x - nint x| ≤ 1 / 2 := by
  have h1 := Int.floor_le x
  have h2 := Int.lt_floor_add_one x
  unfold nint
  simp only
  rw [abs_le]
  split
  · constructor <;> linarith
  · split
    · push_cast; constructor <;> linarith
    · split
      · constructor <;> linarith
      · push_cast; constructor <;> linarith

theorem nint_int (n : Int) : nint (n : ℚ) = n := by
  unfold nint
  simp only [Int.floor_intCast]
  rw [if_pos (by norm_num)]

theorem size_pos (u : U) : (0 : ℚ) < u.size := by cases u <;> norm_num [U.size]

/-- one turn of the loop goes to the next finer unit -/
theorem scale {i : Nat} (hi : i < 8) : (timeScale.getD i 0) * ((timeUnits.getD i .as).size : ℚ) = (timeUnits.getD (i + 1) .as).size := by
  have : i = 0 ∨ i = 1 ∨ i = 2 ∨ i = 3 ∨ i = 4 ∨ i = 5 ∨ i = 6 ∨ i = 7 := by omega
  rcases this with rfl | rfl | rfl | rfl | rfl | rfl | rfl | rfl <;> norm_num [timeScale, timeUnits, U.size]

theorem isclose_iff (t : ℚ) (u : U) : isclose t (nint t) = true ↔ Close (atto t u) (nint t) u := by
  have hp := size_pos u
  unfold isclose Close atto
  rw [decide_eq_true_iff, ← sub_mul, abs_mul, abs_mul, abs_of_pos hp]
  constructor
  · intro h
    have := mul_le_mul_of_nonneg_right h hp.le
    calc _ ≤ _ := this
      _ = _ := by ring
  · intro h
    refine le_of_mul_le_mul_right ?_ hp
    calc _ ≤ _ := h
      _ = _ := by ring

theorem settle_spec : ∀ (i : Nat) (t : ℚ), i < 9 →
    (∀ n j, settle i t = .ok (n, j) → j ≤ i ∧ Nearest (atto t (timeUnits.getD i .as)) n (timeUnits.getD j .as) ∧
      Close (atto t (timeUnits.getD i .as)) n (timeUnits.getD j .as) ∧
      ∀ k, j < k → k ≤ i → ∃ m, Nearest (atto t (timeUnits.getD i .as)) m (timeUnits.getD k .as) ∧
        ¬ Close (atto t (timeUnits.getD i .as)) m (timeUnits.getD k .as)) ∧
    (∀ e, settle i t = .error e → e = .value ∧
      ∀ k, k ≤ i → ∃ m, Nearest (atto t (timeUnits.getD i .as)) m (timeUnits.getD k .as) ∧
        ¬ Close (atto t (timeUnits.getD i .as)) m (timeUnits.getD k .as)) := by
  intro i
  have near : ∀ (t : ℚ) (u : U), Nearest (atto t u) (nint t) u := by
    intro t u
    have hp := size_pos u
    unfold Nearest atto
    rw [← sub_mul, abs_mul, abs_of_pos hp]
    exact mul_le_mul_of_nonneg_right (nint_near t) hp.le
  induction i with
  | zero =>
    intro t _
    rw [settle]
    by_cases hc : isclose t (nint t) = true
    · rw [if_pos hc]
      refine ⟨?_, by simp⟩
      intro n j h
      injection h with h
      injection h with h1 h2
      subst h1 h2
      exact ⟨le_refl _, near _ _, (isclose_iff t _).mp hc, fun k h1 h2 => by omega⟩
    · rw [if_neg hc]
      refine ⟨by simp, ?_⟩
      intro e h
      injection h with h
      refine ⟨h.symm, fun k hk => ?_⟩
      have : k = 0 := by omega
      subst this
      exact ⟨_, near _ _, fun h => hc ((isclose_iff t _).mpr h)⟩
  | succ i ih =>
    intro t hi
    have hs := scale (i := i) (by omega)
    have hsame : atto (t * timeScale.getD i 0) (timeUnits.getD i .as) = atto t (timeUnits.getD (i + 1) .as) := by
      unfold atto
      rw [mul_assoc, hs]
    obtain ⟨ih1, ih2⟩ := ih (t * timeScale.getD i 0) (by omega)
    rw [hsame] at ih1 ih2
    rw [settle]
    by_cases hc : isclose t (nint t) = true
    · rw [if_pos hc]
      refine ⟨?_, by simp⟩
      intro n j h
      injection h with h
      injection h with h1 h2
      subst h1 h2
      exact ⟨le_refl _, near _ _, (isclose_iff t _).mp hc, fun k h1 h2 => by omega⟩
    · rw [if_neg hc]
      have top : ∃ m, Nearest (atto t (timeUnits.getD (i + 1) .as)) m (timeUnits.getD (i + 1) .as) ∧
          ¬ Close (atto t (timeUnits.getD (i + 1) .as)) m (timeUnits.getD (i + 1) .as) :=
        ⟨_, near _ _, fun h => hc ((isclose_iff t _).mpr h)⟩
      refine ⟨?_, ?_⟩
      · intro n j h
        obtain ⟨h1, h2, h3, h4⟩ := ih1 n j h
        refine ⟨by omega, h2, h3, fun k hk1 hk2 => ?_⟩
        by_cases hk : k = i + 1
        · subst hk; exact top
        · exact h4 k hk1 (by omega)
      · intro e h
        obtain ⟨h1, h2⟩ := ih2 e h
        refine ⟨h1, fun k hk => ?_⟩
        by_cases hk : k = i + 1
        · subst hk; exact top
        · exact h2 k (by omega)

theorem timeUnits_idx {u : U} (h : u.idx ≤ 8) : u ∈ timeUnits ∧ timeUnits.idxOf u = u.idx ∧ timeUnits.getD u.idx .as = u := by
  cases u <;> first | decide | (simp [U.idx] at h)

theorem not_mem_timeUnits {u : U} (h : 8 < u.idx) : u ∉ timeUnits := by
  cases u <;> first | decide | (simp [U.idx] at h)

theorem getD_idx {i : Nat} (h : i < 9) : (timeUnits.getD i .as).idx = i := by
  have : i = 0 ∨ i = 1 ∨ i = 2 ∨ i = 3 ∨ i = 4 ∨ i = 5 ∨ i = 6 ∨ i = 7 ∨ i = 8 := by omega
  rcases this with rfl | rfl | rfl | rfl | rfl | rfl | rfl | rfl | rfl <;> rfl

theorem splitColon_no (l : List Char) (h : ':' ∉ l) : splitColon l = [l] := by
  induction l with
  | nil => rfl
  | cons c l ih =>
    simp only [List.mem_cons, not_or] at h
    rw [splitColon, if_neg (fun e => h.1 e.symm), ih h.2]

theorem splitColon_app (l r : List Char) (h : ':' ∉ l) : splitColon (l ++ ':' :: r) = l :: splitColon r := by
  induction l with
  | nil => simp [splitColon]
  | cons c l ih =>
    simp only [List.mem_cons, not_or] at h
    rw [List.cons_append, splitColon, if_neg (fun e => h.1 e.symm), ih h.2]

end Viscid.TimeDelta
