import Verif.Spec.Integrate
import Verif.Lemmas.Streamline
import Mathlib.Tactic.NormNum
import Mathlib.Tactic.Positivity
import Mathlib.Analysis.SpecificLimits.Basic
/-!
# Lemmas about the integrators
-/
namespace Viscid.Integrate
open Viscid.Streamline Viscid.Spec.Integrate

/-! ### All trees with a given number of nodes -/

/-- All lists of trees with n nodes in total (enough fuel: n). -/
def forests : Nat → Nat → List (List RTree)
  | _, 0 => [[]]
  | 0, _ + 1 => []
  | f + 1, n + 1 => (List.range (n + 1)).flatMap fun k =>
      (forests f k).flatMap fun ts => (forests f (n - k)).map fun rest => RTree.node ts :: rest

theorem mem_forests (f : Nat) : ∀ ts : List RTree, orderL ts ≤ f → ts ∈ forests f (orderL ts) := by
  induction f with
  | zero =>
    intro ts h
    cases ts with
    | nil => simp [orderL, forests]
    | cons t ts => cases t; simp [orderL, RTree.order] at h
  | succ f ih =>
    intro ts h
    cases ts with
    | nil => simp [orderL, forests]
    | cons t ts =>
      obtain ⟨us⟩ := t
      have e : orderL (RTree.node us :: ts) = (orderL us + orderL ts) + 1 := by simp [orderL, RTree.order]; omega
      rw [e] at h ⊢
      unfold forests
      rw [List.mem_flatMap]
      refine ⟨orderL us, by rw [List.mem_range]; omega, ?_⟩
      rw [List.mem_flatMap]
      refine ⟨us, ih us (by omega), ?_⟩
      rw [List.mem_map]
      refine ⟨ts, ?_, rfl⟩
      rw [show orderL us + orderL ts - orderL us = orderL ts by omega]
      exact ih ts (by omega)

/-- It is enough to check the trees of the enumeration. -/
theorem hasOrder_of_forests (a : List (List ℚ)) (b : List ℚ) (p : Nat)
    (h : ∀ n ∈ List.range p, ∀ ts ∈ forests p n, dot b (phiL a ts) * ((orderL ts + 1 : Nat) * gammaL ts) = 1) :
    HasOrder a b p := by
  intro t ht
  obtain ⟨ts⟩ := t
  simp only [RTree.order] at ht
  have := h (orderL ts) (by rw [List.mem_range]; omega) ts (mem_forests p ts (by omega))
  simpa [RTree.phi, RTree.gamma] using this

/-! ### Constant fields -/

theorem mag_eq (k : P3 ℝ) : mag k = len3 k := by unfold mag len3; simp only [pow_two]

theorem stages_const (V x : P3 ℝ) (h : ℝ) (hV : mag V ≠ 0) (rows : List (List ℚ)) : ∀ (ks : List (P3 ℝ)) (ms : List ℝ),
    stages (fun _ => V) x h rows ks ms =
      some (ks ++ List.replicate rows.length ⟨V.x * (h / mag V), V.y * (h / mag V), V.z * (h / mag V)⟩,
            ms ++ List.replicate rows.length (mag V)) := by
  induction rows with
  | nil => intro ks ms; simp [stages]
  | cons r rows ih =>
    intro ks ms
    unfold stages
    dsimp only
    rw [if_neg hV, ih]
    simp [List.replicate_succ]

theorem zip_replicate (a : List ℚ) (n : Nat) (r : ℝ) (hn : a.length = n) :
    (List.zipWith (fun (q : ℚ) (m : ℝ) => (q : ℝ) * m) a (List.replicate n r)).sum = (a.sum : ℝ) * r := by
  subst hn
  induction a with
  | nil => simp
  | cons q a ih =>
    simp only [List.length_cons, List.replicate_succ, List.zipWith_cons_cons, List.sum_cons, ih]
    push_cast
    ring

theorem comb_replicate (a : List ℚ) (n : Nat) (k : P3 ℝ) (hn : a.length = n) :
    comb a (List.replicate n k) = ⟨(a.sum : ℝ) * k.x, (a.sum : ℝ) * k.y, (a.sum : ℝ) * k.z⟩ := by
  subst hn
  unfold comb
  have : ∀ f : P3 ℝ → ℝ, (List.zipWith (fun (q : ℚ) (k : P3 ℝ) => (q : ℝ) * f k) a (List.replicate a.length k)).sum = (a.sum : ℝ) * f k := by
    intro f
    induction a with
    | nil => simp
    | cons q a ih =>
      simp only [List.length_cons, List.replicate_succ, List.zipWith_cons_cons, List.sum_cons, ih]
      push_cast
      ring
  simp only [this]

/-- A method whose three sets of weights each sum to one. -/
structure Consistent (T : Table) : Prop where
  lu : T.u.length = T.c.length
  lw : T.w.length = T.c.length
  lt : T.t.length = T.c.length
  su : T.u.sum = 1
  sw : T.w.sum = 1
  st : T.t.sum = 1

theorem attempt_const (T : Table) (hT : Consistent T) (V x : P3 ℝ) (h : ℝ) (hV : mag V ≠ 0) :
    attempt T (fun _ => V) x h = some ⟨⟨x.x + V.x * (h / mag V), x.y + V.y * (h / mag V), x.z + V.z * (h / mag V)⟩, 0, h / mag V⟩ := by
  unfold attempt
  rw [stages_const V x h hV]
  simp only [List.nil_append]
  rw [comb_replicate _ _ _ hT.lu, comb_replicate _ _ _ hT.lw, zip_replicate _ _ _ hT.lt, hT.su, hT.sw, hT.st]
  simp [shift, mag]

theorem tsCtrl_zero (ds e s l : ℝ) : tsCtrl ds 0 e s l = (ds, false) := by simp [tsCtrl]

/-! ### The controller -/

/-- All branches of the controller at once. -/
theorem tsCtrl_spec (ds err e s l : ℝ) (hds : ds ≠ 0) (he : 0 < e) (hs : 0 < s) (hsl : s ≤ l) :
    0 < (tsCtrl ds err e s l).1 * ds ∧
    (|ds| ≤ l → |(tsCtrl ds err e s l).1| ≤ l) ∧
    ((tsCtrl ds err e s l).2 = true → s < |ds| ∧ s ≤ |(tsCtrl ds err e s l).1| ∧ |(tsCtrl ds err e s l).1| < |ds| ∧
      |(tsCtrl ds err e s l).1| ≤ max s (0.9 * |ds|)) ∧
    (e ≤ |err| → s ≤ |(tsCtrl ds err e s l).1|) := by
  have hl : 0 < l := lt_of_lt_of_le hs hsl
  have ha : 0 < |ds| := abs_pos.mpr hds
  have hr0 : 0 ≤ |err| / e := div_nonneg (abs_nonneg _) he.le
  have hsign : ds / |ds| * ds = |ds| := by
    rw [div_mul_eq_mul_div, div_eq_iff (ne_of_gt ha), ← abs_mul_abs_self]
  have hsabs : abs (ds / |ds|) = 1 := by rw [abs_div, abs_abs, div_self (ne_of_gt ha)]
  have hsc : ∀ q : ℝ, 0 < q → 0 < ds / |ds| * q * ds := by
    intro q hq
    rw [mul_right_comm, hsign]
    positivity
  have hsq : ∀ q : ℝ, 0 < q → abs (ds / |ds| * q) = q := by
    intro q hq
    rw [abs_mul, hsabs, one_mul, abs_of_pos hq]
  have hpos : ∀ q : ℝ, 0 < q → 0 < 0.9 * ds * q * ds := by
    intro q hq
    have : 0.9 * ds * q * ds = 0.9 * q * (ds * ds) := by ring
    rw [this]
    have : 0 < ds * ds := mul_self_pos.mpr hds
    positivity
  have hab : ∀ q : ℝ, 0 < q → |0.9 * ds * q| = 0.9 * |ds| * q := by
    intro q hq
    rw [abs_mul, abs_mul, abs_of_pos hq]
    norm_num [abs_of_pos]
  unfold tsCtrl
  dsimp only
  by_cases h0 : |err| / e = 0
  · rw [if_pos h0]
    refine ⟨mul_self_pos.mpr hds, id, by simp, ?_⟩
    intro hh
    exfalso
    have : 1 ≤ |err| / e := by rw [le_div_iff₀ he]; linarith
    linarith
  rw [if_neg h0]
  have hrp : 0 < |err| / e := lt_of_le_of_ne hr0 (Ne.symm h0)
  by_cases h1 : |err| / e ≥ 1
  · rw [if_pos h1]
    by_cases h2 : |ds| ≤ s
    · rw [if_pos h2]
      refine ⟨hsc s hs, ?_, by simp, ?_⟩
      · intro _; rw [hsq s hs]; exact hsl
      · intro _; rw [hsq s hs]
    · rw [if_neg h2]
      have hq : 0 < (|err| / e) ^ (-0.25 : ℝ) := Real.rpow_pos_of_pos hrp _
      have hq1 : (|err| / e) ^ (-0.25 : ℝ) ≤ 1 := Real.rpow_le_one_of_one_le_of_nonpos h1 (by norm_num)
      have hle : 0.9 * |ds| * (|err| / e) ^ (-0.25 : ℝ) ≤ 0.9 * |ds| := by nlinarith
      by_cases h3 : |0.9 * ds * (|err| / e) ^ (-0.25 : ℝ)| ≤ s
      · rw [if_pos h3]
        refine ⟨hsc s hs, ?_, ?_, ?_⟩
        · intro _; rw [hsq s hs]; exact hsl
        · intro _; rw [hsq s hs]; exact ⟨not_le.mp h2, le_refl _, not_le.mp h2, le_max_left _ _⟩
        · intro _; rw [hsq s hs]
      · rw [if_neg h3]
        refine ⟨hpos _ hq, ?_, ?_, ?_⟩
        · intro hh
          rw [hab _ hq]
          linarith
        · intro _
          refine ⟨not_le.mp h2, (not_le.mp h3).le, ?_, ?_⟩
          · rw [hab _ hq]; linarith
          · rw [hab _ hq]; exact le_trans hle (le_max_right _ _)
        · intro _; exact (not_le.mp h3).le
  · rw [if_neg h1]
    have hne : ¬ e ≤ |err| := by
      intro hh; apply h1; rw [ge_iff_le, le_div_iff₀ he]; linarith
    by_cases h2 : |ds| ≥ l
    · rw [if_pos h2]
      exact ⟨hsc l hl, fun _ => (hsq l hl).le, by simp, fun hh => absurd hh hne⟩
    · rw [if_neg h2]
      have hq : 0 < (|err| / e) ^ (-0.2 : ℝ) := Real.rpow_pos_of_pos hrp _
      by_cases h3 : |0.9 * ds * (|err| / e) ^ (-0.2 : ℝ)| ≥ l
      · rw [if_pos h3]
        exact ⟨hsc l hl, fun _ => (hsq l hl).le, by simp, fun hh => absurd hh hne⟩
      · rw [if_neg h3]
        exact ⟨hpos _ hq, fun _ => (not_le.mp h3).le, by simp, fun hh => absurd hh hne⟩

theorem retry_done (C : Ctrl) (he : 0 < C.maxErr) (hs : 0 < C.smallest) (hsl : C.smallest ≤ C.largest)
    (att : ℝ → Option Attempt) (m : Nat) : ∀ ds : ℝ, ds ≠ 0 → |ds| * 0.9 ^ m ≤ C.smallest →
    ∀ n, m + 1 ≤ n → retry C att n ds ≠ none := by
  induction m with
  | zero =>
    intro ds hds hle n hn
    obtain ⟨n, rfl⟩ : ∃ k, n = k + 1 := ⟨n - 1, by omega⟩
    unfold retry
    cases att ds with
    | none => simp
    | some a =>
      dsimp only
      have := (tsCtrl_spec ds a.err C.maxErr C.smallest C.largest hds he hs hsl).2.2.1
      rw [if_neg]
      · simp
      · intro hr
        have := (this hr).1
        rw [pow_zero, mul_one] at hle
        linarith
  | succ m ih =>
    intro ds hds hle n hn
    obtain ⟨n, rfl⟩ : ∃ k, n = k + 1 := ⟨n - 1, by omega⟩
    unfold retry
    cases att ds with
    | none => simp
    | some a =>
      dsimp only
      have hsp := tsCtrl_spec ds a.err C.maxErr C.smallest C.largest hds he hs hsl
      by_cases hr : (tsCtrl ds a.err C.maxErr C.smallest C.largest).2 = true
      · rw [if_pos hr]
        obtain ⟨_, _, _, h4⟩ := hsp.2.2.1 hr
        apply ih _ _ _ n (by omega)
        · intro h0
          have := hsp.1
          rw [h0, zero_mul] at this
          exact lt_irrefl _ this
        · have hp : (0:ℝ) < 0.9 ^ m := by positivity
          have hp1 : (0.9:ℝ) ^ m ≤ 1 := pow_le_one₀ (by norm_num) (by norm_num)
          calc |(tsCtrl ds a.err C.maxErr C.smallest C.largest).1| * 0.9 ^ m
              ≤ max C.smallest (0.9 * |ds|) * 0.9 ^ m := mul_le_mul_of_nonneg_right h4 hp.le
            _ ≤ C.smallest := by
              rcases le_total C.smallest (0.9 * |ds|) with hm | hm
              · rw [max_eq_right hm]
                calc 0.9 * |ds| * 0.9 ^ m = |ds| * 0.9 ^ (m + 1) := by ring
                  _ ≤ C.smallest := hle
              · rw [max_eq_left hm]
                nlinarith
      · rw [if_neg hr]; simp

theorem pow_small (q s : ℝ) (hs : 0 < s) : ∃ m : Nat, |q| * 0.9 ^ m ≤ s := by
  rcases eq_or_ne q 0 with rfl | hq
  · exact ⟨0, by simp [hs.le]⟩
  · have hq' : 0 < |q| := abs_pos.mpr hq
    obtain ⟨m, hm⟩ := exists_pow_lt_of_lt_one (div_pos hs hq') (show (0.9:ℝ) < 1 by norm_num)
    refine ⟨m, ?_⟩
    rw [lt_div_iff₀ hq'] at hm
    linarith

end Viscid.Integrate
