import Verif.Lemmas.Calc
import Mathlib.Algebra.Order.Ring.Rat
import Mathlib.Tactic.NormNum
/-!
# C31, C32, C34
-/
namespace Viscid.Calc
set_option linter.unusedSectionVars false
open Viscid.Spec.Calc

/-! ## C34: boundary extension -/

section
variable {K : Type} [Field K] [DecidableEq K] {d : Nat}

/-- C34: for every number of dimensions, every set of axes and every pair of ghost widths, the result has
nl + nh more values along each extended axis and the input in its interior. -/
theorem C34_interior (shape : Fin d → Nat) (arr : (Fin d → Nat) → K) (nl nh : Nat) (axes : List (Fin d))
    (order : Int) (dx : K) (hn : ∀ i ∈ axes, 1 ≤ shape i) (ho : order = 0 ∨ order = 1) :
    ∃ v, extendArr shape arr nl nh (.some axes) order dx =
        .ok (fun i => if i ∈ axes then shape i + nl + nh else shape i, v) ∧
      ∀ idx : Fin d → Nat, (∀ i ∈ axes, idx i < shape i) →
        v (fun i => if i ∈ axes then idx i + nl else idx i) = arr idx :=
  extend_interior shape arr nl nh axes order dx hn ho

/-- C34: order 0 repeats the nearest value, in the corners too. -/
theorem C34_order0 (shape : Fin d → Nat) (arr : (Fin d → Nat) → K) (nl nh : Nat) (axes : List (Fin d))
    (hn : ∀ i ∈ axes, 1 ≤ shape i) :
    ∃ s v, extendArr shape arr nl nh (.some axes) 0 0 = .ok (s, v) ∧
      ∀ idx, Inside s idx → v idx = arr (fun i => if i ∈ axes then nearest nl (shape i) (idx i) else idx i) := by
  obtain ⟨v, h1, h2⟩ := extend_hold shape arr nl nh axes 0 hn (fun _ _ => Or.inl rfl)
  refine ⟨_, v, h1, fun idx hi => h2 idx fun i h => ?_⟩
  simpa only [if_pos h] using hi i

/-- C34: order 1 continues values that are affine in the index (in several dimensions at once, so the
corners too); an axis with a single value is continued with step dx. -/
theorem C34_order1 (shape : Fin d → Nat) (arr : (Fin d → Nat) → K) (nl nh : Nat) (axes : List (Fin d)) (dx : K)
    (hn : ∀ i ∈ axes, 1 ≤ shape i) (a : K) (b : Fin d → K) (hb : ∀ i ∈ axes, shape i = 1 → b i = dx)
    (ha : ∀ idx, (∀ i ∈ axes, idx i < shape i) → arr idx = a + ∑ i, b i * (idx i : K)) :
    ∃ s v, extendArr shape arr nl nh (.some axes) 1 dx = .ok (s, v) ∧
      ∀ idx, Inside s idx → v idx = a + ∑ i, b i * ((idx i : K) - if i ∈ axes then (nl : K) else 0) := by
  obtain ⟨v, h1, h2⟩ := extend_affine shape arr nl nh axes dx hn a b hb ha
  refine ⟨_, v, h1, fun idx hi => h2 idx fun i h => ?_⟩
  simpa only [if_pos h] using hi i

/-- C34: order 1 on an arbitrary profile: the ghost cells lie on the straight lines through the first two
and the last two values. -/
theorem C34_order1_profile (n : Nat) (hn : 2 ≤ n) (arr : Nat → K) (nl nh : Nat) (dx : K) :
    ∃ s v, extendArr (d := 1) (fun _ => n) (fun i => arr (i 0)) nl nh (.some [0]) 1 dx = .ok (s, v) ∧
      s 0 = n + nl + nh ∧ ∀ t, t < n + nl + nh →
        (t < nl → v ![t] = arr 0 + ((t : K) - nl) * (arr 1 - arr 0)) ∧
        (nl ≤ t → t < nl + n → v ![t] = arr (t - nl)) ∧
        (nl + n ≤ t → v ![t] = arr (n - 1) + ((t : K) - (nl + n - 1)) * (arr (n - 1) - arr (n - 2))) := by
  unfold extendArr
  dsimp only
  rw [foldlM_ok 1 dx (fun _ : Fin 1 => n) nl nh (fun _ => extrapLine n nl nh) [0]
    (fun ax _ => extLine_extrap dx n nl nh hn)]
  refine ⟨_, _, rfl, by simp, fun t ht => ?_⟩
  have hv : ∀ s, nl ≤ s → s < nl + n →
      pad (fun _ : Fin 1 => n) nl [0] (fun i => arr (i 0)) (Function.update ![t] 0 s) = arr (s - nl) := by
    intro s h1 h2
    unfold pad
    rw [if_pos (by intro i _; rw [Subsingleton.elim i 0, Function.update_self]; exact ⟨h1, h2⟩)]
    simp
  dsimp only [List.foldl_cons, List.foldl_nil]
  unfold lineWise
  rw [extrapLine_eq n nl nh hn _ _ (by simpa using ht)]
  simp only [Matrix.cons_val_fin_one]
  refine ⟨fun h => ?_, fun h1 h2 => ?_, fun h => ?_⟩
  · rw [if_pos h, hv nl le_rfl (by omega), hv (nl + 1) (by omega) (by omega)]
    simp
  · rw [if_neg (by omega), if_neg (by omega), hv t h1 h2]
  · rw [if_neg (by omega), if_pos (by omega), hv (n + nl - 1) (by omega) (by omega),
      hv (n + nl - 2) (by omega) (by omega), Nat.cast_sub (by omega), show n + nl - 1 - nl = n - 1 by omega,
      show n + nl - 2 - nl = n - 2 by omega]
    push_cast
    ring

/-- C34: for an array with a component axis c the other axes are counted without it, and every component
is extended like an array of its own. -/
theorem C34_components (shape : Fin (d + 1) → Nat) (arr : (Fin (d + 1) → Nat) → K) (nl nh : Nat) (c : Fin (d + 1))
    (axes : List (Fin d)) (order : Int) (dx : K) (s : Fin (d + 1) → Nat) (v : (Fin (d + 1) → Nat) → K)
    (h : extendArr shape arr nl nh (.some (shiftAxes c axes)) order dx = .ok (s, v)) (m : Nat) :
    s c = shape c ∧
    ∃ s' v', extendArr (fun i => shape (c.succAbove i)) (fun i => arr (c.insertNth m i)) nl nh (.some axes) order dx =
        .ok (s', v') ∧ (∀ i, s' i = s (c.succAbove i)) ∧ ∀ idx, v (c.insertNth m idx) = v' idx := by
  rw [shiftAxes_eq] at h
  unfold extendArr at h ⊢
  dsimp only at h ⊢
  have hmem : ∀ i, c.succAbove i ∈ axes.map c.succAbove ↔ i ∈ axes := by
    intro i
    rw [List.mem_map]
    constructor
    · rintro ⟨j, hj, e⟩; rwa [← Fin.succAbove_right_injective e]
    · intro h; exact ⟨i, h, rfl⟩
  have hc : c ∉ axes.map c.succAbove := by
    rw [List.mem_map]; rintro ⟨j, _, e⟩; exact Fin.succAbove_ne c j e
  have hf := comp_fold order dx shape nl nh c m axes (pad shape nl (axes.map c.succAbove) arr)
    (pad (fun i => shape (c.succAbove i)) nl axes (fun i => arr (c.insertNth m i)))
    (fun idx => pad_comp shape arr nl c m axes idx)
  cases hw : (axes.map c.succAbove).foldlM
      (fun v ax => (extLine order dx (shape ax) nl nh).map fun g => lineWise ax g v)
      (pad shape nl (axes.map c.succAbove) arr) with
  | error e => rw [hw] at h; cases h
  | ok w =>
    rw [hw] at h
    have h' : ((fun i => if i ∈ axes.map c.succAbove then shape i + nl + nh else shape i), w) = (s, v) :=
      Except.ok.inj h
    obtain ⟨rfl, rfl⟩ := Prod.mk.inj h'
    obtain ⟨w', h1, h2⟩ := hf.1 w hw
    rw [h1]
    refine ⟨if_neg hc, _, w', rfl, fun i => ?_, h2⟩
    dsimp only
    by_cases hi : i ∈ axes
    · rw [if_pos hi, if_pos ((hmem i).mpr hi)]
    · rw [if_neg hi, if_neg (fun h => hi ((hmem i).mp h))]

/-- C34: other orders are rejected (for axes with at least two values). -/
theorem C34_bad_order (shape : Fin d → Nat) (arr : (Fin d → Nat) → K) (nl nh : Nat) (ax : Fin d) (axes : List (Fin d))
    (order : Int) (dx : K) (h2 : 2 ≤ shape ax) (h0 : order ≠ 0) (h1 : order ≠ 1) :
    extendArr shape arr nl nh (.some (ax :: axes)) order dx = .error .value := by
  unfold extendArr
  dsimp only
  rw [List.foldlM_cons]
  unfold extLine
  rw [if_neg (fun h => by omega), if_neg h0, if_neg (by omega), if_neg h1]
  rfl

/-- C34 fails for the default of the function: axes='all' raises TypeError whatever the array. -/
theorem C34_default_axes_violated (shape : Fin d → Nat) (arr : (Fin d → Nat) → K) (nl nh : Nat) (order : Int) (dx : K) :
    extendArr shape arr nl nh .all order dx = .error .type := rfl
end

/-- Non-vacuity and shape of the result: 2 and 5 extended by 2 and 1 give -4, -1, 2, 5, 8; the four corners
of a padded 2 by 2 array are filled (the docstring says they stay 0). -/
example : (extendArr (d := 1) (fun _ => 2) (fun i => if i 0 = 0 then (2 : ℚ) else 5) 2 1 (.some [0]) 1 0).toOption.map
    (fun r => (List.range 5).map fun t => r.2 ![t]) = some [-4, -1, 2, 5, 8] := by decide +kernel
example : (extendArr (d := 2) (fun _ => 2) (fun i => ((i 0 : ℚ) + 2 * i 1 + 1)) 1 1 (.some [0, 1]) 0 0).toOption.map
    (fun r => [r.2 ![0, 0], r.2 ![0, 3], r.2 ![3, 0], r.2 ![3, 3]]) = some [1, 3, 2, 4] := by decide +kernel
example : (extendArr (d := 3) ![3, 2, 2] (fun i => ((i 0 : ℚ) * 100 + i 1 + 10 * i 2)) 1 1 (.some (shiftAxes 0 [0, 1])) 1 0).toOption.map
    (fun r => [r.1 0, r.1 1, r.1 2]) = some [3, 4, 4] := by decide +kernel

/-! ## C32: exactness on affine fields -/

section
variable {K : Type} [Field K] [LinearOrder K] [IsStrictOrderedRing K]

/-- C32: the gradient of an affine cell-centred field is its slope at every point, with boundary extension
on the original grid. -/
theorem C32_grad_partial (f : Fld K 1) (bnd : Bool) (hc : f.center = .cell) (h2 : ∀ a, 2 ≤ f.n a)
    (hinc : ∀ a, Increasing (f.n a) (f.crd a)) (a : K) (g : Fin 3 → K) (hf : Affine f 0 a g) :
    ∃ r, grad f bnd = .ok r ∧ (bnd = true → SameGrid f r) ∧ ∀ m idx, Inside r.n idx → r.dat m idx = g m := by
  have hp : (prep f bnd).center = .cell := by rw [prep_center]; exact hc
  refine ⟨_, grad_cell f bnd hp, fun hb => prep_same f bnd hb h2 _ _, fun m idx hi => ?_⟩
  obtain ⟨hx, hy, hz⟩ := affine_diffs f bnd h2 hinc 0 a g hf idx hi
  match m with
  | 0 => exact hx
  | 1 => exact hy
  | 2 => exact hz

/-- C32: divergence. -/
theorem C32_div (f : Fld K 3) (bnd : Bool) (hc : f.center = .cell ∨ f.center = .node) (h2 : ∀ a, 2 ≤ f.n a)
    (hinc : ∀ a, Increasing (f.n a) (f.crd a)) (a : Fin 3 → K) (J : Fin 3 → Fin 3 → K)
    (hf : ∀ m, Affine f m (a m) (J m)) :
    ∃ r, div f bnd = .ok r ∧ (bnd = true → SameGrid f r) ∧
      ∀ idx, Inside r.n idx → r.dat 0 idx = J 0 0 + J 1 1 + J 2 2 := by
  refine ⟨_, div_ok f bnd hc, fun hb => prep_same f bnd hb h2 _ _, fun idx hi => ?_⟩
  dsimp only
  rw [(affine_diffs f bnd h2 hinc 0 _ _ (hf 0) idx hi).1, (affine_diffs f bnd h2 hinc 1 _ _ (hf 1) idx hi).2.1,
    (affine_diffs f bnd h2 hinc 2 _ _ (hf 2) idx hi).2.2]

/-- C32: curl. -/
theorem C32_curl (f : Fld K 3) (bnd : Bool) (hc : f.center = .cell ∨ f.center = .node) (h2 : ∀ a, 2 ≤ f.n a)
    (hinc : ∀ a, Increasing (f.n a) (f.crd a)) (a : Fin 3 → K) (J : Fin 3 → Fin 3 → K)
    (hf : ∀ m, Affine f m (a m) (J m)) :
    ∃ r, curl f bnd = .ok r ∧ (bnd = true → SameGrid f r) ∧
      ∀ idx, Inside r.n idx → r.dat 0 idx = J 2 1 - J 1 2 ∧ r.dat 1 idx = J 0 2 - J 2 0 ∧
        r.dat 2 idx = J 1 0 - J 0 1 := by
  refine ⟨_, curl_ok f bnd hc, fun hb => prep_same f bnd hb h2 _ _, fun idx hi => ?_⟩
  have A := fun m => affine_diffs f bnd h2 hinc m _ _ (hf m) idx hi
  refine ⟨?_, ?_, ?_⟩
  · show dY _ _ _ - dZ _ _ _ = _
    rw [(A 2).2.1, (A 1).2.2]
  · show -dX _ _ _ + dZ _ _ _ = _
    rw [(A 2).1, (A 0).2.2]; ring
  · show dX _ _ _ - dY _ _ _ = _
    rw [(A 1).1, (A 0).2.1]

/-- C32 along an axis with a single point: with boundary extension the derivative along it is 0. -/
theorem C32_invariant_axis (f : Fld K 1) (hc : f.center = .cell) (hn : ∀ a, 1 ≤ f.n a) (ax : Fin 3)
    (h1 : f.n ax = 1) :
    ∃ r, grad f true = .ok r ∧ SameGrid f r ∧ ∀ idx, Inside r.n idx → r.dat ax idx = 0 := by
  have hp : (prep f true).center = .cell := by rw [prep_center]; exact hc
  refine ⟨_, grad_cell f true hp, ⟨by funext a; rfl, fun a t ht => crd_eq f hn a t ht⟩, fun idx hi => ?_⟩
  have e : ![idx 0, idx 1, idx 2] = idx := by funext a; match a with | 0 => rfl | 1 => rfl | 2 => rfl
  have i0 : idx 0 < f.n 0 := hi 0
  have i1 : idx 1 < f.n 1 := hi 1
  have i2 : idx 2 < f.n 2 := hi 2
  have hud : ∀ i, i < f.n ax → up (f.n ax) i = dn i := by intro i h; unfold up dn; omega
  match ax with
  | 0 =>
    show dX (extend0 f).crd ((extend0 f).dat 0) idx = 0
    rw [← e, dX_ext f hn 0 _ _ _ i0 i1 i2, hud _ i0, sub_self, zero_div]
  | 1 =>
    show dY (extend0 f).crd ((extend0 f).dat 0) idx = 0
    rw [← e, dY_ext f hn 0 _ _ _ i0 i1 i2, hud _ i1, sub_self, zero_div]
  | 2 =>
    show dZ (extend0 f).crd ((extend0 f).dat 0) idx = 0
    rw [← e, dZ_ext f hn 0 _ _ _ i0 i1 i2, hud _ i2, sub_self, zero_div]

/-- C32 fails for the gradient of node-centred fields: it raises on every grid with two or more nodes along
some axis. -/
theorem C32_grad_node_violated (f : Fld K 1) (hc : f.center = .node) (a : Fin 3) (h2 : 2 ≤ f.n a) :
    grad f true = .error .value := by
  have hp : (prep f true).center = .node := by rw [prep_center]; exact hc
  unfold grad
  dsimp only
  rw [hp]
  exact if_pos ⟨a, by show 2 ≤ f.n a + 2 - 2; omega⟩

/-- C63: the convective derivative (a·∇)b of an affine field b is Σ_i a_i ∂_i b at every point. -/
theorem C63_convective_affine (a b : Fld K 3) (hca : a.center = .cell) (hcb : b.center = .cell) (hab : a.n = b.n)
    (h2 : ∀ x, 2 ≤ b.n x) (hinc : ∀ x, Increasing (b.n x) (b.crd x)) (c : Fin 3 → K) (J : Fin 3 → Fin 3 → K)
    (hf : ∀ m, Affine b m (c m) (J m)) (bnd : Bool) :
    ∃ r, convDeriv a b bnd = .ok r ∧ ∀ m idx, Inside r.n idx →
      r.dat m idx = ∑ i, a.dat i (if bnd then idx else fun x => idx x + 1) * J m i := by
  have hp : (prep b bnd).center = .cell := by rw [prep_center]; exact hcb
  refine ⟨_, convDeriv_ok a b bnd hca hp, fun m idx hi => ?_⟩
  have hi' : Inside (fun x => (prep b bnd).n x - 2) idx := by
    intro x
    have := hi x
    cases bnd with
    | true => exact (hab ▸ this : idx x < b.n x)
    | false => exact (hab ▸ this : idx x < b.n x - 2)
  have A := affine_diffs b bnd h2 hinc m _ _ (hf m) idx hi'
  rw [Fin.sum_univ_three]
  show 0 + _ * dX _ _ idx + _ * dY _ _ idx + _ * dZ _ _ idx = _
  rw [A.1, A.2.1, A.2.2]
  cases bnd with
  | true => simp
  | false =>
    have e : ∀ idx : Fin 3 → Nat, ![idx 0 + 1, idx 1 + 1, idx 2 + 1] = fun x => idx x + 1 := by
      intro idx; funext x; match x with | 0 => rfl | 1 => rfl | 2 => rfl
    simp [at3, e]
end

/-! ## C31: discrete identities -/

section
variable {K : Type} [Field K] [DecidableEq K]

/-- C31: the divergence of a curl vanishes at every point, whether or not the boundaries are extended
(provided the divergence is not extended over a curl that was not). -/
theorem C31_div_curl (f : Fld K 3) (b1 b2 : Bool) (hb : b2 = true → b1 = true)
    (hc : f.center = .cell ∨ f.center = .node) (hn : ∀ a, 1 ≤ f.n a) :
    ∃ c d, curl f b1 = .ok c ∧ div c b2 = .ok d ∧ ∀ idx, Inside d.n idx → d.dat 0 idx = 0 := by
  refine ⟨_, _, curl_ok f b1 hc, div_ok _ b2 (by rw [prep_center]; exact hc), fun idx hi => ?_⟩
  have e : ![idx 0, idx 1, idx 2] = idx := by funext a; match a with | 0 => rfl | 1 => rfl | 2 => rfl
  rw [← e]
  exact div_curl_zero f b1 b2 hb hn _ _ _ _ rfl (hi 0) (hi 1) (hi 2)

/-- C31: the curl of the gradient of a cell-centred field. -/
theorem C31_curl_grad_partial (f : Fld K 1) (b1 b2 : Bool) (hb : b2 = true → b1 = true)
    (hc : f.center = .cell) (hn : ∀ a, 1 ≤ f.n a) :
    ∃ c d, grad f b1 = .ok c ∧ curl c b2 = .ok d ∧ ∀ m idx, Inside d.n idx → d.dat m idx = 0 := by
  have hp : (prep f b1).center = .cell := by rw [prep_center]; exact hc
  refine ⟨_, _, grad_cell f b1 hp, curl_ok _ b2 (Or.inl rfl), fun m idx hi => ?_⟩
  have e : ![idx 0, idx 1, idx 2] = idx := by funext a; match a with | 0 => rfl | 1 => rfl | 2 => rfl
  rw [← e]
  have h := curl_grad_zero f b1 b2 hb hn _ _ _ _ rfl (hi 0) (hi 1) (hi 2)
  match m with
  | 0 => exact h.1
  | 1 => exact h.2.1
  | 2 => exact h.2.2
end

/-- A nonuniform grid and an affine field on it: the hypotheses of C31 and C32 are met. -/
def sample (nc : Nat) (J : Fin nc → Fin 3 → ℚ) : Fld ℚ nc where
  center := .cell
  n := ![3, 4, 2]
  crd := ![fun t => (t : ℚ) ^ 2 + t, fun t => 3 * t, fun t => (t : ℚ) / 7]
  dat := fun m idx => 5 + J m 0 * ((idx 0 : ℚ) ^ 2 + idx 0) + J m 1 * (3 * (idx 1 : ℚ)) + J m 2 * ((idx 2 : ℚ) / 7)

example (J : Fin 3 → Fin 3 → ℚ) : (∀ a, 2 ≤ (sample 3 J).n a) ∧
    (∀ a, Increasing ((sample 3 J).n a) ((sample 3 J).crd a)) ∧ ∀ m, Affine (sample 3 J) m 5 (J m) := by
  refine ⟨by intro a; match a with | 0 => exact (by decide : 2 ≤ 3) | 1 => exact (by decide : 2 ≤ 4) | 2 => exact (by decide : 2 ≤ 2), ?_, fun m idx _ => rfl⟩
  intro a i j hij _
  have h : (i : ℚ) < j := by exact_mod_cast hij
  have h0 : (0 : ℚ) ≤ i := Nat.cast_nonneg i
  match a with
  | 0 =>
    show (i : ℚ) ^ 2 + i < (j : ℚ) ^ 2 + j
    nlinarith
  | 1 =>
    show 3 * (i : ℚ) < 3 * j
    linarith
  | 2 =>
    show (i : ℚ) / 7 < (j : ℚ) / 7
    linarith

end Viscid.Calc
