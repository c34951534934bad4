import Verif.Model.Cmap
import Verif.Spec.Cmap
import Mathlib.Tactic.Linarith
import Mathlib.Tactic.Positivity
import Mathlib.Tactic.FieldSimp
/-!
# C241: colours and limits of lookup tables
-/
namespace Viscid.Props
open Viscid.Cmap Viscid.Spec.Cmap

namespace CM

/-- rows of three or four numbers -/
def Rgb (rows : List (List ℚ)) : Prop := rows ≠ [] ∧ ((∀ r ∈ rows, r.length = 3) ∨ ∀ r ∈ rows, r.length = 4)

theorem trunc_byte {v : ℚ} (h : 0 ≤ v) : ByteOf v (trunc (255 * v)) := by
  unfold trunc
  rw [if_pos (by linarith)]
  exact ⟨Int.floor_le _, Int.lt_floor_add_one _⟩

theorem trunc_int (n : Int) : trunc (n : ℚ) = n := by
  unfold trunc
  split <;> simp

/-- colours with three or four numbers get their alpha -/
theorem finish (rows : List (List ℚ)) (h : Rgb rows) (f : ℚ → Int) (hb : bytes rows = .ok (rows.map fun r => r.map f)) :
    getCmap rows = .ok (rows.map fun r => r.map f ++ if r.length = 3 then [255] else []) := by
  obtain ⟨h0, h⟩ := h
  unfold getCmap
  rw [hb]
  cases rows with
  | nil => exact absurd rfl h0
  | cons r rs =>
    have hr : r.length = 3 ∨ r.length = 4 := by 
      rcases h with h | h
      · exact .inl (h r (by simp))
      · exact .inr (h r (by simp))
    simp only [List.map_cons, List.length_map]
    have hn : ¬ (r.length ≠ 3 ∧ r.length ≠ 4 ∧ ((List.map f r :: rs.map fun r => r.map f).length = 3 ∨ (List.map f r :: rs.map fun r => r.map f).length = 4)) :=
      fun h => by have := h.1; have := h.2.1; omega
    rw [if_neg hn]
    simp only [List.headD_cons, List.length_map]
    congr 1
    rcases h with h | h
    · rw [if_pos (h r (by simp)), if_pos (h r (by simp))]
      simp only [List.map_cons, List.map_map, List.cons.injEq, true_and]
      apply List.map_congr_left
      intro s hs
      show List.map f s ++ [255] = _
      rw [if_pos (h s (by simp [hs]))]
    · rw [if_neg (by have := h r (by simp); omega), if_neg (by have := h r (by simp); omega)]
      simp only [List.append_nil, List.cons.injEq, true_and]
      apply List.map_congr_left
      intro s hs
      rw [if_neg (by have := h s (by simp [hs]); omega), List.append_nil]

end CM

/-- C241: colours that are fractions become bytes, one row for each, and opaque if nothing else is given. -/
theorem C241_fractions (rows : List (List ℚ)) (h : CM.Rgb rows) (hv : ∀ r ∈ rows, ∀ v ∈ r, 0 ≤ v ∧ v ≤ 1) :
    ∃ t, getCmap rows = .ok t ∧ t.length = rows.length ∧ ∀ (k c : Nat) (r : List ℚ), rows[k]? = some r →
      ∃ s, t[k]? = some s ∧ s.length = 4 ∧ (∀ v, r[c]? = some v → ∃ b, s[c]? = some b ∧ ByteOf v b) ∧ (r.length = 3 → s[3]? = some 255) := by
  refine ⟨_, CM.finish rows h (fun v => trunc (255 * v)) ?_, by simp, fun k c r hr => ?_⟩
  · unfold bytes
    rw [if_pos ⟨fun r hr v hv' => (hv r hr v hv').1, fun r hr v hv' => (hv r hr v hv').2⟩]
  · have hm := List.mem_of_getElem? hr
    refine ⟨_, by rw [List.getElem?_map, hr]; rfl, ?_, fun v hc => ?_, fun h3 => ?_⟩
    · rcases h.2 with h | h
      · simp [h r hm]
      · simp [h r hm]
    · refine ⟨trunc (255 * v), ?_, CM.trunc_byte (hv r hm v (List.mem_of_getElem? hc)).1⟩
      have : c < r.length := (List.getElem?_eq_some_iff.1 hc).1
      rw [List.getElem?_append_left (by simpa using this), List.getElem?_map, hc]; rfl
    · rw [List.getElem?_append_right (by simp [h3]), if_pos h3]; simp [h3]

/-- C241: colours in columns, as three or four rows of fractions, become the same: one row for each column. -/
theorem C241_columns (rows : List (List ℚ)) (n : Nat) (hl : rows.length = 3 ∨ rows.length = 4) (hn : ∀ r ∈ rows, r.length = n) (h0 : n ≠ 0) (h3 : n ≠ 3) (h4 : n ≠ 4)
    (hv : ∀ r ∈ rows, ∀ v ∈ r, 0 ≤ v ∧ v ≤ 1) :
    ∃ t, getCmap rows = .ok t ∧ t.length = n ∧ ∀ k, k < n →
      ∃ s, t[k]? = some s ∧ s.length = 4 ∧ (∀ (c : Nat) (r : List ℚ), rows[c]? = some r → ∃ v b, r[k]? = some v ∧ s[c]? = some b ∧ ByteOf v b) ∧ (rows.length = 3 → s[3]? = some 255) := by
  have hb : bytes rows = .ok (rows.map fun r => r.map fun v => trunc (255 * v)) := by
    unfold bytes
    rw [if_pos ⟨fun r hr v hv' => (hv r hr v hv').1, fun r hr v hv' => (hv r hr v hv').2⟩]
  obtain ⟨r0, rs, rfl⟩ : ∃ r0 rs, rows = r0 :: rs := by
    cases rows with
    | nil => simp at hl
    | cons a b => exact ⟨a, b, rfl⟩
  have hr0 : r0.length = n := hn r0 (by simp)
  generalize hT : (r0 :: rs).map (fun r => r.map fun v => trunc (255 * v)) = T at hb
  have hT' : T = (r0.map fun v => trunc (255 * v)) :: rs.map (fun r => r.map fun v => trunc (255 * v)) := by rw [← hT]; rfl
  have hTl : T.length = (r0 :: rs).length := by rw [← hT, List.length_map]
  have hg : getCmap (r0 :: rs) = .ok (if T.length = 3 then (transposed T).map (· ++ [255]) else transposed T) := by
    have hh : ((transposed T).headD []).length = T.length := by
      obtain ⟨m, rfl⟩ : ∃ m, n = m + 1 := ⟨n - 1, by omega⟩
      unfold transposed
      rw [hT', List.headD_cons, List.length_map, hr0, List.range_succ_eq_map, List.map_cons, List.headD_cons, List.length_map]
    unfold getCmap
    rw [hb, hT']
    simp only
    have hcond : (r0.map fun v => trunc (255 * v)).length ≠ 3 ∧ (r0.map fun v => trunc (255 * v)).length ≠ 4 ∧ (T.length = 3 ∨ T.length = 4) :=
      ⟨by rw [List.length_map, hr0]; exact h3, by rw [List.length_map, hr0]; exact h4, by rw [hTl]; exact hl⟩
    rw [← hT']
    simp only [if_pos hcond, hh]
  refine ⟨_, hg, ?_, fun k hk => ?_⟩
  · split <;> simp [transposed, hT', hr0]
  · have hk' : (transposed T)[k]? = some (T.map fun r => r.getD k 0) := by
      unfold transposed
      rw [List.getElem?_map, hT', List.headD_cons, List.length_map, hr0, List.getElem?_range hk]; rfl
    have hget : ∀ (c : Nat) (r : List ℚ), (r0 :: rs)[c]? = some r → ∃ v b, r[k]? = some v ∧ (T.map fun r => r.getD k 0)[c]? = some b ∧ ByteOf v b := by
      intro c r hr
      have hm := List.mem_of_getElem? hr
      have hkr : k < r.length := by rw [hn r hm]; exact hk
      refine ⟨r[k], trunc (255 * r[k]), List.getElem?_eq_getElem hkr, ?_, ?_⟩
      · rw [List.getElem?_map, ← hT, List.getElem?_map, hr]
        simp [List.getD_eq_getElem?_getD, List.getElem?_map, List.getElem?_eq_getElem hkr]
      · have := hv r hm _ (List.getElem_mem hkr)
        exact CM.trunc_byte this.1
    by_cases hc : T.length = 3
    · refine ⟨(T.map fun r => r.getD k 0) ++ [255], by rw [if_pos hc, List.getElem?_map, hk']; rfl, by simp [hc], fun c r hr => ?_, fun _ => ?_⟩
      · obtain ⟨v, b, h1, h2, h3⟩ := hget c r hr
        have : c < (T.map fun r => r.getD k 0).length := (List.getElem?_eq_some_iff.1 h2).1
        exact ⟨v, b, h1, by rw [List.getElem?_append_left this]; exact h2, h3⟩
      · rw [List.getElem?_append_right (by simp [hc])]; simp [hc]
    · refine ⟨T.map fun r => r.getD k 0, by rw [if_neg hc]; exact hk', by rw [List.length_map]; omega, hget, fun h => ?_⟩
      rw [← hTl] at h; exact absurd h hc

/-- C241: colours that are bytes, at least one of them greater than one, stay as they are. Missing: see the next theorem. -/
theorem C241_bytes_partial (rows : List (List Int)) (h : CM.Rgb (rows.map fun r => r.map fun n : Int => (n : ℚ)))
    (hv : ∀ r ∈ rows, ∀ v ∈ r, 0 ≤ v ∧ v ≤ 255) (hb : ∃ r ∈ rows, ∃ v ∈ r, 1 < v) :
    getCmap (rows.map fun r => r.map fun n : Int => (n : ℚ)) = .ok (rows.map fun r => r ++ if r.length = 3 then [255] else []) := by
  have e : (rows.map fun r => r.map fun n : Int => (n : ℚ)).map (fun r => r.map trunc) = rows := by
    rw [List.map_map]
    conv_rhs => rw [← List.map_id rows]
    apply List.map_congr_left
    intro r _
    show List.map trunc (List.map _ r) = r
    rw [List.map_map]
    conv_rhs => rw [← List.map_id r]
    exact List.map_congr_left fun n _ => CM.trunc_int n
  rw [CM.finish _ h trunc ?_]
  · rw [List.map_map]
    congr 1
    apply List.map_congr_left
    intro r _
    show List.map trunc (List.map _ r) ++ _ = _
    rw [List.map_map, List.length_map]
    congr 1
    conv_rhs => rw [← List.map_id r]
    exact List.map_congr_left fun n _ => CM.trunc_int n
  · unfold bytes
    rw [if_neg, e, if_neg]
    · rintro (⟨r, hr, v, hv', h'⟩ | ⟨r, hr, v, hv', h'⟩)
      · have := hv r hr v hv'; omega
      · have := hv r hr v hv'; omega
    · rintro ⟨-, h2⟩
      obtain ⟨r, hr, v, hv', h'⟩ := hb
      have := h2 _ (List.mem_map.2 ⟨r, hr, rfl⟩) _ (List.mem_map.2 ⟨v, hv', rfl⟩)
      have : v ≤ 1 := by exact_mod_cast this
      omega

/-- C241 is violated: bytes that are all zero or one, of very dark colours, are taken for fractions; every one of them becomes full intensity. -/
theorem C241_dark_violated (rows : List (List Int)) (h : CM.Rgb (rows.map fun r => r.map fun n : Int => (n : ℚ)))
    (hv : ∀ r ∈ rows, ∀ v ∈ r, v = 0 ∨ v = 1) :
    getCmap (rows.map fun r => r.map fun n : Int => (n : ℚ)) = .ok (rows.map fun r => r.map (255 * ·) ++ if r.length = 3 then [255] else []) := by
  rw [CM.finish _ h (fun v => trunc (255 * v)) ?_]
  · rw [List.map_map]
    congr 1
    apply List.map_congr_left
    intro r _
    show List.map _ (List.map _ r) ++ _ = _
    rw [List.map_map, List.length_map]
    congr 1
    apply List.map_congr_left
    intro n _
    show trunc (255 * (n : ℚ)) = 255 * n
    rw [← CM.trunc_int (255 * n)]
    push_cast
    rfl
  · unfold bytes
    rw [if_pos]
    constructor <;>
    · intro r hr v hv'
      obtain ⟨s, hs, rfl⟩ := List.mem_map.1 hr
      obtain ⟨n, hn, rfl⟩ := List.mem_map.1 hv'
      rcases hv s hs n hn with rfl | rfl <;> norm_num

/-- C241: colours out of range are refused. -/
theorem C241_refused (rows : List (List ℚ)) (r : List ℚ) (hr : r ∈ rows) (v : ℚ) (hv : v ∈ r) (h : v ≤ -1 ∨ 256 ≤ v) :
    getCmap rows = .error .value := by
  unfold getCmap bytes
  rw [if_neg, if_pos]
  · rcases h with h | h
    · refine .inl ⟨_, List.mem_map.2 ⟨r, hr, rfl⟩, _, List.mem_map.2 ⟨v, hv, rfl⟩, ?_⟩
      unfold trunc
      rw [if_neg (by linarith)]
      have : ⌈v⌉ ≤ -1 := Int.ceil_le.2 (by push_cast; linarith)
      omega
    · refine .inr ⟨_, List.mem_map.2 ⟨r, hr, rfl⟩, _, List.mem_map.2 ⟨v, hv, rfl⟩, ?_⟩
      unfold trunc
      rw [if_pos (by linarith)]
      have : 256 ≤ ⌊v⌋ := Int.le_floor.2 (by push_cast; linarith)
      omega
  · rintro ⟨h1, h2⟩
    have a1 := h1 r hr v hv
    have a2 := h2 r hr v hv
    rcases h with h | h <;> linarith

/-- C241: limits that are given are the limits; symmetric limits have zero in the middle and reach as far as what was there; a logarithmic
scale keeps the limits. -/
theorem C241_limits (l : Lut) (a b : ℚ) :
    (applyLimits l (.pair a b) 0 false = { l with lo := a, hi := b }) ∧
    (∀ clim, (clim = .none ∨ clim = .num 0) → ∀ s, s = (if clim = .none then 1 else 0) →
      let m := applyLimits l clim s false
      m.lo = -m.hi ∧ m.lo ≤ l.lo ∧ l.lo ≤ m.hi ∧ m.lo ≤ l.hi ∧ l.hi ≤ m.hi ∧ (m.hi = |l.lo| ∨ m.hi = |l.hi|)) ∧
    (∀ s, applyLimits l .none s true = { l with log := true }) := by
  refine ⟨rfl, fun clim hc s hs => ?_, fun s => rfl⟩
  have e : applyLimits l clim s false = { l with lo := -(max |l.lo| |l.hi|), hi := max |l.lo| |l.hi| } := by
    rcases hc with rfl | rfl
    · subst hs
      simp [applyLimits, limits]
    · simp [applyLimits, limits]
  rw [e]
  dsimp only
  have h1 := le_max_left |l.lo| |l.hi|
  have h2 := le_max_right |l.lo| |l.hi|
  have h3 := abs_le.1 h1
  have h4 := abs_le.1 h2
  exact ⟨rfl, h3.1, h3.2, h4.1, h4.2, max_choice _ _⟩

/-- C241: opacity. One number is that of all colours; a sequence goes over the whole map, and two numbers are a linear ramp. -/
theorem C241_alpha (n k : Nat) (hk : k < n) (a b : ℚ) (alpha : List ℚ) (h2 : 2 ≤ alpha.length) :
    ramp [a] n k = a ∧ (2 ≤ n → ramp [a, b] n k = a + (b - a) * (k / (n - 1 : ℕ))) ∧
    (2 ≤ n → ∀ j : Nat, j < alpha.length → k * (alpha.length - 1) = j * (n - 1) → some (ramp alpha n k) = alpha[j]?) := by
  have key : 2 ≤ n → ∀ (alpha : List ℚ), 2 ≤ alpha.length → ∀ j : Nat, j < alpha.length → k * (alpha.length - 1) = j * (n - 1) → some (ramp alpha n k) = alpha[j]? := by
    intro hn alpha h2 j hj hkj
    unfold ramp
    have hn0 : ((n - 1 : ℕ) : ℚ) ≠ 0 := by
      have : n - 1 ≠ 0 := by omega
      exact_mod_cast this
    have e : ((k : ℚ) / (n - 1 : ℕ)) * (alpha.length - 1 : ℕ) = j := by
      rw [div_mul_eq_mul_div, div_eq_iff hn0]
      exact_mod_cast hkj
    simp only [if_neg (show ¬ n ≤ 1 by omega), e, Int.floor_natCast, Int.toNat_natCast]
    split
    · rw [sub_self, mul_zero, add_zero, List.getD_eq_getElem?_getD, List.getElem?_eq_getElem hj]; rfl
    · have : j = alpha.length - 1 := by omega
      rw [this, List.getD_eq_getElem?_getD, List.getElem?_eq_getElem (by omega)]; rfl
  refine ⟨by simp [ramp], fun hn => ?_, fun hn => key hn alpha h2⟩
  have hn0 : (0 : ℚ) < ((n - 1 : ℕ) : ℚ) := by
    have : 0 < n - 1 := by omega
    exact_mod_cast this
  by_cases he : k = n - 1
  · have := key hn [a, b] (by simp) 1 (by simp) (by simp [he])
    have := Option.some.inj (this.trans (show [a, b][1]? = some b from rfl))
    rw [this, he, div_self hn0.ne']; ring
  · have ht : (k : ℚ) / (n - 1 : ℕ) < 1 := by
      rw [div_lt_one hn0]
      have : k < n - 1 := by omega
      exact_mod_cast this
    have ht0 : 0 ≤ (k : ℚ) / (n - 1 : ℕ) := by positivity
    have hf : ⌊(k : ℚ) / (n - 1 : ℕ)⌋ = 0 := Int.floor_eq_zero_iff.2 ⟨ht0, ht⟩
    unfold ramp
    simp only [if_neg (show ¬ n ≤ 1 by omega), List.length_cons, List.length_nil, Nat.zero_add, Nat.reduceAdd, Nat.reduceSub, Nat.cast_one, mul_one, hf,
      Int.toNat_zero, Nat.cast_zero, sub_zero]
    simp

/-- The opacity is put into the last column only. -/
theorem C241_alpha_only (rgba : List (List Int)) (alpha : List ℚ) (h4 : ∀ r ∈ rgba, r.length = 4) (k : Nat) (r : List Int) (hr : rgba[k]? = some r) :
    ∃ s, (applyAlpha rgba alpha)[k]? = some s ∧ s.take 3 = r.take 3 ∧ s[3]? = some (trunc (ramp alpha rgba.length k)) := by
  have hl := h4 r (List.mem_of_getElem? hr)
  refine ⟨_, by unfold applyAlpha; rw [List.getElem?_mapIdx, hr]; rfl, ?_, ?_⟩
  · rw [List.take_append_of_le_length (by simp [hl]), List.dropLast_eq_take, List.take_take, hl]; rfl
  · rw [List.getElem?_append_right (by simp [hl])]; simp [hl]

/-- The hypotheses of C241 are met. -/
example : getCmap [[0, 1 / 2, 1], [1, 0, 1 / 4]] = .ok [[0, 127, 255, 255], [255, 0, 63, 255]] := by decide +kernel
example : getCmap [[0, 0, 1], [1, 1, 1]] = .ok [[0, 0, 255, 255], [255, 255, 255, 255]] := by decide +kernel
example : CM.Rgb [[0, 1 / 2, 1], [1, 0, 1 / 4]] := ⟨by simp, .inl (by simp)⟩
example : ramp [0, 255] 5 1 = 255 / 4 := by decide +kernel

end Viscid.Props
