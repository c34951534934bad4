import Verif.Model.Parallel
import Verif.Spec.Parallel
/-! Helper lemmas for the chunking properties. -/
namespace Viscid.Parallel
open Viscid.Spec

theorem emit_length (start len k : Nat) : (emit start len k).length = k := by
  induction k generalizing start with
  | zero => rfl
  | succ k ih => simp [emit, ih]

theorem emit_sizes (start len k : Nat) :
    (emit start len k).map (fun s => s.2 - s.1) = List.replicate k len := by
  induction k generalizing start with
  | zero => rfl
  | succ k ih => simp [emit, ih, List.replicate_succ]

theorem emit_append_tiles (start len k b : Nat) (rest : List (Nat × Nat))
    (h : Tiles (start + k * len) rest b) : Tiles start (emit start len k ++ rest) b := by
  induction k generalizing start with
  | zero => simpa [emit] using h
  | succ k ih =>
    refine ⟨rfl, by omega, ?_⟩
    apply ih
    have : start + len + k * len = start + (k + 1) * len := by rw [Nat.succ_mul]; omega
    rw [this]; exact h

theorem chunk_total (n k : Nat) (hk : 0 < k) :
    (n % k) * (n / k + 1) + (k - n % k) * (n / k) = n := by
  have h1 := Nat.div_add_mod n k
  have h2 := Nat.mod_lt n hk
  have h3 : (n % k) * (n / k + 1) = (n % k) * (n / k) + n % k := by rw [Nat.mul_succ]
  have h4 : (n % k) * (n / k) + (k - n % k) * (n / k) = k * (n / k) := by
    rw [← Nat.add_mul]; congr 1; omega
  omega

theorem chunkSlices_ok (n k : Nat) (hk : 0 < k) :
    chunkSlices n k = .ok (emit 0 (n / k + 1) (n % k) ++
      emit (n % k * (n / k + 1)) (n / k) (k - n % k)) := by
  have : k ≠ 0 := by omega
  simp [chunkSlices, effChunks, this, bind, Except.bind]

theorem chunkSizes_ok (n k : Nat) (hk : 0 < k) :
    chunkSizes n k = .ok (List.replicate (n % k) (n / k + 1) ++
      List.replicate (k - n % k) (n / k)) := by
  have : k ≠ 0 := by omega
  simp [chunkSizes, effChunks, this, bind, Except.bind]

theorem chunkList_ok (l : List α) (k : Nat) (ret : List (Nat × Nat))
    (h : chunkSlices l.length k = .ok ret) : chunkList l k = .ok (ret.map (pySlice l)) := by
  simp [chunkList, effChunks, bind, Except.bind, h]

theorem tiles_le (a b : Nat) (ss : List (Nat × Nat)) (h : Tiles a ss b) : a ≤ b := by
  induction ss generalizing a with
  | nil => exact Nat.le_of_eq h
  | cons s ss ih => obtain ⟨h1, h2, h3⟩ := h; have := ih _ h3; omega

theorem tiles_flatten (l : List α) (a b : Nat) (ss : List (Nat × Nat)) (h : Tiles a ss b) :
    (ss.map (pySlice l)).flatten = (l.drop a).take (b - a) := by
  induction ss generalizing a with
  | nil => cases h; simp
  | cons s ss ih =>
    obtain ⟨h1, h2, h3⟩ := h
    have h4 := tiles_le _ _ _ h3
    simp only [List.map_cons, List.flatten_cons, ih _ h3, pySlice, h1]
    have e1 : b - a = (s.2 - a) + (b - s.2) := by omega
    have e2 : s.2 = a + (s.2 - a) := by omega
    rw [e1, List.take_add, List.drop_drop]
    rw [← e2]

theorem strided_getElem? (k : Nat) (hk : 0 < k) (l : List α) (i j : Nat) :
    (strided l i k)[j]? = l[i + j * k]? := by
  unfold strided
  induction l generalizing i j with
  | nil => simp [pick]
  | cons x xs ih =>
    cases i with
    | zero =>
      cases j with
      | zero => simp [pick]
      | succ j =>
        simp only [pick, List.getElem?_cons_succ, ih]
        have : 0 + (j + 1) * k = (k - 1 + j * k) + 1 := by rw [Nat.succ_mul]; omega
        rw [this, List.getElem?_cons_succ]
    | succ i =>
      simp only [pick, ih]
      have : i + 1 + j * k = (i + j * k) + 1 := by omega
      rw [this, List.getElem?_cons_succ]

theorem lt_length_iff (l : List α) (j : Nat) : j < l.length ↔ l[j]? ≠ none := by
  simp

theorem strided_lt_length (k : Nat) (hk : 0 < k) (l : List α) (i j : Nat) :
    j < (strided l i k).length ↔ i + j * k < l.length := by
  rw [lt_length_iff, strided_getElem? k hk, ← lt_length_iff]

theorem eq_of_lt_iff {a b : Nat} (h : ∀ j, j < a ↔ j < b) : a = b := by
  have h1 := h a; have h2 := h b; omega

theorem strided_length (k : Nat) (l : List α) (i : Nat) (hi : i < k) :
    (strided l i k).length = if i < l.length % k then l.length / k + 1 else l.length / k := by
  have hk : 0 < k := by omega
  apply eq_of_lt_iff
  intro j
  rw [strided_lt_length k hk]
  have h1 := Nat.div_add_mod l.length k
  have h2 := Nat.mod_lt l.length hk
  generalize l.length / k = q at *
  generalize l.length % k = r at *
  have key : ∀ a b : Nat, a < b → a * k + k ≤ b * k := by
    intro a b hab
    have := Nat.mul_le_mul_right k (show a + 1 ≤ b from hab)
    rw [Nat.succ_mul] at this; exact this
  have hq : k * q = q * k := Nat.mul_comm _ _
  rcases Nat.lt_trichotomy j q with h | h | h
  · have := key _ _ h; split <;> constructor <;> intro <;> omega
  · subst h; split <;> constructor <;> intro <;> omega
  · have := key _ _ h; split <;> constructor <;> intro <;> omega

/-- In terms of residues: `j < n` and `j % k = i` iff `j = i + k * m` for some valid `m`. -/
theorem residueCount_eq (k : Nat) (n i : Nat) (hi : i < k) :
    residueCount n k i = if i < n % k then n / k + 1 else n / k := by
  have hk : 0 < k := by omega
  induction n with
  | zero => simp [residueCount]
  | succ n ih =>
    have step : residueCount (n + 1) k i = residueCount n k i + if n % k = i then 1 else 0 := by
      unfold residueCount
      rw [List.range_succ, List.filter_append, List.length_append]
      by_cases h : n % k = i <;> simp [h]
    rw [step, ih, Nat.succ_div, Nat.succ_mod_eq_ite k n hk]
    have h2 := Nat.mod_lt n hk
    by_cases hd : k ∣ n + 1
    · obtain ⟨c, hc⟩ := hd
      have hmod : n % k = k - 1 := by
        cases c with
        | zero => simp at hc
        | succ c =>
          have : n = (k - 1) + k * c := by rw [Nat.mul_succ] at hc; omega
          rw [this, Nat.add_mul_mod_self_left, Nat.mod_eq_of_lt (by omega)]
      have hdv : k ∣ n + 1 := ⟨c, hc⟩
      have hm1 : (n + 1) % k = 0 := Nat.mod_eq_zero_of_dvd hdv
      simp only [hdv, if_true, hmod]
      have hkk : k - 1 + 1 = k := by omega
      simp only [hkk, if_true]
      by_cases h : k - 1 = i
      · subst h; simp
      · simp [h]; omega
    · have hne : n % k + 1 ≠ k := by
        intro h
        apply hd
        have h1 := Nat.div_add_mod n k
        exact ⟨n / k + 1, by rw [Nat.mul_succ]; omega⟩
      simp only [hd, hne, if_false]
      by_cases h : n % k = i
      · subst h; simp
      · simp only [h, if_false]
        split <;> split <;> omega
where
  Nat.succ_mod_eq_ite (k n : Nat) (hk : 0 < k) :
      (n + 1) % k = if n % k + 1 = k then 0 else n % k + 1 := by
    have h2 := Nat.mod_lt n hk
    rw [Nat.add_mod]
    by_cases h1 : k = 1
    · subst h1; simp [Nat.mod_one]
    · rw [Nat.mod_eq_of_lt (show 1 < k by omega)]
      split
      · next h => rw [h]; simp
      · next h => rw [Nat.mod_eq_of_lt]; omega

theorem traceAll_eq_map (trace : σ → α → σ × β) (s0 : σ)
    (hist : ∀ s s' x, (trace s x).2 = (trace s' x).2) (s : σ) (l : List α) :
    traceAll trace s l = l.map (fun x => (trace s0 x).2) := by
  induction l generalizing s with
  | nil => rfl
  | cons x xs ih => simp [traceAll, ih, hist s s0 x]

theorem strided_map (f : α → β) (k : Nat) (hk : 0 < k) (l : List α) (i : Nat) :
    (strided l i k).map f = strided (l.map f) i k := by
  apply List.ext_getElem?
  intro j
  simp [strided_getElem? k hk]

theorem assignStrided_ok (dst t : List α) (i k : Nat) (hi : i < k) (hlen : dst.length = t.length) :
    ∃ out, assignStrided dst i k (strided t i k) = .ok out ∧ out.length = dst.length ∧
      ∀ j, out[j]? = if j % k = i then t[j]? else dst[j]? := by
  have hk : 0 < k := by omega
  refine ⟨dst.mapIdx fun j d => if i ≤ j ∧ (j - i) % k = 0 then
    (strided t i k).getD ((j - i) / k) d else d, ?_, by simp, ?_⟩
  · simp [assignStrided, strided_length k _ i hi, hlen]
  · intro j
    rw [List.getElem?_mapIdx]
    have hj : (i ≤ j ∧ (j - i) % k = 0) ↔ j % k = i := by
      constructor
      · rintro ⟨h1, h2⟩
        have := Nat.div_add_mod (j - i) k
        have e : j = i + k * ((j - i) / k) := by omega
        rw [e, Nat.add_mul_mod_self_left, Nat.mod_eq_of_lt hi]
      · intro h
        have := Nat.div_add_mod j k
        have hle : i ≤ j := by have := Nat.mod_le j k; omega
        refine ⟨hle, ?_⟩
        have e : j - i = k * (j / k) := by omega
        rw [e, Nat.mul_mod_right]
    by_cases h : j % k = i
    · have hc := hj.mpr h
      simp only [h, if_true, hc]
      have e : i + (j - i) / k * k = j := by
        have := Nat.div_add_mod (j - i) k
        rw [Nat.mul_comm] at this; omega
      have hget : (strided t i k)[(j - i) / k]? = t[j]? := by
        rw [strided_getElem? k hk, e]
      by_cases hjl : j < dst.length
      · have hjt : j < t.length := by omega
        simp only [List.getElem?_eq_getElem hjl, List.getElem?_eq_getElem hjt] at *
        simp [List.getD_eq_getElem?_getD, hget]
      · have hjt : ¬ j < t.length := by omega
        simp [List.getElem?_eq_none (Nat.le_of_not_lt hjl), List.getElem?_eq_none (Nat.le_of_not_lt hjt)]
    · have hc : ¬ (i ≤ j ∧ (j - i) % k = 0) := fun hh => h (hj.mp hh)
      simp [h, hc]

theorem gather_ok (t : List α) (k : Nat) (c m : Nat) (hm : m + c = k) (dst : List α)
    (hlen : dst.length = t.length) (hinv : ∀ j, j % k < m → dst[j]? = t[j]?) (hk : 0 < k) :
    gather dst ((List.range' m c).map fun i => ((i, k), strided t i k)) = .ok t := by
  induction c generalizing m dst with
  | zero =>
    have : dst = t := by
      apply List.ext_getElem?
      intro j; apply hinv; have := Nat.mod_lt j hk; omega
    simp [gather, this]
  | succ c ih =>
    obtain ⟨out, h1, h2, h3⟩ := assignStrided_ok dst t m k (by omega) hlen
    simp only [List.range'_succ, List.map_cons, gather, h1, bind, Except.bind]
    apply ih (m + 1) (by omega) out (by omega)
    intro j hj
    rw [h3]
    split
    · rfl
    · apply hinv; omega

theorem mapM'_ok (f : α → Except Err β) (g : α → β) (l : List α) (h : ∀ a ∈ l, f a = .ok (g a)) :
    mapM' f l = .ok (l.map g) := by
  induction l with
  | nil => rfl
  | cons a l ih =>
    have h1 := h a (by simp)
    have h2 := ih (fun b hb => h b (by simp [hb]))
    simp [mapM', h1, h2, bind, Except.bind]

end Viscid.Parallel
