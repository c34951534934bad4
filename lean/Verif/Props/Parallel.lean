import Verif.Lemmas.Parallel
/-! # C01-C04: chunking, scatter/gather -/
namespace Viscid.Parallel
open Viscid.Spec

/-- **C01** chunk_slices tiles `[0, n)` with k balanced consecutive slices. -/
theorem C01_chunkSlices_partition (n k : Nat) (hk : 0 < k) :
    ∃ ss, chunkSlices n k = .ok ss ∧ ss.length = k ∧ Tiles 0 ss n ∧
      Balanced (ss.map fun s => s.2 - s.1) := by
  refine ⟨_, chunkSlices_ok n k hk, ?_, ?_, ?_⟩
  · have := Nat.mod_lt n hk
    simp [emit_length]; omega
  · apply emit_append_tiles
    have h := chunk_total n k hk
    have := emit_append_tiles (n % k * (n / k + 1)) (n / k) (k - n % k) n []
      (by show _ = n; exact h)
    simpa using this
  · simp only [List.map_append, emit_sizes]
    constructor
    · intro x hx y hy
      simp only [List.mem_append, List.mem_replicate] at hx hy
      omega
    · simp only [List.pairwise_append, List.pairwise_replicate, List.mem_replicate]
      refine ⟨by simp, by simp, ?_⟩
      rintro a ⟨_, rfl⟩ b ⟨_, rfl⟩; omega

/-- **C01** chunk_list returns k balanced pieces concatenating to the sequence. -/
theorem C01_chunkList_partition (l : List α) (k : Nat) (hk : 0 < k) :
    ∃ ps, chunkList l k = .ok ps ∧ ps.length = k ∧ ps.flatten = l ∧
      Balanced (ps.map List.length) := by
  obtain ⟨ss, h1, h2, h3, h4⟩ := C01_chunkSlices_partition l.length k hk
  refine ⟨_, chunkList_ok l k ss h1, by simp [h2], ?_, ?_⟩
  · rw [tiles_flatten l 0 l.length ss h3]; simp
  · have : (ss.map (pySlice l)).map List.length = ss.map fun s => s.2 - s.1 := by
      have hb : ∀ (ss : List (Nat × Nat)) (a : Nat), Tiles a ss l.length →
          ∀ s ∈ ss, s.2 ≤ l.length := by
        intro ss
        induction ss with
        | nil => simp
        | cons s ss ih =>
          rintro a ⟨_, _, h⟩ s' hs'
          rcases List.mem_cons.mp hs' with rfl | hs'
          · exact tiles_le _ _ _ h
          · exact ih _ h s' hs'
      rw [List.map_map]
      apply List.map_congr_left
      intro s hs
      have := hb ss 0 h3 s hs
      simp only [Function.comp, pySlice, List.length_take, List.length_drop]
      omega
    rw [this]; exact h4

/-- **C01** error branch: zero chunks is a ZeroDivisionError. -/
theorem C01_zero_chunks (n : Nat) : chunkSlices n 0 = .error .zeroDivision := rfl

example : chunkList [10, 11, 12, 13, 14, 15, 16, 17] 3 =
    .ok [[10, 11, 12], [13, 14, 15], [16, 17]] := by decide
example : chunkSlices 2 4 = .ok [(0, 1), (1, 2), (2, 2), (2, 2)] := by decide

/-- **C02** chunk_sizes lists the lengths of the contiguous slices, and they sum to n. -/
theorem C02_sizes_eq_slices (n k : Nat) (hk : 0 < k) :
    ∃ ss, chunkSlices n k = .ok ss ∧ chunkSizes n k = .ok (ss.map fun s => s.2 - s.1) ∧
      (ss.map fun s => s.2 - s.1).sum = n := by
  refine ⟨_, chunkSlices_ok n k hk, ?_, ?_⟩
  · rw [chunkSizes_ok n k hk]; simp [emit_sizes]
  · simp only [List.map_append, emit_sizes, List.sum_append, List.sum_replicate_nat]
    exact chunk_total n k hk

/-- **C02** chunk_sizes lists the number of elements picked by each interleaved slice:
entry i is the length of `l[i::k]`, which is the number of positions congruent to i mod k. -/
theorem C02_sizes_eq_interslices (l : List α) (k : Nat) (hk : 0 < k) :
    chunkSizes l.length k = .ok ((chunkInterslices k).map fun s => (strided l s.1 s.2).length) ∧
    ∀ i, i < k → (strided l i k).length = residueCount l.length k i := by
  have hmod := Nat.mod_lt l.length hk
  constructor
  · rw [chunkSizes_ok _ k hk]
    congr 1
    apply List.ext_getElem
    · simp [chunkInterslices]; omega
    · intro i h1 h2
      simp only [chunkInterslices, List.length_map, List.length_range] at h2
      simp only [chunkInterslices, List.map_map, List.getElem_map, List.getElem_range, Function.comp]
      rw [strided_length k l i h2, List.getElem_append]
      simp only [List.length_replicate, List.getElem_replicate]
      split <;> simp
  · intro i hi
    rw [strided_length k l i hi, residueCount_eq k _ i hi]

/-- What `l[i::k]` selects: its j-th element is `l[i + j*k]`. -/
theorem C02_interslice_elements (l : List α) (k i j : Nat) (hk : 0 < k) :
    (strided l i k)[j]? = l[i + j * k]? := strided_getElem? k hk l i j

example : chunkSizes 8 3 = .ok [3, 3, 2] := by decide

/-- **C03** For a tracer whose result does not depend on the state it carries between seeds
(cached index, active patch), the gathered result holds at position j the trace of seed j,
for every number of workers and chunk factor; and hence is independent of both. -/
theorem C03_scatter_gather (trace : σ → α → σ × β) (s0 : σ)
    (hist : ∀ s s' x, (trace s x).2 = (trace s' x).2)
    (seeds : List α) (hne : seeds ≠ []) (nrProcs chunkFactor : Nat) (hp : 0 < nrProcs) :
    calcStreamlines trace s0 seeds nrProcs chunkFactor =
      .ok (seeds.map fun x => some (trace s0 x).2) := by
  unfold calcStreamlines
  dsimp only
  have hn : 0 < seeds.length := List.length_pos_iff.mpr hne
  have hk : 0 < max 1 (min (chunkFactor * nrProcs) seeds.length) := by omega
  have hkn : max 1 (min (chunkFactor * nrProcs) seeds.length) ≤ seeds.length := by omega
  generalize max 1 (min (chunkFactor * nrProcs) seeds.length) = k at hk hkn ⊢
  obtain ⟨hsz, _⟩ := C02_sizes_eq_interslices seeds k hk
  have hp' : nrProcs ≠ 0 := by omega
  simp only [hsz, bind, Except.bind, hp', if_false]
  let t := seeds.map fun x => some (trace s0 x).2
  have hzip : List.zip ((chunkInterslices k).map fun s => (strided seeds s.1 s.2).length)
      (chunkInterslices k) = (List.range k).map fun i => ((strided seeds i k).length, (i, k)) := by
    apply List.ext_getElem?
    intro j
    simp [chunkInterslices, List.zip]
  rw [hzip]
  have hw : ∀ a ∈ (List.range k).map fun i => ((strided seeds i k).length, (i, k)),
      (fun (a : Nat × (Nat × Nat)) => worker trace s0 a.1 seeds a.2) a =
        .ok ((fun (a : Nat × (Nat × Nat)) => strided t a.2.1 k) a) := by
    intro a ha
    obtain ⟨i, hi, rfl⟩ := List.mem_map.mp ha
    have hik : i < k := List.mem_range.mp hi
    have hne' : strided seeds i k ≠ [] := by
      intro h
      have h0 : 0 < (strided seeds i k).length := by
        rw [strided_lt_length k hk]; omega
      rw [h] at h0; simp at h0
    simp only [worker, hne', if_false, Nat.lt_irrefl, Nat.sub_self, List.replicate_zero,
      List.append_nil, traceAll_eq_map trace s0 hist, List.map_map]
    congr 1
    exact strided_map (fun x => some (trace s0 x).2) k hk seeds i
  rw [mapM'_ok _ _ _ hw]
  have hzip2 : (chunkInterslices k).zip (((List.range k).map fun i =>
      ((strided seeds i k).length, (i, k))).map fun a => strided t a.2.1 k) =
      (List.range' 0 k).map fun i => ((i, k), strided t i k) := by
    rw [← List.range_eq_range']
    apply List.ext_getElem?
    intro j
    simp [chunkInterslices, List.zip]
  simp only [hzip2]
  exact gather_ok t k k 0 (by omega) _ (by simp [t]) (by intro j hj; omega) hk

/-- Corollary in the words of the property: two runs with different worker counts agree. -/
theorem C03_worker_independent (trace : σ → α → σ × β) (s0 s1 : σ)
    (hist : ∀ s s' x, (trace s x).2 = (trace s' x).2)
    (seeds : List α) (hne : seeds ≠ []) (p p' c c' : Nat) (hp : 0 < p) (hp' : 0 < p') :
    calcStreamlines trace s0 seeds p c = calcStreamlines trace s1 seeds p' c' := by
  rw [C03_scatter_gather trace s0 hist seeds hne p c hp,
    C03_scatter_gather trace s1 hist seeds hne p' c' hp']
  congr 1
  apply List.map_congr_left
  intro x _
  rw [hist s0 s1 x]

/-- The history-independence hypothesis is needed: a tracer that leaks its state into results
gives answers depending on the number of workers. -/
theorem C03_history_dependence_matters :
    ∃ (trace : Nat → Nat → Nat × Nat) (seeds : List Nat),
      calcStreamlines trace 0 seeds 1 1 ≠ calcStreamlines trace 0 seeds 2 1 :=
  ⟨fun s x => (s + 1, x + s), [10, 20, 30], by decide⟩

-- the hypotheses of C03 are met by a stateful tracer on a non-trivial seed list
example : (∀ s s' x : Nat, ((fun s x => (s + x, x * x)) s x : Nat × Nat).2 =
    ((fun s x => (s + x, x * x)) s' x : Nat × Nat).2) := by simp
example :
    calcStreamlines (fun s x => ((s + x, x * x) : Nat × Nat)) 7 [1, 2, 3, 4, 5] 2 2 =
      .ok [some 1, some 4, some 9, some 16, some 25] := by decide

/-- The English claim C04: with `size = s` there are ceil(n/s) chunks. -/
def SizeControlsChunks : Prop :=
  ∀ n k s : Nat, 0 < k → 0 < s → ∀ szs, chunkSizes n k (some s) = .ok szs →
    szs.length = (n + s - 1) / s ∧ ∀ x ∈ szs, x ≤ s

/-- **C04** is false of the code: the value of `size` is never used. -/
theorem C04_size_violated : ¬ SizeControlsChunks := by
  intro h
  have := (h 10 5 1 (by decide) (by decide) [5, 5] (by decide)).1
  simp at this

/-- **C04 (partial)** What the code does: with any `size`, chunk sizes behave as if
`size` had been the positional `nchunks` argument.  Missing for the full property: dependence on
the value of `size`. -/
theorem C04_size_partial (n k s : Nat) (hk : 0 < k) (hn : 0 < n) :
    ∃ szs, chunkSizes n k (some s) = .ok szs ∧ szs.length = (n + k - 1) / k ∧
      (∀ x ∈ szs, x ≤ k) ∧ szs.sum = n ∧
      chunkSizes n k (some s) = chunkSizes n ((n + k - 1) / k) := by
  have hk' : k ≠ 0 := by omega
  have hc : 0 < (n + k - 1) / k := Nat.div_pos (by omega) hk
  have e : chunkSizes n k (some s) = chunkSizes n ((n + k - 1) / k) := by
    simp [chunkSizes, effChunks, hk', bind, Except.bind]
  have hmod := Nat.mod_lt n hc
  have hb : n ≤ k * ((n + k - 1) / k) := by
    have h1 := Nat.div_add_mod (n + k - 1) k
    have h2 := Nat.mod_lt (n + k - 1) hk
    omega
  generalize (n + k - 1) / k = c at *
  refine ⟨_, e.trans (chunkSizes_ok n c hc), by simp; omega, ?_, ?_, e⟩
  · intro x hx
    simp only [List.mem_append, List.mem_replicate] at hx
    have hdiv : n / c ≤ k := by
      have := Nat.div_le_div_right (c := c) hb
      rwa [Nat.mul_div_cancel _ hc] at this
    rcases hx with ⟨h1, rfl⟩ | ⟨_, rfl⟩
    · have hlt : n / c < k := by
        apply Nat.lt_of_le_of_ne hdiv
        intro h
        have h3 := Nat.div_add_mod n c
        rw [h] at h3
        have : c * k = k * c := Nat.mul_comm _ _
        omega
      omega
    · exact hdiv
  · simp only [List.sum_append, List.sum_replicate_nat]
    exact chunk_total n c hc

example : chunkSizes 10 4 (some 2) = .ok [4, 3, 3] := by decide

end Viscid.Parallel
