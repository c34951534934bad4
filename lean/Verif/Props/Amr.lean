import Verif.Lemmas.Amr
/-!
# C20, C21, C22, C62: AMR neighbours, point location, whole-field operations
-/
namespace Viscid.Amr
open Viscid.Spec.Amr

/-! ## C20 -/

/-- C20: after discovery, the row of patch p lists exactly the other patches it touches, each once and
in increasing order (in particular never p itself). -/
theorem C20_neighbors (ps : Nat → Patch) (n : Nat) (t : Table) (h : discover ps n = .ok t) (p : Nat) (hp : p < n) :
    ((t p).map Prod.fst).Pairwise (· < ·) ∧
    ∀ q, q ∈ (t p).map Prod.fst ↔ q < n ∧ q ≠ p ∧ Touch (ps p) (ps q) := by
  obtain ⟨h1, _⟩ := outer_inv ps n t h
  rw [h1, rowSpec_keys ps n p hp]
  refine ⟨List.Pairwise.filter _ List.pairwise_lt_range, ?_⟩
  intro q
  rw [List.mem_filter, List.mem_range, Bool.and_eq_true, decide_eq_true_eq]
  unfold cond
  rw [decide_eq_true_eq, cond_iff]

/-- C20: the relation is symmetric. -/
theorem C20_symmetric (ps : Nat → Patch) (n : Nat) (t : Table) (h : discover ps n = .ok t) (p q : Nat) (hp : p < n)
    (hq : q < n) : q ∈ (t p).map Prod.fst ↔ p ∈ (t q).map Prod.fst := by
  rw [(C20_neighbors ps n t h p hp).2 q, (C20_neighbors ps n t h q hq).2 p, touch_comm]
  constructor
  · rintro ⟨_, h2, h3⟩; exact ⟨hp, fun e => h2 e.symm, h3⟩
  · rintro ⟨_, h2, h3⟩; exact ⟨hq, fun e => h2 e.symm, h3⟩

/-- C20: the masks of a pair mirror each other.  Bit 6+k says that faces meet along axis k; bit 2k that
the listing patch is on the upper side, bit 2k+1 that it is on the lower side. -/
theorem C20_masks (ps : Nat → Patch) (n : Nat) (t : Table) (h : discover ps n = .ok t) (p q m m' : Nat)
    (hm : (q, m) ∈ t p) (hm' : (p, m') ∈ t q) (k : Fin 3) :
    (m.testBit (6 + k) = true ↔ FaceOn (ps p) (ps q) k) ∧
    m.testBit (6 + k) = m'.testBit (6 + k) ∧
    m.testBit (2 * k) = m'.testBit (2 * k + 1) ∧ m.testBit (2 * k + 1) = m'.testBit (2 * k) ∧
    m.testBit (6 + k) = (m.testBit (2 * k) ^^ m.testBit (2 * k + 1)) ∧
    (m.testBit (2 * k) = true → (ps q).xm k ≤ (ps p).xm k) ∧
    (m.testBit (2 * k + 1) = true → (ps p).xm k ≤ (ps q).xm k) := by
  obtain ⟨h1, _⟩ := outer_inv ps n t h
  rw [h1] at hm hm'
  have hface : ∀ a b k, FaceOn a b k ↔ FaceOn b a k := by
    intro a b k; unfold FaceOn; rw [gap_comm]
  have main : ∀ i j : Nat, cond ps i j = true →
      let f := (masks (ps i) (ps j)).1
      let g := (masks (ps i) (ps j)).2
      (f.testBit (6 + k) = true ↔ FaceOn (ps i) (ps j) k) ∧ f.testBit (6 + k) = g.testBit (6 + k) ∧
      f.testBit (2 * k) = g.testBit (2 * k + 1) ∧ f.testBit (2 * k + 1) = g.testBit (2 * k) ∧
      f.testBit (6 + k) = (f.testBit (2 * k) ^^ f.testBit (2 * k + 1)) ∧
      (f.testBit (2 * k) = true → (ps j).xm k ≤ (ps i).xm k) ∧
      (f.testBit (2 * k + 1) = true → (ps i).xm k ≤ (ps j).xm k) := by
    intro i j hc
    have hpos : possible (ps i) (ps j) = true := by
      unfold cond at hc
      rw [decide_eq_true_eq, cond_iff] at hc
      exact (possible_iff _ _).mpr hc.1
    rw [masks_eq _ _ hpos]
    obtain ⟨⟨a0, a1, a2⟩, ⟨b0, b1, b2⟩, ⟨c0, c1, c2⟩, ⟨d0, d1, d2⟩, ⟨x0, x1, x2⟩, ⟨y0, y1, y2⟩, _⟩ :=
      maskB_bits (touchDim (ps i) (ps j) 0) (touchDim (ps i) (ps j) 1) (touchDim (ps i) (ps j) 2)
        (decide ((ps i).xm 0 - (ps j).xm 0 ≥ 0)) (decide ((ps i).xm 1 - (ps j).xm 1 ≥ 0))
        (decide ((ps i).xm 2 - (ps j).xm 2 ≥ 0))
    have hb : ∀ a b : Bool, a = (a && b ^^ a && !b) := by decide
    match k with
    | 0 =>
      refine ⟨?_, ?_, ?_, ?_, ?_, ?_, ?_⟩
      · show Nat.testBit _ 6 = true ↔ _; rw [a0, touchDim_iff]
      · show Nat.testBit _ 6 = Nat.testBit _ 6; rw [a0, b0]
      · show Nat.testBit _ 0 = Nat.testBit _ 1; rw [c0, y0]
      · show Nat.testBit _ 1 = Nat.testBit _ 0; rw [d0, x0]
      · show Nat.testBit _ 6 = (Nat.testBit _ 0 ^^ Nat.testBit _ 1); rw [a0, c0, d0]; exact hb _ _
      · show Nat.testBit _ 0 = true → _; rw [c0]; intro h; simp at h; exact h.2
      · show Nat.testBit _ 1 = true → _; rw [d0]; intro h; simp at h; exact le_of_lt h.2
    | 1 =>
      refine ⟨?_, ?_, ?_, ?_, ?_, ?_, ?_⟩
      · show Nat.testBit _ 7 = true ↔ _; rw [a1, touchDim_iff]
      · show Nat.testBit _ 7 = Nat.testBit _ 7; rw [a1, b1]
      · show Nat.testBit _ 2 = Nat.testBit _ 3; rw [c1, y1]
      · show Nat.testBit _ 3 = Nat.testBit _ 2; rw [d1, x1]
      · show Nat.testBit _ 7 = (Nat.testBit _ 2 ^^ Nat.testBit _ 3); rw [a1, c1, d1]; exact hb _ _
      · show Nat.testBit _ 2 = true → _; rw [c1]; intro h; simp at h; exact h.2
      · show Nat.testBit _ 3 = true → _; rw [d1]; intro h; simp at h; exact le_of_lt h.2
    | 2 =>
      refine ⟨?_, ?_, ?_, ?_, ?_, ?_, ?_⟩
      · show Nat.testBit _ 8 = true ↔ _; rw [a2, touchDim_iff]
      · show Nat.testBit _ 8 = Nat.testBit _ 8; rw [a2, b2]
      · show Nat.testBit _ 4 = Nat.testBit _ 5; rw [c2, y2]
      · show Nat.testBit _ 5 = Nat.testBit _ 4; rw [d2, x2]
      · show Nat.testBit _ 8 = (Nat.testBit _ 4 ^^ Nat.testBit _ 5); rw [a2, c2, d2]; exact hb _ _
      · show Nat.testBit _ 4 = true → _; rw [c2]; intro h; simp at h; exact h.2
      · show Nat.testBit _ 5 = true → _; rw [d2]; intro h; simp at h; exact le_of_lt h.2
  rcases rowSpec_entry ps n p q m hm with ⟨hlt, hc, rfl⟩ | ⟨hlt, hc, rfl⟩ <;>
    rcases rowSpec_entry ps n q p m' hm' with ⟨hlt', hc', rfl⟩ | ⟨hlt', hc', rfl⟩
  · omega
  · exact main p q hc
  · obtain ⟨r1, r2, r3, r4, r5, r6, r7⟩ := main q p hc
    dsimp only at *
    refine ⟨?_, r2.symm, r4.symm, r3.symm, ?_, ?_, ?_⟩
    · rw [← r2, r1, hface]
    · rw [← r2, ← r3, ← r4, r5, Bool.xor_comm]
    · rw [← r4]; exact r7
    · rw [← r3]; exact r6
  · omega

/-- C20: discovery succeeds exactly when no patch touches more than 48 others (else IndexError). -/
theorem C20_capacity (ps : Nat → Patch) (n : Nat) :
    (∃ t, discover ps n = .ok t) ↔
      ∀ p, p < n → ∀ l : List Nat, l.Nodup → (∀ q ∈ l, q < n ∧ q ≠ p ∧ Touch (ps p) (ps q)) → l.length ≤ 48 := by
  constructor
  · rintro ⟨t, ht⟩ p hp l hl hq
    obtain ⟨_, h2⟩ := outer_inv ps n t ht
    have hs : l ⊆ (t p).map Prod.fst := by
      intro q hm
      exact ((C20_neighbors ps n t ht p hp).2 q).mpr (hq q hm)
    have := (List.subperm_of_subset hl hs).length_le
    rw [List.length_map] at this
    exact Nat.le_trans this (h2 p)
  · intro h
    obtain ⟨t, ht, _⟩ := outer_ok ps n (by
      intro p
      by_cases hp : p < n
      · have e : (rowSpec ps n p).length = ((rowSpec ps n p).map Prod.fst).length := by rw [List.length_map]
        rw [e, rowSpec_keys ps n p hp]
        apply h p hp
        · exact List.Nodup.filter _ List.nodup_range
        · intro q hq
          rw [List.mem_filter, List.mem_range, Bool.and_eq_true, decide_eq_true_eq] at hq
          unfold cond at hq
          rw [decide_eq_true_eq, cond_iff] at hq
          exact hq
      · unfold rowSpec; rw [if_neg hp]; simp)
    exact ⟨t, ht⟩

/-- Three unit cubes in a row along x, and a fourth one apart. -/
def exPs : Nat → Patch := fun i =>
  if i = 3 then ⟨fun _ => 10, fun _ => 1⟩ else ⟨fun k => if k = 0 then i else 0, fun _ => 1⟩

example : (match discover exPs 4 with | .ok t => (List.range 4).map t | .error _ => []) =
    [[(1, 66)], [(0, 65), (2, 66)], [(1, 65)], []] := by decide +kernel

/-- C20, documentation: the docstring says that touching in x gives `mask >> 6 == 0b100`; it gives
0b001 (and 0b100 means touching in z). -/
theorem C20_doc_bits_violated : (masks (exPs 1) (exPs 0)).1 >>> 6 = 0b001 := by decide +kernel

/-! ## C21 -/

structure SkelOk (s : Skel) : Prop where
  pos : 0 < s.n
  nbrs : ∀ p < s.n, ∀ q ∈ s.nbrs p, q < s.n

/-- C21: if some patch contains x, the active patch contains x afterwards, whatever was active before;
one patch is the degenerate case where the only patch stays active. -/
theorem C21_contains (s : Skel) (hs : SkelOk s) (a : Nat) (ha : a < s.n) (x : Vec) (h : ∃ p < s.n, Inside s p x) :
    activate s a x < s.n ∧ Inside s (activate s a x) x := by
  obtain ⟨p, hp, hin⟩ := h
  unfold activate
  by_cases h1 : s.n = 1
  · rw [if_pos h1]
    have : a = p := by omega
    rw [this]; exact ⟨hp, hin⟩
  · rw [if_neg h1]
    by_cases h2 : containsP s a x = true
    · rw [if_pos h2]; exact ⟨ha, (contains_iff s a x).mp h2⟩
    · rw [if_neg h2]
      split
      · rename_i j hj
        have := List.find?_some hj
        exact ⟨hs.nbrs a ha j (List.mem_of_find?_eq_some hj), (contains_iff s j x).mp this⟩
      · split
        · rename_i j hj
          have := List.find?_some hj
          exact ⟨List.mem_range.mp (List.mem_of_find?_eq_some hj), (contains_iff s j x).mp this⟩
        · rename_i hn
          rw [List.find?_eq_none] at hn
          exact absurd ((contains_iff s p x).mpr hin) (hn p (List.mem_range.mpr hp))

/-- C21: if no patch contains x, a patch with the nearest centre is chosen, provided some centre is
closer than 1e18.5 (C21_far_violated). -/
theorem C21_nearest_partial (s : Skel) (hs : SkelOk s) (a : Nat) (ha : a < s.n) (x : Vec)
    (h : ∀ p < s.n, ¬ Inside s p x) (hfar : ∃ p < s.n, dist2 s p x < 10 ^ 37) :
    activate s a x < s.n ∧ ∀ p < s.n, dist2 s (activate s a x) x ≤ dist2 s p x := by
  simp only [← rsq_eq] at hfar ⊢
  have hc : ∀ p < s.n, containsP s p x = false := by
    intro p hp
    rw [Bool.eq_false_iff]
    intro hc
    exact h p hp ((contains_iff s p x).mp hc)
  unfold activate
  by_cases h1 : s.n = 1
  · rw [if_pos h1]
    refine ⟨ha, ?_⟩
    intro p hp
    have : a = p := by omega
    rw [this]
  · have e1 : (s.nbrs a).find? (fun j => containsP s j x) = none := by
      rw [List.find?_eq_none]
      intro q hq
      rw [hc q (hs.nbrs a ha q hq)]; simp
    have e2 : (List.range s.n).find? (fun j => containsP s j x) = none := by
      rw [List.find?_eq_none]
      intro q hq
      rw [hc q (List.mem_range.mp hq)]; simp
    rw [if_neg h1, if_neg (by rw [hc a ha]; simp), e1]
    dsimp only
    rw [e2]
    dsimp only
    obtain ⟨c1, c2, c3⟩ := closestLoop_spec s x s.n
    refine ⟨closest_lt s x hs.pos, ?_⟩
    obtain ⟨q, hq, hqf⟩ := hfar
    change rsq s q x < maxFloat at hqf
    have hlt : (closestLoop s x s.n).2 < maxFloat := by
      rcases c2 q hq with h | h
      · linarith
      · linarith
    rcases c3 with c3 | ⟨_, c3⟩
    · rw [c3] at hlt; exact absurd hlt (lt_irrefl _)
    · intro p hp
      rw [← c3]
      rcases c2 p hp with h | h
      · exact h
      · linarith

/-- C21: when exactly one patch contains x the choice does not depend on the history. -/
theorem C21_unique (s : Skel) (hs : SkelOk s) (a b : Nat) (ha : a < s.n) (hb : b < s.n) (x : Vec) (p : Nat)
    (hp : p < s.n) (hin : Inside s p x) (hu : ∀ q < s.n, Inside s q x → q = p) :
    activate s a x = p ∧ activate s a x = activate s b x := by
  have h1 := C21_contains s hs a ha x ⟨p, hp, hin⟩
  have h2 := C21_contains s hs b hb x ⟨p, hp, hin⟩
  have e1 := hu _ h1.1 h1.2
  have e2 := hu _ h2.1 h2.2
  exact ⟨e1, by rw [e1, e2]⟩

/-- C21: every query of every history of queries. -/
theorem C21_history (s : Skel) (hs : SkelOk s) (a : Nat) (ha : a < s.n) (xs : List Vec) :
    (activateSeq s a xs).length = xs.length ∧
    ∀ (i p : Nat) (x : Vec), xs[i]? = some x → (activateSeq s a xs)[i]? = some p →
      p < s.n ∧ ((∃ q < s.n, Inside s q x) → Inside s p x) := by
  have hlt : ∀ a x, a < s.n → activate s a x < s.n := by
    intro a x ha
    by_cases hex : ∃ q < s.n, Inside s q x
    · exact (C21_contains s hs a ha x hex).1
    · unfold activate
      split
      · exact ha
      · split
        · exact ha
        · split
          · rename_i j hj
            exact hs.nbrs a ha j (List.mem_of_find?_eq_some hj)
          · split
            · rename_i j hj
              exact List.mem_range.mp (List.mem_of_find?_eq_some hj)
            · exact closest_lt s x hs.pos
  induction xs generalizing a with
  | nil => exact ⟨rfl, by intro i p x h; simp at h⟩
  | cons y ys ih =>
    obtain ⟨i1, i2⟩ := ih (activate s a y) (hlt a y ha)
    refine ⟨by unfold activateSeq; simp [i1], ?_⟩
    intro i p x hx hp
    unfold activateSeq at hp
    cases i with
    | zero =>
      simp only [List.getElem?_cons_zero, Option.some.injEq] at hx hp
      subst hx hp
      exact ⟨hlt a y ha, fun hex => (C21_contains s hs a ha y hex).2⟩
    | succ i =>
      simp only [List.getElem?_cons_succ] at hx hp
      exact i2 i p x hx hp

/-- Two unit boxes side by side, [0,1] and [1,2] in x. -/
def exSkel : Skel := ⟨2, fun p k => if k = 0 then p else 0, fun p k => if k = 0 then p + 1 else 1,
  fun p k => if k = 0 then p + 1 / 2 else 1 / 2, fun p => if p = 0 then [1] else [0]⟩

example : SkelOk exSkel ∧ activate exSkel 0 (fun _ => 1 / 2) = 0 ∧
    activate exSkel 0 (fun k => if k = 0 then 3 / 2 else 1 / 2) = 1 ∧
    activate exSkel 0 (fun k => if k = 0 then 5 else 1 / 2) = 1 := by
  refine ⟨⟨by decide, ?_⟩, by decide +kernel, by decide +kernel, by decide +kernel⟩
  intro p _ q hq
  unfold exSkel at hq ⊢
  dsimp only at hq ⊢
  split at hq <;> simp at hq <;> omega

/-- On a shared face the choice does depend on the history (allowed by C21). -/
theorem C21_shared_face_history : activate exSkel 0 (fun k => if k = 0 then 1 else 1 / 2) = 0 ∧
    activate exSkel 1 (fun k => if k = 0 then 1 else 1 / 2) = 1 := by decide +kernel

/-- C21 fails for points further than about 3e18 from every centre: patch 0 is chosen although patch 1
is nearer. -/
theorem C21_far_violated :
    let x : Vec := fun k => if k = 0 then 10 ^ 20 else 0
    activate exSkel 1 x = 0 ∧ dist2 exSkel 1 x < dist2 exSkel 0 x ∧ ∀ p < 2, containsP exSkel p x = false := by
  decide +kernel

/-! ## C22 -/

/-- C22: sum, prod, any and all over the patches equal those over all the data. -/
theorem C22_sum_prod_any_all (op : Op) (hop : op = .sum ∨ op = .prod ∨ op = .any ∨ op = .all)
    (ps : List (List ℚ)) : amrReduce op ps = reduce op ps.flatten := by
  unfold amrReduce
  rcases hop with rfl | rfl | rfl | rfl
  · rw [mapM_ok (reduce .sum) List.sum ps (fun p _ => rfl)]
    show Except.ok _ = Except.ok _
    rw [List.sum_flatten]
  · rw [mapM_ok (reduce .prod) List.prod ps (fun p _ => rfl)]
    show Except.ok _ = Except.ok _
    rw [List.prod_flatten]
  · rw [mapM_ok (reduce .any) (fun l : List ℚ => if l.any (fun x => decide (x ≠ 0)) then (1 : ℚ) else 0) ps (fun p _ => rfl)]
    show Except.ok _ = Except.ok _
    rw [List.any_map, List.any_flatten]
    congr 4
    funext l
    by_cases h : l.any (fun x => decide (x ≠ 0)) = true
    · simp only [Function.comp, h, if_true]; decide
    · simp only [Function.comp, h]; simp
  · rw [mapM_ok (reduce .all) (fun l : List ℚ => if l.all (fun x => decide (x ≠ 0)) then (1 : ℚ) else 0) ps (fun p _ => rfl)]
    show Except.ok _ = Except.ok _
    rw [List.all_map, List.all_flatten]
    congr 4
    funext l
    by_cases h : l.all (fun x => decide (x ≠ 0)) = true
    · simp only [Function.comp, h, if_true]; decide
    · simp only [Function.comp, h]; simp

/-- C22: min and max, when no patch is empty. -/
theorem C22_min_max (op : Op) (hop : op = .min ∨ op = .max) (ps : List (List ℚ)) (hps : ps ≠ [])
    (hne : ∀ p ∈ ps, p ≠ []) : amrReduce op ps = reduce op ps.flatten := by
  have hfl : ps.flatten ≠ [] := by
    intro hc
    rw [List.flatten_eq_nil_iff] at hc
    cases ps with
    | nil => exact hps rfl
    | cons p r => exact hne p (by simp) (hc p (by simp))
  have hmap : ∀ f : List ℚ → ℚ, ps.map f ≠ [] := by intro f; simpa using hps
  unfold amrReduce
  rcases hop with rfl | rfl
  · rw [mapM_ok (reduce .min) minG ps (fun p hp => minOf_ne p (hne p hp))]
    show minOf _ = minOf _
    rw [minOf_ne _ (hmap _), minOf_ne _ hfl, minG_flatten ps hps hne]
  · rw [mapM_ok (reduce .max) maxG ps (fun p hp => maxOf_ne p (hne p hp))]
    show maxOf _ = maxOf _
    rw [maxOf_ne _ (hmap _), maxOf_ne _ hfl, maxG_flatten ps hps hne]

/-- C22 for mean holds only when the patches have equal sizes. -/
theorem C22_mean_partial (ps : List (List ℚ)) (hps : ps ≠ []) (n : Nat) (hn : n ≠ 0) (hsz : ∀ p ∈ ps, p.length = n) :
    amrReduce .mean ps = reduce .mean ps.flatten := by
  have hne : ∀ p ∈ ps, p ≠ [] := by
    intro p hp hc
    have := hsz p hp
    rw [hc] at this; simp at this; omega
  have hfl : ps.flatten ≠ [] := by
    intro hc
    rw [List.flatten_eq_nil_iff] at hc
    cases ps with
    | nil => exact hps rfl
    | cons p r => exact hne p (by simp) (hc p (by simp))
  unfold amrReduce
  rw [mapM_ok _ (fun l : List ℚ => l.sum / n) ps (fun p hp => by
    show (if p = [] then _ else _) = _
    rw [if_neg (hne p hp), hsz p hp])]
  show (if _ then _ else _) = (if _ then _ else _)
  rw [if_neg (by simpa using hps), if_neg hfl, List.length_map, List.sum_flatten, List.length_flatten]
  have h1 : ∀ l : List (List ℚ), (l.map fun l : List ℚ => l.sum / (n : ℚ)).sum = (l.map List.sum).sum / n := by
    intro l
    induction l with
    | nil => simp
    | cons p r ih => simp only [List.map_cons, List.sum_cons, ih]; ring
  have h2 : (ps.map List.length).sum = ps.length * n := by
    clear h1 hfl hne hps
    induction ps with
    | nil => simp
    | cons p r ih =>
      rw [List.map_cons, List.sum_cons, ih (fun p hp => hsz p (by simp [hp])), hsz p (by simp), List.length_cons]
      ring
  rw [h1, h2]
  congr 1
  push_cast
  rw [div_div, mul_comm]

example := C22_mean_partial [[1, 5], [2, 3], [7, 4]] (by decide) 2 (by decide) (by decide)

example := C22_min_max .min (Or.inl rfl) [[1, 5], [2], [3, 4, 0]] (by decide) (by decide)

/-- C22 fails for mean: patches of sizes 1 and 3. -/
theorem C22_mean_violated : amrReduce .mean [[4], [0, 0, 0]] = .ok 2 ∧
    reduce .mean [[4], [0, 0, 0]].flatten = .ok 1 := by decide +kernel

/-- C22 fails for ptp (peak to peak), even with equal sizes. -/
theorem C22_ptp_violated : amrReduce .ptp [[0, 1], [10, 11]] = .ok 0 ∧
    reduce .ptp [[0, 1], [10, 11]].flatten = .ok 11 := by decide +kernel

example : amrReduce .max [[1, 5], [2], [3, 4, 0]] = .ok 5 := by decide +kernel

/-! ## C62 -/

/-- C62: a binary operation of two AMR fields with matching patches acts patch by patch, when patches
have more than one cell. -/
theorem C62_binary_partial (f : ℚ → ℚ → ℚ) (a b : List (List ℚ)) (hshape : a.map List.length = b.map List.length)
    (ha : a ≠ []) (hsz : ∀ p ∈ a, p.length ≠ 1) :
    amrBinary f a b = .ok (.field (List.zipWith (List.zipWith f) a b)) := by
  have hab : a.length = b.length := by simpa using congrArg List.length hshape
  have hl : (a.zipIdx.map fun p => List.zipWith f p.1 ((b[p.2]?).getD (b.headD []))) =
      List.zipWith (List.zipWith f) a b := by
    apply List.ext_getElem
    · simp [hab]
    · intro i h1 h2
      have : i < b.length := by simp at h1; omega
      simp [this]
  unfold amrBinary
  rw [if_neg (by omega)]
  dsimp only
  rw [hl]
  cases a with
  | nil => exact absurd rfl ha
  | cons p r =>
    cases b with
    | nil => simp at hab
    | cons q s =>
      simp only [List.zipWith_cons_cons]
      rw [if_neg]
      have := hsz p (by simp)
      simp only [List.map_cons, List.cons.injEq] at hshape
      rw [List.length_zipWith, ← hshape.1, Nat.min_self]
      exact this

example := C62_binary_partial (· * ·) [[1, 2], [3, 4, 5]] [[6, 7], [8, 9, 1 / 2]] (by decide) (by decide) (by decide)

/-- C62: fields with different numbers of patches are rejected, unless the second has one. -/
theorem C62_mismatch (f : ℚ → ℚ → ℚ) (a b : List (List ℚ)) (h1 : b.length ≠ a.length) (h2 : b.length ≠ 1) :
    amrBinary f a b = .error .valueError := by
  unfold amrBinary
  rw [if_pos ⟨h1, h2⟩]

example := C62_mismatch (· + ·) [[1, 2], [3, 4], [5, 6]] [[1, 2], [3, 4]] (by decide) (by decide)

/-- C62, unary operations, when patches have more than one cell. -/
theorem C62_unary_partial (f : ℚ → ℚ) (a : List (List ℚ)) (ha : a ≠ []) (hsz : ∀ p ∈ a, p.length ≠ 1) :
    amrUnary f a = .ok (.field (a.map fun p => p.map f)) := by
  unfold amrUnary
  cases a with
  | nil => exact absurd rfl ha
  | cons p r =>
    simp only [List.map_cons]
    rw [if_neg]
    simpa using hsz p (by simp)

example := C62_unary_partial (fun x => -x) [[1, 2], [3, 4, 5]] (by decide) (by decide)

/-- C62 fails for one-cell patches: the sum of two fields raises TypeError, and negation gives back
the values unchanged. -/
theorem C62_one_cell_violated (f : ℚ → ℚ → ℚ) :
    amrBinary f [[1], [2]] [[3], [4]] = .error .typeError ∧
    amrUnary (fun x => -x) [[1], [2]] = .ok (.array [1, 2]) := by
  refine ⟨rfl, by decide +kernel⟩

end Viscid.Amr
