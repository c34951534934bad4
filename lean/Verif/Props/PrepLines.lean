import Verif.Model.PrepLines
import Verif.Spec.PrepLines
import Mathlib.Tactic.Linarith
import Mathlib.Tactic.NormNum
/-!
# Lines put together for plotting (C58, C92-C95)
-/
namespace Viscid.Props
open Viscid.PrepLines Viscid.Spec.PrepLines

theorem ceil_count (n : Nat) : ⌈(n : ℚ) - 3 / 2⌉.toNat = n - 1 := by
  rcases n with _ | n
  · have : ⌈((0 : Nat) : ℚ) - 3 / 2⌉ = -1 := by rw [Int.ceil_eq_iff]; norm_num
    rw [this]; rfl
  · have : ⌈((n + 1 : Nat) : ℚ) - 3 / 2⌉ = (n : Int) := by
      rw [Int.ceil_eq_iff]
      push_cast
      constructor <;> linarith
    rw [this]; simp

theorem toInt_nat (n : Nat) : toInt (n : ℚ) = n := by
  simp [toInt]

theorem connect_eq (i0 ni : Nat) : connect i0 ni = (List.range (ni - 1)).map fun k => (i0 + k, i0 + (k + 1)) := by
  unfold connect arange
  have e1 : ((i0 : ℚ) + ni - 3 / 2 - i0) = (ni : ℚ) - 3 / 2 := by ring
  have e2 : ((i0 : ℚ) + ni - 1 / 2 - (i0 + 1)) = (ni : ℚ) - 3 / 2 := by ring
  rw [e1, e2, ceil_count]
  simp only [List.map_map]
  rw [List.zip_map']
  apply List.map_congr_left
  intro k _
  simp only [Function.comp]
  rw [show ((i0 : ℚ) + (k : ℚ)) = ((i0 + k : Nat) : ℚ) by push_cast; ring,
    show ((i0 : ℚ) + 1 + (k : ℚ)) = ((i0 + (k + 1) : Nat) : ℚ) by push_cast; ring, toInt_nat, toInt_nat]

theorem firstIdx_zip (acc : Nat) (npts : List Nat) (p : Nat × Nat) :
    p ∈ (firstIdx acc npts).zip npts ↔ ∃ i : Nat, npts[i]? = some p.2 ∧ p.1 = acc + (npts.take i).sum := by
  induction npts generalizing acc with
  | nil => simp [firstIdx]
  | cons n ns ih =>
    simp only [firstIdx, List.zip_cons_cons, List.mem_cons, ih]
    constructor
    · rintro (rfl | ⟨i, h1, h2⟩)
      · exact ⟨0, by simp⟩
      · exact ⟨i + 1, by simpa using h1, by simp [h2]; omega⟩
    · rintro ⟨i, h1, h2⟩
      cases i with
      | zero =>
        left
        simp at h1 h2
        exact Prod.ext h2 h1.symm
      | succ i =>
        right
        exact ⟨i, by simpa using h1, by simp at h2; omega⟩

/-- C58: exactly the consecutive vertices of a line are connected. -/
theorem C58_connections (npts : List Nat) (a b : Nat) : (a, b) ∈ connections npts ↔ Joined npts a b := by
  unfold connections Joined place
  simp only [List.mem_flatMap, firstIdx_zip, connect_eq, List.mem_map, List.mem_range, Prod.mk.injEq, Prod.exists]
  constructor
  · rintro ⟨f, n, ⟨i, h1, h2⟩, k, hk, rfl, rfl⟩
    exact ⟨i, k, n, h1, by omega, by omega, by omega⟩
  · rintro ⟨i, k, n, h1, hk, rfl, rfl⟩
    exact ⟨_, n, ⟨i, h1, rfl⟩, k, by omega, by omega, by omega⟩

/-- the connections start with increasing vertices -/
theorem connections_sorted (acc : Nat) (npts : List Nat) :
    (((firstIdx acc npts).zip npts).flatMap fun p => connect p.1 p.2).Pairwise (fun p q => p.1 < q.1) ∧
      ∀ p ∈ ((firstIdx acc npts).zip npts).flatMap fun p => connect p.1 p.2, acc ≤ p.1 := by
  induction npts generalizing acc with
  | nil => simp [firstIdx]
  | cons n ns ih =>
    obtain ⟨h1, h2⟩ := ih (acc + n)
    simp only [firstIdx, List.zip_cons_cons, List.flatMap_cons, connect_eq] at *
    refine ⟨?_, ?_⟩
    · rw [List.pairwise_append]
      refine ⟨?_, h1, ?_⟩
      · rw [List.pairwise_map]
        exact List.pairwise_lt_range.imp (by intro a b h; simp; exact h)
      · intro p hp q hq
        have := h2 q hq
        obtain ⟨k, hk, rfl⟩ := List.mem_map.1 hp
        have := List.mem_range.1 hk
        simp only
        omega
    · intro p hp
      rcases List.mem_append.1 hp with hp | hp
      · obtain ⟨k, hk, rfl⟩ := List.mem_map.1 hp
        simp
      · have := h2 p hp
        omega

/-- C58: every connection is there once. -/
theorem C58_once (npts : List Nat) : (connections npts).Nodup := by
  refine (connections_sorted 0 npts).1.imp ?_
  intro a b h e
  subst e
  exact absurd h (lt_irrefl _)

/-- C58: the vertices are those of the lines in order, whatever scalars there are. -/
theorem C58_vertices (lines : List (List (List ℚ))) (rows : Nat) (given : Option Given) (v : List (List ℚ)) (s : Option Scal)
    (c : List (Nat × Nat)) (h : prepareLines lines rows given = .ok (v, s, c)) (i : Nat) (l : List (List ℚ))
    (hi : lines[i]? = some l) (k : Nat) (p : List ℚ) (hk : l[k]? = some p) :
    v[place (lines.map List.length) i k]? = some (p.take 3) ∧ c = connections (lines.map List.length) := by
  have key : ∀ (lines : List (List (List ℚ))) (i : Nat) (l : List (List ℚ)), lines[i]? = some l → ∀ k p, l[k]? = some p →
      lines.flatten[place (lines.map List.length) i k]? = some p := by
    intro lines
    induction lines with
    | nil => intro i l hi; simp at hi
    | cons x xs ih =>
      intro i l hi k p hk
      cases i with
      | zero =>
        simp at hi; subst hi
        have : k < x.length := by
          rcases Nat.lt_or_ge k x.length with h | h
          · exact h
          · rw [List.getElem?_eq_none h] at hk; simp at hk
        simp only [place, List.take_zero, List.sum_nil, Nat.zero_add, List.flatten_cons]
        rw [List.getElem?_append_left this, hk]
      | succ i =>
        have := ih i l (by simpa using hi) k p hk
        simp only [place, List.map_cons, List.take_succ_cons, List.sum_cons, List.flatten_cons] at *
        rw [List.getElem?_append_right (by omega), ← this]
        congr 1; omega
  unfold prepareLines at h
  cases hv : vertices lines rows with
  | error e => rw [hv] at h; simp [bind, Except.bind] at h
  | ok v0 =>
    rw [hv] at h
    simp only [bind, Except.bind] at h
    have hv0 : v0 = lines.flatten ∧ ∀ l ∈ lines, ∀ p ∈ l, p.length = rows := by
      unfold vertices at hv
      split at hv
      · simp at hv
      · split at hv
        · rename_i hall
          refine ⟨by simpa using hv.symm, ?_⟩
          simpa using hall
        · simp at hv
    have hlen : p.length = rows := hv0.2 l (List.mem_of_getElem? hi) p (List.mem_of_getElem? hk)
    have fin : (if rows > 3 then v0.map (List.take 3) else v0)[place (lines.map List.length) i k]? = some (p.take 3) := by
      rw [hv0.1]
      split
      · rw [List.getElem?_map, key lines i l hi k p hk]; rfl
      · rw [key lines i l hi k p hk, List.take_of_length_le (by omega)]
    have out : v = (if rows > 3 then v0.map (List.take 3) else v0) ∧ c = connections (lines.map List.length) := by
      split at h
      · simp only [Except.ok.injEq, Prod.mk.injEq] at h
        exact ⟨h.1.symm, h.2.2.symm⟩
      · rename_i g hg
        cases ha : asArray g with
        | error e => rw [ha] at h; simp at h
        | ok a =>
          rw [ha] at h
          simp only at h
          cases hs : scalars (lines.map List.length) a with
          | error e => rw [hs] at h; simp at h
          | ok s =>
            rw [hs] at h
            simp only [Except.ok.injEq, Prod.mk.injEq] at h
            exact ⟨h.1.symm, h.2.2.symm⟩
    rw [out.1]
    exact ⟨fin, out.2⟩

/-- C58: and nothing else. -/
theorem C58_count (lines : List (List (List ℚ))) (rows : Nat) (given : Option Given) (v : List (List ℚ)) (s : Option Scal)
    (c : List (Nat × Nat)) (h : prepareLines lines rows given = .ok (v, s, c)) :
    v.length = (lines.map List.length).sum := by
  unfold prepareLines at h
  cases hv : vertices lines rows with
  | error e => rw [hv] at h; simp [bind, Except.bind] at h
  | ok v0 =>
    rw [hv] at h
    simp only [bind, Except.bind] at h
    have hv0 : v0 = lines.flatten := by
      unfold vertices at hv
      split at hv
      · simp at hv
      · split at hv
        · simpa using hv.symm
        · simp at hv
    have out : v = (if rows > 3 then v0.map (List.take 3) else v0) := by
      split at h
      · simp only [Except.ok.injEq, Prod.mk.injEq] at h
        exact h.1.symm
      · rename_i g hg
        cases ha : asArray g with
        | error e => rw [ha] at h; simp at h
        | ok a =>
          rw [ha] at h
          simp only at h
          cases hs : scalars (lines.map List.length) a with
          | error e => rw [hs] at h; simp at h
          | ok s =>
            rw [hs] at h
            simp only [Except.ok.injEq, Prod.mk.injEq] at h
            exact h.1.symm
    rw [out, hv0]
    split
    · rw [List.length_map, List.length_flatten]
    · rw [List.length_flatten]

/-- Three lines with three, one and two vertices. -/
example : connections [3, 1, 2] = [(0, 1), (1, 2), (4, 5)] := by
  simp [connections, firstIdx, connect_eq, List.range_succ]

example : ∃ v c, prepareLines [[[0, 0, 0], [1, 0, 0]], [[5, 5, 5]]] 3 none = .ok (v, none, c) := ⟨_, _, rfl⟩

/-! ## Scalars -/

theorem spread_get (npts : List Nat) (f : Nat → ℚ) (i n k : Nat) (hi : npts[i]? = some n) (hk : k < n) :
    (spread npts f)[place npts i k]? = some (f i) := by
  suffices H : ∀ (npts : List Nat) (o i : Nat), npts[i]? = some n →
      ((npts.zipIdx o).flatMap fun p => List.replicate p.1 (f p.2))[place npts i k]? = some (f (o + i)) by
    have := H npts 0 i hi
    simpa [spread] using this
  intro npts
  induction npts with
  | nil => intro o i hi; simp at hi
  | cons m ms ih =>
    intro o i hi
    cases i with
    | zero =>
      simp at hi; subst hi
      simp only [List.zipIdx_cons, List.flatMap_cons, place, List.take_zero, List.sum_nil, Nat.zero_add]
      rw [List.getElem?_append_left (by simpa using hk)]
      simp [hk]
    | succ i =>
      have := ih (o + 1) i (by simpa using hi)
      simp only [List.zipIdx_cons, List.flatMap_cons, place, List.take_succ_cons, List.sum_cons] at *
      rw [List.getElem?_append_right (by simp; omega)]
      simp only [List.length_replicate]
      rw [show m + (ms.take i).sum + k - m = (ms.take i).sum + k by omega, this]
      congr 2; omega

theorem place_lt (npts : List Nat) (i n k : Nat) (hi : npts[i]? = some n) (hk : k < n) : place npts i k < npts.sum := by
  induction npts generalizing i with
  | nil => simp at hi
  | cons m ms ih =>
    cases i with
    | zero => simp at hi; subst hi; simp [place]; omega
    | succ i =>
      have := ih i (by simpa using hi)
      simp [place] at *
      omega

/-- C92: one number per line is given to all vertices of that line. -/
theorem C92_per_line (npts : List Nat) (s : A2) (hs : (s.rows = 1 ∧ s.cols = npts.length) ∨ (s.rows = npts.length ∧ s.cols = 1))
    (h2 : npts.length ≠ 1) :
    ∃ v, scalars npts s = .ok (.values v) ∧ v.length = npts.sum ∧
      ∀ i n k, npts[i]? = some n → k < n → v[place npts i k]? = some (s.flat i) := by
  have e : shapeScalars npts s = .ok ⟨1, npts.sum, fun _ j =>
      (spread npts fun i => (s.reshape npts.length 1).get i 0).getD j 0⟩ := by
    unfold shapeScalars
    rw [if_neg (by
      rintro h
      simp only [Prod.mk.injEq] at h
      rcases hs with ⟨_, h⟩ | ⟨h, _⟩ <;> omega), if_pos (by
      rcases hs with ⟨h, h'⟩ | ⟨h, h'⟩
      · left; rw [h, h']
      · right; rw [h, h'])]
  refine ⟨_, by unfold scalars; rw [e]; simp only [bind, Except.bind, finishScalars, if_true]; rfl, by simp, ?_⟩
  intro i n k hi hk
  have hp := place_lt npts i n k hi hk
  rw [List.getElem?_map, List.getElem?_range hp]
  simp only [Option.map_some, List.getD_eq_getElem?_getD]
  rw [spread_get npts _ i n k hi hk]
  simp [A2.reshape]

/-- C92: one number per vertex stays with its vertex. -/
theorem C92_per_vertex (npts : List Nat) (s : A2) (hs : (s.rows = 1 ∧ s.cols = npts.sum) ∨ (s.rows = npts.sum ∧ s.cols = 1))
    (h2 : npts.length ≠ npts.sum) (h1 : npts.sum ≠ 1) :
    ∃ v, scalars npts s = .ok (.values v) ∧ v.length = npts.sum ∧ ∀ j, j < npts.sum → v[j]? = some (s.flat j) := by
  have e : shapeScalars npts s = .ok (s.reshape 1 npts.sum) := by
    unfold shapeScalars
    rw [if_neg (by
      rintro h
      simp only [Prod.mk.injEq] at h
      rcases hs with ⟨_, h⟩ | ⟨h, _⟩ <;> omega), if_neg (by
      rintro h
      simp only [Prod.mk.injEq] at h
      rcases hs with ⟨_, _⟩ | ⟨_, _⟩ <;> rcases h with ⟨_, _⟩ | ⟨_, _⟩ <;> omega), if_pos (by
      rcases hs with ⟨h, h'⟩ | ⟨h, h'⟩
      · right; rw [h, h']
      · left; rw [h, h'])]
  refine ⟨_, by unfold scalars; rw [e]; simp only [bind, Except.bind, finishScalars, A2.reshape, if_true]; rfl, by simp, ?_⟩
  intro j hj
  rw [List.getElem?_map, List.getElem?_range hj]
  simp

example : ∃ v, scalars [2, 1] ⟨1, 2, fun _ j => if j = 0 then 7 else 9⟩ = .ok (.values v) ∧ v[place [2, 1] 0 1]? = some 7 := by
  obtain ⟨v, h1, _, h3⟩ := C92_per_line [2, 1] ⟨1, 2, fun _ j => if j = 0 then 7 else 9⟩ (Or.inl ⟨rfl, rfl⟩) (by simp)
  refine ⟨v, h1, ?_⟩
  rw [h3 0 2 1 rfl (by simp)]
  simp [A2.flat]

example : ∃ v, scalars [2, 1] ⟨1, 3, fun _ j => j⟩ = .ok (.values v) ∧ v[2]? = some 2 := by
  obtain ⟨v, h1, _, h3⟩ := C92_per_vertex [2, 1] ⟨1, 3, fun _ j => j⟩ (Or.inl ⟨rfl, rfl⟩) (by simp) (by simp)
  refine ⟨v, h1, ?_⟩
  rw [h3 2 (by simp)]
  simp [A2.flat]

/-- `byte` is the nearest byte. -/
theorem toByte_near (x : ℚ) (h0 : 0 ≤ x) (h1 : x < 511 / 2) : |(toByte x : ℚ) - x| ≤ 1 / 2 ∧ toByte x < 256 := by
  have f1 := Int.floor_le x
  have f2 := Int.lt_floor_add_one x
  have f0 : 0 ≤ ⌊x⌋ := Int.floor_nonneg.2 h0
  have f3 : ⌊x⌋ ≤ 255 := by
    have : (⌊x⌋ : ℚ) < 256 := by linarith
    have : ⌊x⌋ < 256 := by exact_mod_cast this
    omega
  have key : ∀ r : Int, 0 ≤ r → r < 256 → |(r : ℚ) - x| ≤ 1 / 2 →
      |(((r % 256).toNat : Nat) : ℚ) - x| ≤ 1 / 2 ∧ (r % 256).toNat < 256 := by
    intro r hr hr2 h
    rw [Int.emod_eq_of_lt hr hr2]
    refine ⟨?_, by omega⟩
    have : ((r.toNat : Nat) : ℚ) = (r : ℚ) := by
      exact_mod_cast Int.toNat_of_nonneg hr
    rw [this]; exact h
  have up : x - ⌊x⌋ ≥ 1 / 2 → ⌊x⌋ + 1 < 256 := by
    intro h
    have : (⌊x⌋ : ℚ) < 255 := by linarith
    have : ⌊x⌋ < 255 := by exact_mod_cast this
    omega
  unfold toByte
  simp only
  split
  · rename_i h
    exact key _ f0 (by omega) (by rw [abs_le]; constructor <;> linarith)
  · rename_i h
    split
    · exact key _ (by omega) (up (by linarith)) (by push_cast; rw [abs_le]; constructor <;> linarith)
    · rename_i h'
      split
      · exact key _ f0 (by omega) (by rw [abs_le]; constructor <;> linarith)
      · exact key _ (by omega) (up (by linarith)) (by push_cast; rw [abs_le]; constructor <;> linarith)

theorem all_iff (a : A2) (p : ℚ → Bool) : a.all p = true ↔ ∀ i j, i < a.rows → j < a.cols → p (a.get i j) = true := by
  simp only [A2.all, List.all_eq_true, List.mem_range]
  exact ⟨fun h i j hi hj => h i hi j hj, fun h i hi j hj => h i j hi hj⟩

/-- C94: colours given as fractions become the nearest bytes. -/
theorem C94_fractions_partial (a : A2) (hr : a.rows = 3 ∨ a.rows = 4)
    (h : ∀ i j, i < a.rows → j < a.cols → 0 ≤ a.get i j ∧ a.get i j ≤ 1) :
    ∃ g, finishScalars a = .ok (.colors a.rows a.cols g) ∧
      ∀ i j, i < a.rows → j < a.cols → |(g i j : ℚ) - 255 * a.get i j| ≤ 1 / 2 ∧ g i j < 256 := by
  refine ⟨fun i j => toByte (255 * a.get i j), ?_, ?_⟩
  · unfold finishScalars
    rw [if_neg (by omega), if_pos hr, if_pos ⟨(all_iff _ _).2 (by simpa using fun i j hi hj => (h i j hi hj).1),
      (all_iff _ _).2 (by simpa using fun i j hi hj => (h i j hi hj).2)⟩]
  · intro i j hi hj
    obtain ⟨h0, h1⟩ := h i j hi hj
    exact toByte_near _ (by linarith) (by linarith)

example := C94_fractions_partial ⟨3, 2, fun i j => (i + j : ℚ) / 8⟩ (Or.inl rfl) (fun i j hi hj => by
  have h1 : (i : ℚ) ≤ 2 := by exact_mod_cast Nat.le_of_lt_succ hi
  have h2 : (j : ℚ) ≤ 1 := by exact_mod_cast Nat.le_of_lt_succ hj
  have h3 : (0 : ℚ) ≤ i := Nat.cast_nonneg i
  have h4 : (0 : ℚ) ≤ j := Nat.cast_nonneg j
  constructor <;> dsimp only <;> linarith)

/-- C94: colours given as numbers up to 255 become the nearest bytes. -/
theorem C94_bytes_partial (a : A2) (hr : a.rows = 3 ∨ a.rows = 4)
    (h : ∀ i j, i < a.rows → j < a.cols → 0 ≤ a.get i j ∧ a.get i j < 511 / 2)
    (hbig : ∃ i j, i < a.rows ∧ j < a.cols ∧ 1 < a.get i j) :
    ∃ g, finishScalars a = .ok (.colors a.rows a.cols g) ∧
      ∀ i j, i < a.rows → j < a.cols → |(g i j : ℚ) - a.get i j| ≤ 1 / 2 ∧ g i j < 256 := by
  refine ⟨fun i j => toByte (a.get i j), ?_, ?_⟩
  · unfold finishScalars
    rw [if_neg (by omega), if_pos hr, if_neg (by
      rintro ⟨_, hall⟩
      obtain ⟨i, j, hi, hj, hb⟩ := hbig
      have := (all_iff _ _).1 hall i j hi hj
      simp at this
      linarith), if_pos ⟨(all_iff _ _).2 (by simpa using fun i j hi hj => (h i j hi hj).1),
      (all_iff _ _).2 (by
        intro i j hi hj
        have := (h i j hi hj).2
        simp
        linarith)⟩]
  · intro i j hi hj
    obtain ⟨h0, h1⟩ := h i j hi hj
    exact toByte_near _ h0 h1

example := C94_bytes_partial ⟨3, 2, fun i _ => if i = 0 then 0 else 250⟩ (Or.inl rfl)
  (fun i j _ _ => by dsimp only; split <;> norm_num) ⟨1, 0, by decide, by decide, by norm_num⟩

/-- C94: anything else is refused. -/
theorem C94_refused_partial (a : A2) (hr : a.rows = 3 ∨ a.rows = 4) (i j : Nat) (hi : i < a.rows) (hj : j < a.cols)
    (h : a.get i j < 0 ∨ 256 ≤ a.get i j) : finishScalars a = .error .valueError := by
  unfold finishScalars
  rw [if_neg (by omega), if_pos hr, if_neg, if_neg]
  · rintro ⟨h1, h2⟩
    have k1 := (all_iff _ _).1 h1 i j hi hj
    have k2 := (all_iff _ _).1 h2 i j hi hj
    simp at k1 k2
    rcases h with h | h <;> linarith
  · rintro ⟨h1, h2⟩
    have k1 := (all_iff _ _).1 h1 i j hi hj
    have k2 := (all_iff _ _).1 h2 i j hi hj
    simp at k1 k2
    rcases h with h | h <;> linarith

example := C94_refused_partial ⟨4, 2, fun i j => if i = 1 ∧ j = 1 then 300 else 250⟩ (Or.inr rfl) 1 1 (by decide) (by decide) (Or.inr (by norm_num))

/-- C94 (disagreement): 255.7 is accepted, rounded to 256, and becomes 0. -/
theorem C94_wrap_violated : ∃ g, finishScalars ⟨3, 1, fun _ _ => 2557 / 10⟩ = .ok (.colors 3 1 g) ∧ g 0 0 = 0 := by
  refine ⟨fun _ _ => toByte (2557 / 10), ?_, ?_⟩
  · unfold finishScalars
    rw [if_neg (by simp), if_pos (by simp), if_neg (by
      rintro ⟨_, h⟩
      have := (all_iff _ _).1 h 0 0 (by simp) (by simp)
      norm_num at this), if_pos ⟨(all_iff _ _).2 (by intros; norm_num), (all_iff _ _).2 (by intros; norm_num)⟩]
  · unfold toByte
    have : ⌊(2557 / 10 : ℚ)⌋ = 255 := by rw [Int.floor_eq_iff]; norm_num
    simp only [this]
    norm_num

/-- C92: one colour per line is given to all vertices of that line. -/
theorem C92_color_per_line (npts : List Nat) (s : A2) (hs : s.cols = 3 ∨ s.cols = 4) (hr : s.rows = npts.length)
    (h1 : npts.length ≠ 1) (hN : npts.sum ≠ 1)
    (hsep : npts.length ≠ 3 ∧ npts.length ≠ 4)
    (h : ∀ i j, i < s.rows → j < s.cols → 0 ≤ s.get i j ∧ s.get i j ≤ 1) :
    ∃ g, scalars npts s = .ok (.colors s.cols npts.sum g) ∧
      ∀ c < s.cols, ∀ i n k, npts[i]? = some n → k < n → |(g c (place npts i k) : ℚ) - 255 * s.get i c| ≤ 1 / 2 := by
  have e : shapeScalars npts s = .ok ⟨s.cols, npts.sum, fun c j => (spread npts fun i => s.get i c).getD j 0⟩ := by
    unfold shapeScalars
    have n1 : ¬ ((s.rows, s.cols) ∈ [(3, npts.length), (4, npts.length)] ∧ (s.rows, s.cols) ∉ [(3, 3), (4, 4)]) := by
      rintro ⟨hm, _⟩
      simp only [List.mem_cons, Prod.mk.injEq, List.not_mem_nil, or_false] at hm
      omega
    rw [if_neg (by simp only [Prod.mk.injEq]; omega), if_neg (by simp only [Prod.mk.injEq]; omega),
      if_neg (by simp only [Prod.mk.injEq]; omega), if_pos (by
        simp only [List.mem_cons, Prod.mk.injEq, List.not_mem_nil, or_false]
        omega)]
    simp only [if_neg n1]
  -- every vertex belongs to a line
  have own : ∀ (npts : List Nat) j, j < npts.sum → ∃ i n k, npts[i]? = some n ∧ k < n ∧ j = place npts i k := by
    intro npts
    induction npts with
    | nil => intro j hj; simp at hj
    | cons m ms ih =>
      intro j hj
      by_cases hm : j < m
      · exact ⟨0, m, j, by simp, hm, by simp [place]⟩
      · obtain ⟨i, n, k, h1, h2, h3⟩ := ih (j - m) (by simp at hj; omega)
        exact ⟨i + 1, n, k, by simpa using h1, h2, by simp [place] at *; omega⟩
  have val : ∀ c i n k, npts[i]? = some n → k < n →
      (spread npts fun i => s.get i c).getD (place npts i k) 0 = s.get i c := by
    intro c i n k hi hk
    rw [List.getD_eq_getElem?_getD, spread_get npts _ i n k hi hk]
    rfl
  have bound : ∀ c < s.cols, ∀ j < npts.sum, 0 ≤ (spread npts fun i => s.get i c).getD j 0 ∧
      (spread npts fun i => s.get i c).getD j 0 ≤ 1 := by
    intro c hc j hj
    obtain ⟨i, n, k, hi, hk, rfl⟩ := own npts j hj
    rw [val c i n k hi hk]
    refine h i c ?_ hc
    rw [hr]
    rcases Nat.lt_or_ge i npts.length with hl | hl
    · exact hl
    · rw [List.getElem?_eq_none hl] at hi; simp at hi
  obtain ⟨g, hg1, hg2⟩ := C94_fractions_partial ⟨s.cols, npts.sum, fun c j => (spread npts fun i => s.get i c).getD j 0⟩
    (by simpa using hs) (fun c j hc hj => bound c hc j hj)
  refine ⟨g, by unfold scalars; rw [e]; exact hg1, ?_⟩
  intro c hc i n k hi hk
  have := (hg2 c (place npts i k) hc (place_lt npts i n k hi hk)).1
  simp only [val c i n k hi hk] at this
  exact this

example : ∃ g, scalars [2, 1] ⟨2, 3, fun i _ => if i = 0 then 1 else 0⟩ = .ok (.colors 3 3 g) :=
  let ⟨g, h, _⟩ := C92_color_per_line [2, 1] ⟨2, 3, fun i _ => if i = 0 then 1 else 0⟩ (Or.inl rfl) rfl (by simp) (by simp)
    (by simp) (by intro i j _ _; dsimp only; split <;> norm_num)
  ⟨g, h⟩

/-- C93 (disagreement): one colour per vertex is always refused: the array is turned to one row per vertex, and then the number
    of rows should be 3 or 4. -/
theorem C93_vertex_colors_violated (npts : List Nat) (s : A2) (hN : 4 < npts.sum) (hl : npts.length ≠ npts.sum)
    (hs : ((s.rows = 3 ∨ s.rows = 4) ∧ s.cols = npts.sum) ∨ (s.rows = npts.sum ∧ (s.cols = 3 ∨ s.cols = 4))) :
    scalars npts s = .error .valueError := by
  have e : ∃ a, shapeScalars npts s = .ok a ∧ a.rows = npts.sum := by
    unfold shapeScalars
    rw [if_neg (by simp only [Prod.mk.injEq]; omega), if_neg (by simp only [Prod.mk.injEq]; omega),
      if_neg (by simp only [Prod.mk.injEq]; omega), if_neg (by
        simp only [List.mem_cons, Prod.mk.injEq, List.not_mem_nil, or_false]
        omega), if_pos (by
        simp only [List.mem_cons, Prod.mk.injEq, List.not_mem_nil, or_false]
        omega)]
    refine ⟨_, rfl, ?_⟩
    split
    · rename_i h
      simp only [List.mem_cons, Prod.mk.injEq, List.not_mem_nil, or_false] at h
      simp only [A2.T]
      omega
    · rename_i h
      simp only [List.mem_cons, Prod.mk.injEq, List.not_mem_nil, or_false] at h
      omega
  obtain ⟨a, e1, e2⟩ := e
  unfold scalars
  rw [e1]
  simp only [bind, Except.bind, finishScalars]
  rw [if_neg (by omega), if_neg (by omega)]

/-- C93 (disagreement): and so lines with their colours in rows 4 to 6, as documented, are refused. -/
theorem C93_colored_lines_violated (lines : List (List (List ℚ))) (hne : lines ≠ [])
    (hrows : ∀ l ∈ lines, ∀ p ∈ l, p.length = 6) (hN : 4 < (lines.map List.length).sum)
    (hl : lines.length ≠ (lines.map List.length).sum) :
    prepareLines lines 6 none = .error .valueError := by
  have hv : vertices lines 6 = .ok lines.flatten := by
    unfold vertices
    rw [if_neg hne, if_pos (by simpa using hrows)]
  unfold prepareLines
  rw [hv]
  simp only [bind, Except.bind, show (6 : Nat) > 3 from by decide, if_true, asArray]
  rw [C93_vertex_colors_violated (lines.map List.length) _ hN (by simpa using hl)]
  left
  exact ⟨Or.inl rfl, by simp [List.length_flatten]⟩

example : prepareLines [[[0, 0, 0, 1, 0, 0], [1, 0, 0, 1, 0, 0], [2, 0, 0, 0, 1, 0]],
    [[0, 1, 0, 1, 0, 0], [1, 1, 0, 0, 0, 1]]] 6 none = .error .valueError :=
  C93_colored_lines_violated _ (by simp) (by simp) (by simp) (by simp)

/-- C95: a single colour given as a list is used for all vertices. -/
theorem C95_list_partial (npts : List Nat) (r g b : ℚ) (hc : ∀ x ∈ [r, g, b], 0 ≤ x ∧ x ≤ 1)
    (hl : npts.length ≠ 3 ∧ npts.length ≠ 1 ∧ npts.length ≠ 4) (hN : npts.sum ≠ 3 ∧ npts.sum ≠ 1 ∧ npts.sum ≠ 4) :
    ∃ a f, asArray (.list [[r], [g], [b]]) = .ok a ∧ scalars npts a = .ok (.colors 3 npts.sum f) ∧
      ∀ j < npts.sum, |(f 0 j : ℚ) - 255 * r| ≤ 1 / 2 ∧ |(f 1 j : ℚ) - 255 * g| ≤ 1 / 2 ∧ |(f 2 j : ℚ) - 255 * b| ≤ 1 / 2 := by
  let a : A2 := ⟨3, 1, fun i j => (([[r], [g], [b]] : List (List ℚ)).getD i []).getD j 0⟩
  have ea : asArray (.list [[r], [g], [b]]) = .ok a := by simp [asArray, a]
  have e : shapeScalars npts a = .ok ⟨3, npts.sum, fun c _ => a.flat c⟩ := by
    unfold shapeScalars
    rw [if_neg (by simp only [Prod.mk.injEq, a]; omega), if_neg (by simp only [Prod.mk.injEq, a]; omega),
      if_neg (by simp only [Prod.mk.injEq, a]; omega), if_neg (by
        simp only [List.mem_cons, Prod.mk.injEq, List.not_mem_nil, or_false, a]
        omega), if_neg (by
        simp only [List.mem_cons, Prod.mk.injEq, List.not_mem_nil, or_false, a]
        omega), if_pos (by simp [a])]
    rfl
  have f0 : a.flat 0 = r := by simp [A2.flat, a]
  have f1 : a.flat 1 = g := by simp [A2.flat, a]
  have f2 : a.flat 2 = b := by simp [A2.flat, a]
  have hr := hc r (by simp)
  have hg := hc g (by simp)
  have hb := hc b (by simp)
  obtain ⟨f, hf1, hf2⟩ := C94_fractions_partial ⟨3, npts.sum, fun c _ => a.flat c⟩ (Or.inl rfl) (by
    intro i j hi hj
    have : i = 0 ∨ i = 1 ∨ i = 2 := by simp at hi; omega
    rcases this with rfl | rfl | rfl
    · simpa [f0] using hr
    · simpa [f1] using hg
    · simpa [f2] using hb)
  refine ⟨a, f, ea, by unfold scalars; rw [e]; exact hf1, ?_⟩
  intro j hj
  have k0 := (hf2 0 j (by simp) hj).1
  have k1 := (hf2 1 j (by simp) hj).1
  have k2 := (hf2 2 j (by simp) hj).1
  simp only [f0, f1, f2] at k0 k1 k2
  exact ⟨k0, k1, k2⟩

example := C95_list_partial [3, 2] 1 0 (1 / 2) (by decide +kernel) (by decide) (by decide)

/-- C95 (disagreement): a colour given as a tuple, as documented, is a TypeError. -/
theorem C95_tuple_violated (lines : List (List (List ℚ))) (rows : Nat) (hne : lines ≠ [])
    (hrows : ∀ l ∈ lines, ∀ p ∈ l, p.length = rows) (c : List ℚ) (cs : List (List ℚ)) :
    prepareLines lines rows (some (.tuple (c :: cs))) = .error .typeError := by
  have hv : vertices lines rows = .ok lines.flatten := by
    unfold vertices
    rw [if_neg hne, if_pos (by simpa using hrows)]
  unfold prepareLines
  rw [hv]
  rfl

example := C95_tuple_violated [[[0, 0, 0], [1, 0, 0]], [[5, 5, 5]]] 3 (by decide) (by decide) [1] [[0], [0]]

end Viscid.Props
