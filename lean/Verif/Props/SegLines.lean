import Verif.Spec.SegLines
import Verif.Props.PrepLines
import Mathlib.Tactic.Linarith
import Mathlib.Tactic.NormNum
import Mathlib.Tactic.FieldSimp
import Mathlib.Tactic.Ring
/-! # C220: segments of plotted lines -/
namespace Viscid.Props
open Viscid.SegLines Viscid.Spec.SegLines
open Viscid.PrepLines (connections connect firstIdx)

namespace SL

/-- where lines start that have a vertex -/
def S : Nat → List Nat → List Nat
  | _, [] => []
  | acc, n :: ns => if n = 0 then S acc ns else acc :: S (acc + n) ns

/-- connections of lines after `acc` vertices -/
def conn (acc : Nat) (ns : List Nat) : List (Nat × Nat) := ((firstIdx acc ns).zip ns).flatMap fun p => connect p.1 p.2

theorem conn_cons (acc n : Nat) (ns : List Nat) : conn acc (n :: ns) = connect acc n ++ conn (acc + n) ns := by
  simp [conn, firstIdx]

theorem conn_snd (acc : Nat) (ns : List Nat) (p : Nat × Nat) (h : p ∈ conn acc ns) : acc < p.2 := by
  induction ns generalizing acc with
  | nil => simp [conn, firstIdx] at h
  | cons n ns ih =>
    rw [conn_cons, List.mem_append] at h
    rcases h with h | h
    · rw [connect_eq] at h; simp at h; obtain ⟨k, _, rfl⟩ := h; simp only; omega
    · have := ih _ h; omega

theorem starts_eq (acc : Nat) (ns : List Nat) : ((List.range' acc ns.sum).filter fun i => i ∉ (conn acc ns).map Prod.snd) = S acc ns := by
  induction ns generalizing acc with
  | nil => simp [S]
  | cons n ns ih =>
    have hr : List.range' acc (n :: ns).sum = List.range' acc n ++ List.range' (acc + n) ns.sum := by
      rw [List.sum_cons, ← List.range'_append]; simp
    rw [hr, List.filter_append]
    have h2 : ((List.range' (acc + n) ns.sum).filter fun i => i ∉ (conn acc (n :: ns)).map Prod.snd) = S (acc + n) ns := by
      rw [← ih]
      apply List.filter_congr
      intro i hi
      have : i ∉ (connect acc n).map Prod.snd := by
        rw [connect_eq]; simp at hi ⊢; intro k hk; omega
      exact decide_eq_decide.2 (not_congr (by rw [conn_cons, List.map_append, List.mem_append]; simp only [this, false_or]))
    have h1 : ((List.range' acc n).filter fun i => i ∉ (conn acc (n :: ns)).map Prod.snd) = if n = 0 then [] else [acc] := by
      cases n with
      | zero => simp
      | succ n =>
        rw [List.range'_succ, List.filter_cons]
        have ha : acc ∉ (conn acc ((n + 1) :: ns)).map Prod.snd := by
          intro h
          obtain ⟨p, hp, e⟩ := List.mem_map.1 h
          have := conn_snd _ _ _ hp; omega
        rw [if_pos (by simpa using ha)]
        simp only [Nat.add_one_ne_zero, if_false, List.cons.injEq, true_and, List.filter_eq_nil_iff]
        intro i hi
        have : i ∈ (conn acc ((n + 1) :: ns)).map Prod.snd := by
          rw [conn_cons, List.map_append, List.mem_append, connect_eq]
          left
          simp at hi ⊢
          exact ⟨i - acc - 1, by omega, by omega⟩
        simpa using this
    rw [h1, h2, S]
    split
    · subst_vars; simp
    · simp

theorem S_head (acc : Nat) (ns : List Nat) : (S acc ns = [] ∧ ns.sum = 0) ∨ ∃ t, S acc ns = acc :: t := by
  induction ns with
  | nil => simp [S]
  | cons n ns ih =>
    rw [S]
    split
    · subst_vars; simpa using ih
    · exact .inr ⟨_, rfl⟩

/-- lines with a vertex -/
def full (lines : List (List α)) : List (List α) := lines.filter (· ≠ [])

theorem middle (P l R : List α) : ((P ++ (l ++ R)).take (P.length + l.length)).drop P.length = l := by
  rw [← List.append_assoc, ← List.length_append, List.take_left, List.drop_left]

theorem slice_eq (P : List (List ℚ)) (lines : List (List (List ℚ))) :
    slices (P ++ lines.flatten) (S P.length (lines.map List.length)) ((S P.length (lines.map List.length)).tail ++ [P.length + lines.flatten.length]) =
      full lines := by
  induction lines generalizing P with
  | nil => simp [S, slices, full]
  | cons l lines ih =>
    cases hl : l with
    | nil =>
      have := ih P
      simpa [S, full] using this
    | cons a l' =>
      have hn : l.length ≠ 0 := by rw [hl]; simp
      have h := ih (P ++ l)
      rw [← hl]
      have hS : S P.length ((l :: lines).map List.length) = P.length :: S (P ++ l).length (lines.map List.length) := by
        rw [List.map_cons, S, if_neg hn, List.length_append]
      have hlen : P.length + (l :: lines).flatten.length = (P ++ l).length + lines.flatten.length := by simp; omega
      have hfl : P ++ (l :: lines).flatten = (P ++ l) ++ lines.flatten := by simp
      have hfull : full (l :: lines) = l :: full lines := by unfold full; rw [List.filter_cons, if_pos]; simp [hl]
      rw [hS, hlen, hfl, hfull, ← h, List.tail_cons]
      rcases S_head (P ++ l).length (lines.map List.length) with ⟨e1, e2⟩ | ⟨t, e⟩
      · have e3 : lines.flatten.length = 0 := by rw [List.length_flatten]; exact e2
        have e4 : lines.flatten = [] := List.length_eq_zero_iff.1 e3
        rw [e1, e4]
        simp [slices]
        have := middle P l []
        simpa using this
      · rw [e]
        simp [slices]
        exact middle P l _

theorem counts_eq (acc : Nat) (ns : List Nat) :
    ((S acc ns).zip ((S acc ns).tail ++ [acc + ns.sum])).map (fun p => p.2 - p.1) = ns.filter (· ≠ 0) := by
  induction ns generalizing acc with
  | nil => simp [S]
  | cons n ns ih =>
    by_cases hn : n = 0
    · subst hn; simpa [S] using ih acc
    · rw [S, if_neg hn, List.tail_cons, List.filter_cons, if_pos (by simpa using hn), ← ih (acc + n), List.sum_cons, ← Nat.add_assoc]
      rcases S_head (acc + n) ns with ⟨e1, e2⟩ | ⟨t, e⟩
      · rw [e1, e2]; simp
      · rw [e]; simp

theorem fineConn_eq (s : ℚ) (counts : List Nat) : fineConn s counts =
    ((firstIdx 0 (counts.map (nFine s))).zip (counts.map (nFine s))).flatMap fun p => (List.range (p.2 - 1)).map fun k => (p.1 + k, p.1 + 1 + k) := by
  have gen : ∀ (pre counts : List Nat), ((counts.zipIdx pre.length).flatMap fun p =>
      let a := (((pre ++ counts).take p.2).map (nFine s)).sum
      (List.range (nFine s p.1 - 1)).map fun k => (a + k, a + 1 + k)) =
      ((firstIdx (pre.map (nFine s)).sum (counts.map (nFine s))).zip (counts.map (nFine s))).flatMap fun p =>
        (List.range (p.2 - 1)).map fun k => (p.1 + k, p.1 + 1 + k) := by
    intro pre counts
    induction counts generalizing pre with
    | nil => simp [firstIdx]
    | cons n ns ih =>
      have h := ih (pre ++ [n])
      simp only [List.length_append, List.length_cons, List.length_nil, List.append_assoc, List.cons_append, List.nil_append, List.map_append, List.map_cons,
        List.map_nil, List.sum_append, List.sum_cons, List.sum_nil, Nat.add_zero, Nat.zero_add] at h
      rw [List.zipIdx_cons, List.flatMap_cons, h]
      simp [firstIdx]
  simpa [fineConn] using gen [] counts

theorem pairs_get (l : List α) (d : α) : pairs l = (List.range (l.length - 1)).map fun k => (l.getD k d, l.getD (k + 1) d) := by
  induction l with
  | nil => rfl
  | cons a l ih =>
    cases l with
    | nil => rfl
    | cons b l =>
      rw [pairs, ih]
      simp [List.range_succ_eq_map]

theorem segs_eq (P : List (List ℚ)) (F : List (List (List ℚ))) :
    (((firstIdx P.length (F.map List.length)).zip (F.map List.length)).flatMap fun p => (List.range (p.2 - 1)).map fun k => (p.1 + k, p.1 + 1 + k)).map
      (fun c => ((P ++ F.flatten).getD c.1 [], (P ++ F.flatten).getD c.2 [])) = F.flatMap pairs := by
  induction F generalizing P with
  | nil => simp [firstIdx]
  | cons l F ih =>
    have h := ih (P ++ l)
    simp only [List.length_append] at h
    simp only [List.map_cons, firstIdx, List.zip_cons_cons, List.flatMap_cons, List.map_append, List.flatten_cons]
    rw [← List.append_assoc, h, pairs_get l []]
    congr 1
    rw [List.map_map]
    apply List.map_congr_left
    intro k hk
    rw [List.mem_range] at hk
    simp only [Function.comp]
    have e : ∀ j, j < l.length → (P ++ l ++ F.flatten).getD (P.length + j) [] = l.getD j [] := by
      intro j hj
      rw [List.getD_eq_getElem?_getD, List.append_assoc, List.getElem?_append_right (by omega), List.getElem?_append_left (by omega), ← List.getD_eq_getElem?_getD]
      congr 1; omega
    rw [e k (by omega), show P.length + 1 + k = P.length + (k + 1) by omega, e (k + 1) (by omega)]

theorem scal_eq (P : List (List ℚ)) (F : List (List (List ℚ))) :
    (((firstIdx P.length (F.map List.length)).zip (F.map List.length)).flatMap fun p => (List.range (p.2 - 1)).map fun k => (p.1 + k, p.1 + 1 + k)).map
      (fun c => (P ++ F.flatten).getD c.1 []) = F.flatMap List.dropLast := by
  have h := congrArg (List.map Prod.fst) (segs_eq P F)
  rw [List.map_map] at h
  have e : ((Prod.fst : List ℚ × List ℚ → List ℚ) ∘ fun c : Nat × Nat => ((P ++ F.flatten).getD c.1 [], (P ++ F.flatten).getD c.2 [])) =
      fun c => (P ++ F.flatten).getD c.1 [] := rfl
  rw [e] at h
  rw [h, List.map_flatMap]
  congr 1
  funext l
  induction l with
  | nil => rfl
  | cons a l ih =>
    cases l with
    | nil => rfl
    | cons b l => simp only [pairs, List.map_cons, List.dropLast_cons_cons, ih]

theorem conn_seg (npts : List Nat) : connections npts =
    ((firstIdx 0 npts).zip npts).flatMap fun p => (List.range (p.2 - 1)).map fun k => (p.1 + k, p.1 + 1 + k) := by
  unfold connections
  congr 1
  funext p
  rw [connect_eq]
  apply List.map_congr_left
  intro k _
  rw [show p.1 + (k + 1) = p.1 + 1 + k by omega]

theorem count_down (n : Nat) (p : Nat → Bool) (hp : ∀ i j, i ≤ j → p j = true → p i = true) :
    ∀ j, j < n → (p j = true ↔ j < ((List.range n).filter p).length) := by
  induction n with
  | zero => intro j hj; omega
  | succ n ih =>
    have hle : ((List.range n).filter p).length ≤ n := by simpa using List.length_filter_le p (List.range n)
    intro j hj
    rw [List.range_succ, List.filter_append]
    by_cases hn : p n = true
    · have hall : (List.range n).filter p = List.range n := by
        rw [List.filter_eq_self]; intro a ha; exact hp a n (by simp at ha; omega) hn
      rw [hall]
      simp [hn]
      constructor
      · intro _; omega
      · intro h; exact hp j n (by omega) hn
    · simp [hn]
      by_cases hj' : j = n
      · subst hj'; simp [hn]; simpa using hle
      · exact ih j (by omega)

theorem interp_at (l : List ℚ) (t : ℚ) (h2 : 2 ≤ l.length) (h0 : 0 ≤ t) (h1 : t ≤ 1) :
    ∃ (j : Nat) (w : ℚ), t * ((l.length : ℚ) - 1) = j + w ∧ 0 ≤ w ∧ w ≤ 1 ∧ j + 1 < l.length ∧
      (∀ l' : List ℚ, l'.length = l.length → interp l' t = (1 - w) * l'.getD j 0 + w * l'.getD (j + 1) 0) := by
  have hn1 : l.length ≠ 1 := by omega
  have hnq : (1 : ℚ) ≤ (l.length : ℚ) - 1 := by have : (2 : ℚ) ≤ l.length := by exact_mod_cast h2
                                                linarith
  have hpos : (0 : ℚ) < (l.length : ℚ) - 1 := by linarith
  set n := l.length with hn
  have hlin : ∀ j, lin n j = (j : ℚ) / ((n : ℚ) - 1) := fun j => by simp [lin, hn1]
  have hc := count_down n (fun j => decide (lin n j < t)) (by
    intro i j hij h
    simp only [decide_eq_true_eq, hlin] at h ⊢
    have : (i : ℚ) ≤ j := by exact_mod_cast hij
    exact lt_of_le_of_lt (div_le_div_of_nonneg_right this (le_of_lt hpos)) h)
  simp only [decide_eq_true_eq] at hc
  set c := ((List.range n).filter fun j => decide (lin n j < t)).length with hcdef
  obtain ⟨j, hj⟩ : ∃ j, min (max c 1) (n - 1) = j + 1 := ⟨min (max c 1) (n - 1) - 1, by omega⟩
  have hjn : j + 1 < n := by omega
  have lo : (j : ℚ) ≤ t * ((n : ℚ) - 1) := by
    by_cases hj0 : j = 0
    · subst hj0; simp; exact mul_nonneg h0 (le_of_lt hpos)
    · have := (hc j (by omega)).2 (by omega)
      rw [hlin, div_lt_iff₀ hpos] at this
      exact le_of_lt this
  have hi : t * ((n : ℚ) - 1) ≤ j + 1 := by
    by_cases hjl : j + 1 = n - 1
    · have : ((j : ℚ) + 1) = (n : ℚ) - 1 := by
        have : j + 1 + 1 = n := by omega
        have : ((j : ℚ) + 1 + 1) = n := by exact_mod_cast this
        linarith
      rw [this]; nlinarith
    · have := mt (hc (j + 1) (by omega)).1 (by omega)
      rw [hlin, not_lt, le_div_iff₀ hpos] at this
      push_cast at this
      exact this
  refine ⟨j, t * ((n : ℚ) - 1) - j, by ring, by linarith, by linarith, hjn, ?_⟩
  intro l' hl'
  unfold interp
  simp only [hl']
  rw [← hcdef, hj, Nat.add_sub_cancel, hlin, hlin]
  push_cast
  have hd : ((j : ℚ) + 1) / ((n : ℚ) - 1) - j / ((n : ℚ) - 1) = 1 / ((n : ℚ) - 1) := by rw [← sub_div]; ring_nf
  rw [hd]
  have hne : ((n : ℚ) - 1) ≠ 0 := ne_of_gt hpos
  field_simp
  ring

theorem nFine_pos (s : ℚ) (n : Nat) (hs : 0 < s) (hn : 2 ≤ n) : 2 ≤ nFine s n := by
  have : (2 : ℚ) ≤ n := by exact_mod_cast hn
  have : 0 < ⌈s * ((n : ℚ) - 1)⌉ := Int.ceil_pos.2 (mul_pos hs (by linarith))
  unfold nFine; omega

theorem nFine_cast (s : ℚ) (n : Nat) (hs : 0 < s) (hn : 1 ≤ n) : (nFine s n : ℤ) = ⌈s * ((n : ℚ) - 1)⌉ + 1 := by
  have : (1 : ℚ) ≤ n := by exact_mod_cast hn
  have : 0 ≤ ⌈s * ((n : ℚ) - 1)⌉ := Int.ceil_nonneg (mul_nonneg (le_of_lt hs) (by linarith))
  unfold nFine; omega

theorem fine_length (scipy : Bool) (junk : Nat → ℚ) (s : ℚ) (d : Nat) (line : List (List ℚ)) :
    (fineLine scipy junk s d line).length = nFine s line.length := by
  unfold fineLine
  by_cases h : line.length = 1
  · cases scipy <;> simp [h, nFine]
  · simp [h]

theorem refines (scipy : Bool) (junk : Nat → ℚ) (s : ℚ) (d : Nat) (line : List (List ℚ)) (hs : 0 < s) (hne : line ≠ []) (hd : ∀ v ∈ line, v.length = d)
    (h1 : scipy = true → 2 ≤ line.length ∨ d ≤ 1) : Refines s line (fineLine scipy junk s d line) := by
  have hpos : 1 ≤ line.length := List.length_pos_iff.2 hne
  have hlen := fine_length scipy junk s d line
  refine ⟨by rw [hlen]; exact nFine_cast s _ hs hpos, ?_⟩
  intro k v hk
  by_cases hl : line.length = 1
  · obtain ⟨a, rfl⟩ := List.length_eq_one_iff.1 hl
    have ha := hd a (by simp)
    have hv : k = 0 ∧ v = a := by
      have e : (List.range d).map (fun r => (row [a] r).getD 0 0) = a := by
        apply List.ext_getElem?
        intro r
        by_cases hr : r < d
        · rw [List.getElem?_map, List.getElem?_range hr]; simp [row]
          rw [List.getElem?_eq_getElem (by omega)]; simp
        · rw [List.getElem?_eq_none (by simp; omega), List.getElem?_eq_none (by omega)]
      cases scipy with
      | false =>
        have e2 : fineLine false junk s d [a] = [a] := by unfold fineLine; simpa using e
        rw [e2] at hk
        cases k with
        | zero => simpa [eq_comm] using hk
        | succ k => simp at hk
      | true =>
        have hd1 : d ≤ 1 := by rcases h1 rfl with h | h; · simp at h
                               exact h
        have e2 : fineLine true junk s d [a] = [a] := by
          unfold fineLine
          rw [if_pos hl, if_pos rfl]
          congr 1
          rw [← e]
          apply List.map_congr_left
          intro r hr
          rw [List.mem_range] at hr
          rw [if_pos (by omega), e]
        rw [e2] at hk
        cases k with
        | zero => simpa [eq_comm] using hk
        | succ k => simp at hk
    obtain ⟨rfl, rfl⟩ := hv
    exact ⟨0, by simp, .inl ⟨0, by simp, rfl⟩⟩
  · have h2 : 2 ≤ line.length := by omega
    have hnf := nFine_pos s _ hs h2
    rw [hlen]
    have hkn : k < nFine s line.length := by rw [← hlen]; exact (List.getElem?_eq_some_iff.1 hk).1
    set nf := nFine s line.length
    have hnq : (2 : ℚ) ≤ nf := by exact_mod_cast hnf
    have hkq : (k : ℚ) + 1 ≤ nf := by exact_mod_cast hkn
    have hlin : lin nf k = (k : ℚ) / ((nf : ℚ) - 1) := by unfold lin; rw [if_neg (by omega)]
    have t0 : 0 ≤ lin nf k := by rw [hlin]; apply div_nonneg <;> first | positivity | linarith
    have t1 : lin nf k ≤ 1 := by rw [hlin, div_le_one (by linarith)]; linarith
    have hv : v = (List.range d).map fun r => interp (row line r) (lin nf k) := by
      unfold fineLine at hk
      rw [if_neg hl] at hk
      simp only at hk
      rw [List.getElem?_map, List.getElem?_range hkn] at hk
      simpa [eq_comm] using hk
    have hrow : ∀ r, (row line r).length = line.length := fun r => by simp [row]
    obtain ⟨j, w, e, w0, w1, hj, hint⟩ := interp_at (row line 0) (lin nf k) (by rw [hrow]; exact h2) t0 t1
    rw [hrow] at e hj
    refine ⟨lin nf k * ((line.length : ℚ) - 1), ?_, .inr ⟨j, w, line[j], line[j + 1], e, w0, w1, List.getElem?_eq_getElem _, List.getElem?_eq_getElem _, ?_, ?_⟩⟩
    · rw [hlin]; have : ((nf : ℚ) - 1) ≠ 0 := by linarith
      field_simp
    · rw [hv, hd _ (List.getElem_mem _)]; simp
    · intro r x y hx hy
      have hr : r < d := by have := (List.getElem?_eq_some_iff.1 hx).1; rwa [hd _ (List.getElem_mem _)] at this
      rw [hv, List.getElem?_map, List.getElem?_range hr, Option.map_some, hint (row line r) (by rw [hrow, hrow])]
      have ex : (row line r).getD j 0 = x := by
        simp only [row, List.getD_eq_getElem?_getD, List.getElem?_map]
        rw [List.getElem?_eq_getElem (by omega), Option.map_some, hx]; rfl
      have ey : (row line r).getD (j + 1) 0 = y := by
        simp only [row, List.getD_eq_getElem?_getD, List.getElem?_map]
        rw [List.getElem?_eq_getElem (by omega), Option.map_some, hy]; rfl
      rw [ex, ey]

theorem full_counts (lines : List (List (List ℚ))) : (lines.map List.length).filter (· ≠ 0) = (full lines).map List.length := by
  unfold full
  induction lines with
  | nil => rfl
  | cons l ls ih => cases l <;> simp_all

end SL

/-- C220: what is drawn are the vertices of each line with the next one of the same line, line by line, and each has the scalars of the first of the two. The
lines are refined if asked for, vertices and scalars alike. -/
theorem C220_segments_partial (scipy : Bool) (junk junk' : Nat → ℚ) (s : ℚ) (d m : Nat) (lines scals : List (List (List ℚ)))
    (hlen : scals.map List.length = lines.map List.length) (hd : ∀ l ∈ lines, ∀ v ∈ l, v.length = d) (hm : ∀ l ∈ scals, ∀ v ∈ l, v.length = m)
    (h1 : scipy = true → (∀ l ∈ lines, l.length ≠ 1) ∨ (d ≤ 1 ∧ m ≤ 1)) :
    ∃ F G : List (List (List ℚ)),
      prep scipy junk junk' s d m (lines.map List.length) lines.flatten scals.flatten = ⟨F.flatten, F.flatMap pairs, G.flatMap List.dropLast⟩ ∧
      (s ≤ 0 → F = lines ∧ G = scals) ∧
      (0 < s → List.Forall₂ (Refines s) (lines.filter (· ≠ [])) F ∧ List.Forall₂ (Refines s) (scals.filter (· ≠ [])) G) := by
  have hN : lines.flatten.length = (lines.map List.length).sum := List.length_flatten
  have hN' : scals.flatten.length = (lines.map List.length).sum := by rw [List.length_flatten, hlen]
  have hst : lineStart lines.flatten.length (connections (lines.map List.length)) = SL.S 0 (lines.map List.length) := by
    rw [← SL.starts_eq, hN]; unfold lineStart; rw [List.range_eq_range']
    exact List.filter_congr fun i _ => decide_eq_decide.2 Iff.rfl
  by_cases hs : 0 < s
  · refine ⟨(SL.full lines).map (fineLine scipy junk s d), (SL.full scals).map (fineLine scipy junk' s m), ?_, fun h => absurd hs (not_lt.2 h), fun _ => ?_⟩
    · have e1 := SL.slice_eq [] lines
      have e2 := SL.slice_eq [] scals
      have e3 := SL.counts_eq 0 (lines.map List.length)
      simp only [List.nil_append, List.length_nil, Nat.zero_add] at e1 e2 e3
      rw [hN', hlen] at e2
      rw [← hN] at e2
      rw [← hN] at e3
      have hc : fineConn s ((lines.map List.length).filter (· ≠ 0)) = ((firstIdx 0 (((SL.full lines).map (fineLine scipy junk s d)).map List.length)).zip
          (((SL.full lines).map (fineLine scipy junk s d)).map List.length)).flatMap fun p => (List.range (p.2 - 1)).map fun k => (p.1 + k, p.1 + 1 + k) := by
        rw [SL.fineConn_eq, SL.full_counts]
        simp only [List.map_map]
        have : (nFine s ∘ List.length) = (List.length ∘ fineLine scipy junk s d) := by funext l; simp [SL.fine_length]
        rw [this]
      have hc' : fineConn s ((lines.map List.length).filter (· ≠ 0)) = ((firstIdx 0 (((SL.full scals).map (fineLine scipy junk' s m)).map List.length)).zip
          (((SL.full scals).map (fineLine scipy junk' s m)).map List.length)).flatMap fun p => (List.range (p.2 - 1)).map fun k => (p.1 + k, p.1 + 1 + k) := by
        rw [SL.fineConn_eq, ← hlen, SL.full_counts]
        simp only [List.map_map]
        have : (nFine s ∘ List.length) = (List.length ∘ fineLine scipy junk' s m) := by funext l; simp [SL.fine_length]
        rw [this]
      have g1 := SL.segs_eq [] ((SL.full lines).map (fineLine scipy junk s d))
      have g2 := SL.scal_eq [] ((SL.full scals).map (fineLine scipy junk' s m))
      simp only [List.nil_append, List.length_nil] at g1 g2
      rw [← hc] at g1
      rw [← hc'] at g2
      unfold prep
      simp only [hst, lineStop, gt_iff_lt, hs, if_true]
      rw [e1, e2, e3, g1, g2]
    · constructor
      · show List.Forall₂ (Refines s) (SL.full lines) _
        rw [List.forall₂_map_right_iff, List.forall₂_same]
        intro l hl
        obtain ⟨hl1, hl2⟩ := List.mem_filter.1 hl
        have hne : l ≠ [] := by simpa using hl2
        apply SL.refines _ _ _ _ _ hs hne (hd l hl1)
        intro hsc
        rcases h1 hsc with h | h
        · left; have := h l hl1; have := List.length_pos_iff.2 hne; omega
        · exact .inr h.1
      · show List.Forall₂ (Refines s) (SL.full scals) _
        rw [List.forall₂_map_right_iff, List.forall₂_same]
        intro l hl
        obtain ⟨hl1, hl2⟩ := List.mem_filter.1 hl
        have hne : l ≠ [] := by simpa using hl2
        apply SL.refines _ _ _ _ _ hs hne (hm l hl1)
        intro hsc
        rcases h1 hsc with h | h
        · left
          have hmem : l.length ∈ lines.map List.length := by rw [← hlen]; exact List.mem_map.2 ⟨l, hl1, rfl⟩
          obtain ⟨l', hl', e⟩ := List.mem_map.1 hmem
          have := h l' hl'; have := List.length_pos_iff.2 hne; omega
        · exact .inr h.2
  · refine ⟨lines, scals, ?_, fun _ => ⟨rfl, rfl⟩, fun h => absurd h hs⟩
    have g1 := SL.segs_eq [] lines
    have g2 := SL.scal_eq [] scals
    simp only [List.nil_append, List.length_nil] at g1 g2
    rw [hlen] at g2
    rw [← SL.conn_seg] at g1 g2
    unfold prep
    simp only [gt_iff_lt, hs, if_false]
    rw [g1, g2]

/-- C220: with a whole number of parts of each segment all vertices of the line are vertices of the fine one. -/
theorem C220_kept (s : Nat) (coarse fine : List (List ℚ)) (h : Refines (s : ℚ) coarse fine) (hs : 0 < s) (d : Nat) (hd : ∀ v ∈ coarse, v.length = d)
    (j : Nat) (v : List ℚ) (hj : coarse[j]? = some v) : fine[s * j]? = some v := by
  obtain ⟨hjl, hv⟩ := List.getElem?_eq_some_iff.1 hj
  have hlen : fine.length = s * (coarse.length - 1) + 1 := by
    have h1 := h.count
    have e : ((s : ℚ) * ((coarse.length : ℚ) - 1)) = ((s * (coarse.length - 1) : Nat) : ℚ) := by push_cast [Nat.cast_sub (show 1 ≤ coarse.length by omega)]; ring
    rw [e, Int.ceil_natCast] at h1
    exact_mod_cast h1
  have hle : s * j ≤ s * (coarse.length - 1) := Nat.mul_le_mul_left _ (by omega)
  have hlt : s * j < fine.length := by omega
  obtain ⟨u, hu⟩ : ∃ u, fine[s * j]? = some u := ⟨_, List.getElem?_eq_getElem hlt⟩
  rw [hu]
  obtain ⟨p, hp, hon⟩ := h.points _ _ hu
  have hsq : (0 : ℚ) < s := by exact_mod_cast hs
  have fl : (fine.length : ℚ) - 1 = s * ((coarse.length : ℚ) - 1) := by
    rw [hlen]; push_cast [Nat.cast_sub (show 1 ≤ coarse.length by omega)]; ring
  rw [fl] at hp
  push_cast at hp
  by_cases hc : coarse.length = 1
  · -- one vertex only
    have hj0 : j = 0 := by omega
    subst hj0
    rcases hon with ⟨i, _, hi⟩ | ⟨i, w, a, b, _, _, _, _, hb, _⟩
    · have := (List.getElem?_eq_some_iff.1 hi).1
      have : i = 0 := by omega
      subst this; rw [← hi, hj]
    · have := (List.getElem?_eq_some_iff.1 hb).1; omega
  · have hcq : (0 : ℚ) < (coarse.length : ℚ) - 1 := by
      have : (2 : ℚ) ≤ coarse.length := by exact_mod_cast (show 2 ≤ coarse.length by omega)
      linarith
    have hpj : p = j := by
      have : (s * ((coarse.length : ℚ) - 1)) * p = (s * ((coarse.length : ℚ) - 1)) * j := by linarith
      exact mul_left_cancel₀ (ne_of_gt (mul_pos hsq hcq)) this
    subst hpj
    rcases hon with ⟨i, e, hi⟩ | ⟨i, w, a, b, e, w0, w1, ha, hb, hl, hr⟩
    · have : j = i := by exact_mod_cast e
      subst this; rw [← hi, hj]
    · have hda := hd a (List.mem_of_getElem? ha)
      have hdb := hd b (List.mem_of_getElem? hb)
      have hij : j = i ∨ j = i + 1 := by
        have l1 : (i : ℚ) ≤ j := by linarith
        have l2 : (j : ℚ) ≤ ((i + 1 : Nat) : ℚ) := by push_cast; linarith
        have l1 : i ≤ j := by exact_mod_cast l1
        have l2 : j ≤ i + 1 := by exact_mod_cast l2
        omega
      congr 1
      rcases hij with rfl | rfl
      · have hw : w = 0 := by linarith
        have hav : a = v := by rw [ha] at hj; exact Option.some.inj hj
        subst hav
        apply List.ext_getElem?
        intro r
        by_cases hrd : r < d
        · rw [hr r a[r] b[r] (List.getElem?_eq_getElem (by omega)) (List.getElem?_eq_getElem (by omega)), List.getElem?_eq_getElem (by omega), hw]
          congr 1; ring
        · rw [List.getElem?_eq_none (by omega), List.getElem?_eq_none (by omega)]
      · have hw : w = 1 := by push_cast at e; linarith
        have hbv : b = v := by rw [hb] at hj; exact Option.some.inj hj
        subst hbv
        apply List.ext_getElem?
        intro r
        by_cases hrd : r < d
        · rw [hr r a[r] b[r] (List.getElem?_eq_getElem (by omega)) (List.getElem?_eq_getElem (by omega)), List.getElem?_eq_getElem (by omega), hw]
          congr 1; ring
        · rw [List.getElem?_eq_none (by omega), List.getElem?_eq_none (by omega)]

/-- C220 is false: of a line of one vertex only the first coordinate is kept, the others are whatever is in memory (and limits of axes are set to show them). -/
theorem C220_single_violated (junk junk' : Nat → ℚ) (s : ℚ) (hs : 0 < s) (x y z : ℚ) :
    (prep true junk junk' s 3 0 [1] [[x, y, z]] [[]]).verts = [[x, junk 1, junk 2]] := by
  have e : lineStart 1 (connections [1]) = [0] := by decide +kernel
  unfold prep
  simp only [gt_iff_lt, hs, if_true, List.length_cons, List.length_nil, Nat.zero_add, e, lineStop]
  simp [slices, fineLine, row, List.range_succ]

example : Refines 2 [[0, 0], [2, 4]] [[0, 0], [1, 2], [2, 4]] := by
  refine ⟨by norm_num, ?_⟩
  intro k v hk
  match k with
  | 0 => exact ⟨0, by norm_num, .inl ⟨0, by norm_num, by simpa using hk⟩⟩
  | 1 =>
    refine ⟨1 / 2, by norm_num, .inr ⟨0, 1 / 2, _, _, by norm_num, by norm_num, by norm_num, rfl, rfl, ?_, ?_⟩⟩
    · simp at hk; subst hk; rfl
    · intro r x y hx hy
      simp at hk; subst hk
      match r with
      | 0 => simp at hx hy; subst hx hy; norm_num
      | 1 => simp at hx hy; subst hx hy; norm_num
      | r + 2 => simp at hx
  | 2 => exact ⟨1, by norm_num, .inl ⟨1, by norm_num, by simpa using hk⟩⟩
  | k + 3 => simp at hk

end Viscid.Props
