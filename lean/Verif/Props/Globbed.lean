import Verif.Spec.Globbed
import Verif.Props.Select
import Verif.Lemmas.Interior
import Verif.Lemmas.LazySlice
/-!
# C144 slices of file names
-/
namespace Viscid.Props
open Viscid.Globbed Viscid.Spec.Globbed Viscid.Spec.Slice Viscid.Select Viscid.Spec.Select

theorem sorted_perm (files : List File) : (sorted files).Perm (numbered files) := List.perm_insertionSort _ _

theorem sorted_order (files : List File) : (sorted files).Pairwise fun a b => a.2 ≤ b.2 := by
  have : IsTotal (String × ℚ) fun a b => a.2 ≤ b.2 := ⟨fun a b => le_total a.2 b.2⟩
  have : IsTrans (String × ℚ) fun a b => a.2 ≤ b.2 := ⟨fun a b c h h' => le_trans h h'⟩
  exact List.pairwise_insertionSort _ _

theorem mem_numbered (files : List File) (n : String) (x : ℚ) : (n, x) ∈ numbered files ↔ ⟨n, some x⟩ ∈ files := by
  unfold numbered
  simp only [List.mem_filterMap, Option.map_eq_some_iff, Prod.mk.injEq]
  constructor
  · rintro ⟨⟨m, y⟩, hf, z, rfl, rfl, rfl⟩; exact hf
  · intro h; exact ⟨_, h, x, rfl, rfl, rfl⟩

theorem length_numbered (files : List File) : (files.filter fun f => f.num.isSome).length = (numbered files).length := by
  unfold numbered
  induction files with
  | nil => rfl
  | cons f r ih =>
    obtain ⟨n, x⟩ := f
    cases x <;> simp [ih]

theorem inOrder_sorted (files : List File) : InOrder files (sorted files) :=
  ⟨fun n x => by rw [(sorted_perm files).mem_iff, mem_numbered], by rw [length_numbered, (sorted_perm files).length_eq], sorted_order files⟩

theorem filter_range (n : Nat) (l : List Nat) (hl : l.Pairwise (· < ·)) (hn : ∀ i ∈ l, i < n) :
    (List.range n).filter (fun i => decide (i ∈ l)) = l := by
  have hp : ((List.range n).filter (fun i => decide (i ∈ l))).Perm l := by
    rw [List.perm_ext_iff_of_nodup (List.nodup_range.filter _) (hl.imp fun h => Nat.ne_of_lt h)]
    intro a
    simp only [List.mem_filter, List.mem_range, decide_eq_true_eq]
    exact ⟨fun h => h.2, fun h => ⟨hn a h, h⟩⟩
  exact hp.eq_of_pairwise (fun a b _ _ h h' => absurd (Nat.lt_trans h h') (Nat.lt_irrefl _)) (List.Pairwise.filter _ List.pairwise_lt_range) hl

theorem pyIndices_pairwise (n : Nat) (a b : Option Int) (d : Int) (hd : d ≠ 0) :
    (pyIndices n a b d).Pairwise fun x y => if d > 0 then x < y else y < x := by
  have hap : ∀ A k, (ap A d k).Pairwise fun x y => if d > 0 then x < y else y < x := by
    intro A k
    unfold ap
    rw [List.pairwise_map]
    refine List.pairwise_lt_range.imp fun {i j} h => ?_
    have : (i : Int) < j := by omega
    split
    · have := Int.mul_lt_mul_of_pos_right this (show 0 < d by omega); omega
    · have := Int.mul_lt_mul_of_neg_right this (show d < 0 by omega); omega
  unfold pyIndices pyRange
  split
  · rename_i h; have := hap; simp only [if_pos h] at this; exact this _ _
  · rename_i h; have := hap; simp only [if_neg h] at this; exact this _ _

theorem kept (n : Nat) (idx : List Int) (hin : ∀ x ∈ idx, 0 ≤ x ∧ x < n) (hp : idx.Pairwise (· < ·) ∨ idx.Pairwise fun x y => y < x) :
    (List.range n).filter (fun (i : Nat) => decide ((i : Int) ∈ idx)) =
      (if idx.Pairwise (· < ·) then idx else idx.reverse).map Int.toNat := by
  have key : ∀ l : List Int, l.Pairwise (· < ·) → (∀ x ∈ l, 0 ≤ x ∧ x < n) →
      (List.range n).filter (fun (i : Nat) => decide ((i : Int) ∈ l)) = l.map Int.toNat := by
    intro l hl hin
    have : (List.range n).filter (fun (i : Nat) => decide ((i : Int) ∈ l)) = (List.range n).filter (fun (i : Nat) => decide (i ∈ l.map Int.toNat)) := by
      refine List.filter_congr fun i _ => ?_
      congr 1
      rw [List.mem_map, eq_iff_iff]
      constructor
      · intro h; exact ⟨i, h, by simp⟩
      · rintro ⟨x, hx, rfl⟩
        rw [Int.toNat_of_nonneg (hin x hx).1]; exact hx
    rw [this]
    refine filter_range n _ ?_ ?_
    · rw [List.pairwise_map]
      refine hl.imp_of_mem fun {x y} hx hy h => ?_
      have := hin x hx; have := hin y hy
      omega
    · intro i hi
      obtain ⟨x, hx, rfl⟩ := List.mem_map.mp hi
      have := hin x hx
      omega
  split
  · rename_i h; exact key idx h hin
  · rename_i h
    have h' := hp.resolve_left h
    rw [← key idx.reverse (List.pairwise_reverse.mpr h') (fun x hx => hin x (List.mem_reverse.mp hx))]
    refine List.filter_congr fun i _ => ?_
    simp

/-- a bound that is an index -/
def ofIdx : Option Int → Bound
  | none => .none
  | some i => .idx i

/-- C144: a slice by index, with a positive step, is that of the files in the order of their numbers; files without a number are left out. -/
theorem C144_indices_partial (files : List File) (hne : files ≠ []) (a b : Option Int) (step : Option Int) (hs : 0 < step.getD 1) :
    ∃ s, InOrder files s ∧ sliceGlobbed files (.slice (ofIdx a) (ofIdx b) step) =
      .ok ((pyIndices s.length a b (step.getD 1)).filterMap fun i => (s.map Prod.fst)[i.toNat]?) := by
  refine ⟨sorted files, inOrder_sorted files, ?_⟩
  have hsel : selSlice ((sorted files).map Prod.snd) true (ofIdx a) (ofIdx b) step = .ok ⟨a, b, step⟩ := by
    cases a <;> cases b <;> simp [selSlice, ofIdx, startIdx, stopIdx]
  have h0 : step ≠ some 0 := by rintro rfl; simp at hs
  have hpw := pyIndices_pairwise (sorted files).length a b (step.getD 1) (by omega)
  simp only [if_pos (show step.getD 1 > 0 from hs)] at hpw
  unfold sliceGlobbed
  rw [if_neg hne]
  simp only [whitelist, hsel, Globbed.positions, if_neg h0, List.length_map]
  rw [kept _ _ (fun x hx => LazySlice.mem_pyIndices _ a b _ (by omega) x hx) (.inl hpw), if_pos hpw, List.filterMap_map]
  rfl

/-- C144 is false of negative steps: the files are those of the slice, but in increasing order nevertheless -/
theorem C144_backward_violated (files : List File) (hne : files ≠ []) (a b : Option Int) (step : Int) (hs : step < 0) :
    ∃ s, InOrder files s ∧ sliceGlobbed files (.slice (ofIdx a) (ofIdx b) (some step)) =
      .ok ((pyIndices s.length a b step).filterMap fun i => (s.map Prod.fst)[i.toNat]?).reverse := by
  refine ⟨sorted files, inOrder_sorted files, ?_⟩
  have hsel : selSlice ((sorted files).map Prod.snd) true (ofIdx a) (ofIdx b) (some step) = .ok ⟨a, b, some step⟩ := by
    cases a <;> cases b <;> simp [selSlice, ofIdx, startIdx, stopIdx]
  have h0 : some step ≠ some 0 := by simp; omega
  have hpw := pyIndices_pairwise (sorted files).length a b step (by omega)
  simp only [if_neg (show ¬ step > 0 by omega)] at hpw
  unfold sliceGlobbed
  rw [if_neg hne]
  simp only [whitelist, hsel, Globbed.positions, if_neg h0, List.length_map, Option.getD_some]
  rw [kept _ _ (fun x hx => LazySlice.mem_pyIndices _ a b _ (by omega) x hx) (.inr hpw), List.filterMap_map]
  split
  · rename_i h
    -- increasing and decreasing: no more than one
    have : pyIndices (sorted files).length a b step = (pyIndices (sorted files).length a b step).reverse := by
      generalize pyIndices (sorted files).length a b step = l at *
      match l with
      | [] => rfl
      | [x] => rfl
      | x :: y :: r =>
        have h1 := (List.pairwise_cons.mp h).1 y (by simp)
        have h2 := (List.pairwise_cons.mp hpw).1 y (by simp)
        omega
    rw [← List.filterMap_reverse, ← this]
    rfl
  · rw [← List.filterMap_reverse]
    rfl

theorem distinct_sorted {files : List File} (h : Distinct files) : ((sorted files).map Prod.snd).Pairwise (· < ·) := by
  have hn : ((sorted files).map Prod.snd).Nodup := by
    have hp := (sorted_perm files).map Prod.snd
    rw [hp.nodup_iff]
    have : (numbered files).map Prod.snd = files.filterMap File.num := by
      unfold numbered
      rw [List.map_filterMap]
      refine List.filterMap_congr fun f _ => ?_
      cases f.num <;> rfl
    rw [this]; exact h
  have ho : ((sorted files).map Prod.snd).Pairwise (· ≤ ·) := by
    rw [List.pairwise_map]; exact sorted_order files
  exact (ho.and hn).imp fun h => lt_of_le_of_ne h.1 h.2

theorem gap {a : List ℚ} (ha : a.Pairwise (· < ·)) (hl : 1 < a.length) (x y : ℚ) (hx : x ∈ a) (hy : y ∈ a) (h : x < y) :
    10000 * tolOf a ≤ y - x := by
  unfold tolOf
  rw [if_pos hl]
  obtain ⟨i, hi, rfl⟩ := List.getElem_of_mem hx
  obtain ⟨j, hj, rfl⟩ := List.getElem_of_mem hy
  have hij : i < j := by
    rcases Nat.lt_trichotomy i j with h1 | rfl | h1
    · exact h1
    · exact absurd h (lt_irrefl _)
    · exact absurd (List.pairwise_iff_getElem.mp ha j i hj hi h1) (not_lt.mpr h.le)
  have h1 := minDiff_le a i a[i] a[i + 1] (List.getElem?_eq_getElem hi) (List.getElem?_eq_getElem (by omega))
  have h2 : a[i + 1] ≤ a[j] := by
    rcases Nat.lt_or_eq_of_le (show i + 1 ≤ j by omega) with h | h
    · exact (List.pairwise_iff_getElem.mp ha (i + 1) j (by omega) hj h).le
    · simp [h]
  linarith

/-- C144: of files with different numbers, more than one, a slice by value has all files between the values, in order. It has no others,
    except for a tolerance of a ten thousandth of the distance between any two numbers. -/
theorem C144_values_partial (files : List File) (hd : Distinct files) (h2 : 1 < (files.filterMap File.num).length) (start stop : Option ℚ) :
    ∃ (r : List (String × ℚ)) (tol : ℚ), sliceGlobbed files (.slice (ofVal start) (ofVal stop) none) = .ok (r.map Prod.fst) ∧
      (r.Pairwise fun a b => a.2 < b.2) ∧
      (∀ n x, ⟨n, some x⟩ ∈ files → above start x → below stop x → (n, x) ∈ r) ∧
      (∀ n x, (n, x) ∈ r → ⟨n, some x⟩ ∈ files ∧ above (start.map (· - tol)) x ∧ below (stop.map (· + tol)) x) ∧
      ∀ m n x y, ⟨m, some x⟩ ∈ files → ⟨n, some y⟩ ∈ files → x < y → 10000 * tol ≤ y - x := by
  have hlen : (sorted files).length = (files.filterMap File.num).length := by
    rw [← (inOrder_sorted files).once]
    clear hd h2
    induction files with
    | nil => rfl
    | cons f r ih => obtain ⟨n, x⟩ := f; cases x <;> simp [ih]
  have hne : files ≠ [] := by rintro rfl; simp at h2
  have hs := distinct_sorted hd
  have hne' : (sorted files).map Prod.snd ≠ [] := by
    intro h
    have := congrArg List.length h
    simp only [List.length_map, List.length_nil] at this
    omega
  obtain ⟨slc, e1, sel, e2, hsel, hin, hall⟩ := C15_forward_guarantee _ hs hne' start stop
  have hstep : slc.step = none := by
    unfold selSlice at e1
    rw [if_neg (fun h => hne' h.1)] at e1
    simp only [Option.getD_none] at e1
    have hst : ∃ st, startIdx ((sorted files).map Prod.snd) 1 (ofVal start) = some st := by
      cases start with
      | none => exact ⟨_, rfl⟩
      | some v =>
        simp only [ofVal, startIdx, show (1 : Int) > 0 from by decide, if_true]
        split
        · exact ⟨_, rfl⟩
        · exact ⟨_, rfl⟩
    obtain ⟨st, hst⟩ := hst
    rw [hst] at e1
    injection e1 with e1
    rw [← e1]
  refine ⟨sel.filterMap fun i => (sorted files)[i]?, tolOf ((sorted files).map Prod.snd), ?_, ?_, ?_, ?_, ?_⟩
  · unfold sliceGlobbed
    rw [if_neg hne]
    simp only [whitelist, e1, Globbed.positions, hstep, reduceCtorEq, if_false, Option.getD_none]
    rw [e2]
    have hb : ∀ i ∈ sel, i < (sorted files).length := by
      intro i hi
      obtain ⟨x, hx, _⟩ := hin i hi
      simpa using (List.getElem?_eq_some_iff.mp hx).1
    have : ((List.range (sorted files).length).filter fun (i : Nat) => decide ((i : Int) ∈ sel.map fun (i : Nat) => (i : Int))) = sel := by
      have h1 := filter_range (sorted files).length sel hsel hb
      have h2 : ((List.range (sorted files).length).filter fun (i : Nat) => decide ((i : Int) ∈ sel.map fun (i : Nat) => (i : Int))) =
          (List.range (sorted files).length).filter fun (i : Nat) => decide (i ∈ sel) := by
        refine List.filter_congr fun i _ => ?_
        simp
      rw [h2, h1]
    rw [this, List.map_filterMap]
    simp
  · rw [List.pairwise_filterMap]
    refine hsel.imp fun {i j} hij p hp q hq => ?_
    obtain ⟨hi, rfl⟩ := List.getElem?_eq_some_iff.mp hp
    obtain ⟨hj, rfl⟩ := List.getElem?_eq_some_iff.mp hq
    have := List.pairwise_iff_getElem.mp hs i j (by simpa using hi) (by simpa using hj) hij
    simpa using this
  · intro n x hf ha hb
    rw [← (inOrder_sorted files).mem] at hf
    obtain ⟨i, hi, he⟩ := List.getElem_of_mem hf
    have := hall i x (by rw [List.getElem?_map, List.getElem?_eq_getElem hi, he]; rfl) ha hb
    exact List.mem_filterMap.mpr ⟨i, this, by rw [List.getElem?_eq_getElem hi, he]⟩
  · intro n x hx
    obtain ⟨i, hi, he⟩ := List.mem_filterMap.mp hx
    obtain ⟨y, hy, h1, h2⟩ := hin i hi
    rw [List.getElem?_map, he] at hy
    injection hy with hy
    simp only at hy
    subst hy
    exact ⟨((inOrder_sorted files).mem n _).mp (List.mem_of_getElem? he), h1, h2⟩
  · intro m n x y hm hn hxy
    rw [← (inOrder_sorted files).mem] at hm hn
    exact gap hs (by rw [List.length_map, hlen]; exact h2) x y (List.mem_map.mpr ⟨_, hm, rfl⟩) (List.mem_map.mpr ⟨_, hn, rfl⟩) hxy

/-- C144: a single value is the file whose number is closest -/
theorem C144_closest (files : List File) (n0 : String) (x0 : ℚ) (h0 : ⟨n0, some x0⟩ ∈ files) (v : ℚ) :
    ∃ n x, sliceGlobbed files (.value v) = .ok [n] ∧ ⟨n, some x⟩ ∈ files ∧ ∀ m y, ⟨m, some y⟩ ∈ files → |x - v| ≤ |y - v| := by
  have hne : files ≠ [] := by rintro rfl; simp at h0
  have hne' : (sorted files).map Prod.snd ≠ [] := by
    intro h
    have := ((inOrder_sorted files).mem n0 x0).mpr h0
    rw [List.map_eq_nil_iff] at h
    rw [h] at this; simp at this
  obtain ⟨i, x, e, hx, hmin⟩ := C15_nearest _ v hne'
  rw [List.getElem?_map, Option.map_eq_some_iff] at hx
  obtain ⟨⟨n, x'⟩, hi, rfl⟩ := hx
  refine ⟨n, x', ?_, ((inOrder_sorted files).mem n x').mp (List.mem_of_getElem? hi), ?_⟩
  · have hlt : i < (sorted files).length := (List.getElem?_eq_some_iff.mp hi).1
    unfold sliceGlobbed
    rw [if_neg hne]
    simp only [whitelist, e]
    have : ((List.range (sorted files).length).filter fun (j : Nat) => decide ((j : Int) ∈ [(i : Int)])) = [i] := by
      have h1 := filter_range (sorted files).length [i] (by simp) (by simpa using hlt)
      have h2 : ((List.range (sorted files).length).filter fun (j : Nat) => decide ((j : Int) ∈ [(i : Int)])) =
          (List.range (sorted files).length).filter fun (j : Nat) => decide (j ∈ [i]) := by
        refine List.filter_congr fun j _ => ?_
        simp
      rw [h2, h1]
    rw [this]
    simp [hi]
  · intro m y hm
    rw [← (inOrder_sorted files).mem] at hm
    obtain ⟨j, hj, he⟩ := List.getElem_of_mem hm
    exact (hmin j y (by rw [List.getElem?_map, List.getElem?_eq_getElem hj, he]; rfl)).1

/-- C144: of files with different numbers, what is found does not depend on the order in which the directory is read -/
theorem C144_listing (files files' : List File) (hp : files.Perm files') (hd : Distinct files) (sel : Sel) :
    sliceGlobbed files sel = sliceGlobbed files' sel := by
  have hs : sorted files = sorted files' := by
    have hd' : Distinct files' := by
      unfold Distinct at hd ⊢
      exact (hp.filterMap _).nodup_iff.mp hd
    have h1 := distinct_sorted hd
    have h2 := distinct_sorted hd'
    rw [List.pairwise_map] at h1 h2
    have : (sorted files).Perm (sorted files') :=
      (sorted_perm files).trans ((hp.filterMap _).trans (sorted_perm files').symm)
    exact this.eq_of_pairwise (fun a b _ _ h h' => absurd (lt_trans h h') (lt_irrefl _)) h1 h2
  have he : files = [] ↔ files' = [] := ⟨fun h => by subst h; exact hp.nil_eq.symm, fun h => by subst h; exact hp.eq_nil⟩
  unfold sliceGlobbed
  simp only [hs, he]

/-- C144: no files are an IOError, and a position that there is none of is an IndexError -/
theorem C144_errors (files : List File) (sel : Sel) (i : Int) :
    sliceGlobbed [] sel = .error .io ∧
    (files ≠ [] → (((files.filterMap File.num).length : Int) ≤ i ∨ i < - ((files.filterMap File.num).length : Int)) →
      sliceGlobbed files (.index i) = .error .index) := by
  refine ⟨rfl, fun hne hi => ?_⟩
  have hlen : (sorted files).length = (files.filterMap File.num).length := by
    rw [← (inOrder_sorted files).once]
    clear hi hne
    induction files with
    | nil => rfl
    | cons f r ih => obtain ⟨n, x⟩ := f; cases x <;> simp [ih]
  rw [← hlen] at hi
  unfold sliceGlobbed
  rw [if_neg hne]
  simp only [whitelist, List.length_map]
  rw [if_neg (by omega), if_neg (by omega)]

/-- C144: an index is that of the files in the order of their numbers, from the end if it is negative; a step of zero is a ValueError -/
theorem C144_index (files : List File) (a b : Option Int) :
    ∃ s, InOrder files s ∧
      (∀ (i : Nat) n x, s[i]? = some (n, x) → sliceGlobbed files (.index i) = .ok [n] ∧
        sliceGlobbed files (.index ((i : Int) - s.length)) = .ok [n]) ∧
      (files ≠ [] → sliceGlobbed files (.slice (ofIdx a) (ofIdx b) (some 0)) = .error .value) := by
  refine ⟨sorted files, inOrder_sorted files, ?_, ?_⟩
  · intro i n x hi
    have hlt : i < (sorted files).length := (List.getElem?_eq_some_iff.mp hi).1
    have hne : files ≠ [] := by
      rintro rfl
      exact absurd hlt (by simp [sorted, numbered])
    have h2 : ((List.range (sorted files).length).filter fun (j : Nat) => decide ((j : Int) ∈ [(i : Int)])) = [i] := by
      rw [← filter_range (sorted files).length [i] (by simp) (by simpa using hlt)]
      simp
    have hf : (([i] : List Nat).filterMap fun i => ((sorted files).map Prod.fst)[i]?) = [n] := by simp [hi]
    unfold sliceGlobbed
    simp only [if_neg hne, whitelist, List.length_map]
    rw [if_pos (by omega), if_neg (by omega), if_pos (by omega)]
    simp only [show (i : Int) - (sorted files).length + (sorted files).length = i by omega, h2, hf, and_self]
  · intro hne
    have hsel : selSlice ((sorted files).map Prod.snd) true (ofIdx a) (ofIdx b) (some 0) = .ok ⟨a, b, some 0⟩ := by
      cases a <;> cases b <;> simp [selSlice, ofIdx, startIdx, stopIdx]
    unfold sliceGlobbed
    rw [if_neg hne]
    simp only [whitelist, hsel, Globbed.positions, if_true]

/-- the files of the documentation -/
def docFiles : List File := [⟨"file.040.txt", some 40⟩, ⟨"file.txt", none⟩, ⟨"file.010.txt", some 10⟩, ⟨"file.030.txt", some 30⟩,
  ⟨"file.020.txt", some 20⟩]

/-- C144: a pattern with one number in brackets, with two, either of which may be missing, or with three, of which the first may be missing
    and the last is an integer, is that slice -/
theorem C144_pattern (plain : List String) (files : List File) (hne : files ≠ []) (i : Int) (v : ℚ) (a b : Part) (x y : Bound)
    (ha : Means a x) (hb : Means b y) :
    expand plain files [.idx i] = sliceGlobbed files (.index i) ∧
    expand plain files [.val v] = sliceGlobbed files (.value v) ∧
    expand plain files [a, b] = sliceGlobbed files (.slice x y none) ∧
    (b ≠ .empty → expand plain files [a, b, .idx i] = sliceGlobbed files (.slice x y (some i))) := by
  have ha : toBound a = x := by cases ha <;> rfl
  have hb : toBound b = y := by cases hb <;> rfl
  subst ha hb
  refine ⟨?_, ?_, ?_, ?_⟩
  · simp [expand, recognised, standard, hne]
  · simp [expand, recognised, standard, hne]
  · simp [expand, recognised, standard, hne]
  · intro hb
    cases b <;> simp_all [expand, recognised, standard]

/-- C144 is false of slices with a step but no stop, as in `[::2]` or `[10.0j::2]`, the second example of the documentation: they are not
    slices at all, but whatever the brackets are to `glob`, in the order of the directory. -/
theorem C144_step_violated (plain : List String) (files : List File) (a c : Part) : expand plain files [a, .empty, c] = .ok plain := rfl

/-- C144: of an empty slice, `[]`, there is an IndexError -/
theorem C144_empty (plain : List String) (files : List File) (hne : files ≠ []) : expand plain files [.empty] = .error .index := by
  simp [expand, recognised, standard, hne]

/-- C144: the first example of the documentation is as it says … -/
example : expand [] docFiles [.empty, .idx 2] = .ok ["file.010.txt", "file.020.txt"] ∧
    expand [] docFiles [.val 10, .val 40, .idx 2] = .ok ["file.010.txt", "file.030.txt"] := by decide +kernel

/-- … but the third, `[20j:2]`, is not: it says 020 and 040 -/
theorem C144_example_violated : expand [] docFiles [.val 20, .idx 2] = .ok ["file.020.txt"] := by decide +kernel

/-- … and `[-1:-5:-1]` is the files in increasing order -/
theorem C144_reversed_violated : expand [] docFiles [.idx (-1), .idx (-5), .idx (-1)] =
    .ok ["file.010.txt", "file.020.txt", "file.030.txt", "file.040.txt"] := by decide +kernel

example : Distinct docFiles ∧ 1 < (docFiles.filterMap File.num).length := by
  unfold Distinct; decide +kernel

end Viscid.Props
