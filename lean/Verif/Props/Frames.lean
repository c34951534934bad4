import Verif.Spec.Frames
import Verif.Props.Arith
/-!
# C167: tables of fields
-/
namespace Viscid.Props
open Viscid.Frames Viscid.Spec.Frames
open Viscid.Spec.Arith (Within)
open Viscid.Layout (prod)

theorem prod_foldr (s : List Nat) : s.foldr (· * ·) 1 = prod s := rfl

/-- the entries of the concatenation of lists of the same length -/
theorem frFlatMap_get (f : α → List β) (m : Nat) : ∀ (l : List α) (_ : ∀ x ∈ l, (f x).length = m) (i r : Nat), r < m →
    (l.flatMap f)[i * m + r]? = (l[i]?).bind fun x => (f x)[r]?
  | [], _, i, r, _ => by simp
  | a :: l, h, i, r, hr => by
    have ha : (f a).length = m := h a (by simp)
    cases i with
    | zero =>
      rw [List.flatMap_cons, Nat.zero_mul, Nat.zero_add, List.getElem?_append_left (by omega)]
      rfl
    | succ i =>
      have e : (i + 1) * m + r = m + (i * m + r) := by rw [Nat.add_mul, Nat.one_mul]; omega
      rw [List.flatMap_cons, List.getElem?_append_right (by omega), ha, e, Nat.add_sub_cancel_left,
        frFlatMap_get f m l (fun x hx => h x (by simp [hx])) i r hr]
      rfl

theorem flatMap_length (f : α → List β) (m : Nat) : ∀ (l : List α) (_ : ∀ x ∈ l, (f x).length = m), (l.flatMap f).length = l.length * m
  | [], _ => by simp
  | a :: l, h => by
    rw [List.flatMap_cons, List.length_append, h a (by simp), flatMap_length f m l (fun x hx => h x (by simp [hx])), List.length_cons, Nat.add_mul,
      Nat.one_mul, Nat.add_comm]

theorem replicate_flatten (n : Nat) (c : List β) : (List.replicate n c).flatten = (List.range n).flatMap fun _ => c := by
  rw [List.flatMap_def]
  congr 1
  rw [List.map_const', List.length_range]

theorem mesh_length (l : List (List β)) : (mesh l).length = l.length := by
  induction l with
  | nil => rfl
  | cons a l ih => simp [mesh, ih]

theorem mesh_col_length : ∀ (l : List (List β)) (c : List β), c ∈ mesh l → c.length = prod (l.map List.length)
  | [], c, h => by simp [mesh] at h
  | a :: l, c, h => by
    simp only [mesh, List.mem_cons, List.mem_map] at h
    rw [List.map_cons, prod_cons]
    rcases h with rfl | ⟨d, hd, rfl⟩
    · exact flatMap_length _ _ a (fun x _ => by simp)
    · rw [replicate_flatten, flatMap_length _ (prod (l.map List.length)) _ (fun x _ => mesh_col_length l d hd), List.length_range]

theorem pos_lt : ∀ (s p : List Nat), Within s p → pos s p < prod s
  | [], [], _ => by decide
  | n :: s, i :: p, h => by
    cases h with
    | cons h1 h2 =>
      have := pos_lt s p h2
      show i * prod s + pos s p < _
      rw [prod_cons]
      have : (i + 1) * prod s ≤ n * prod s := Nat.mul_le_mul_right _ h1
      rw [Nat.add_mul, Nat.one_mul] at this
      omega

theorem pos_surj : ∀ (s : List Nat) (i : Nat), i < prod s → ∃ p, Within s p ∧ pos s p = i
  | [], i, h => ⟨[], .nil, by have : i < 1 := h; simp [pos]; omega⟩
  | n :: s, i, h => by
    rw [prod_cons] at h
    have hp : 0 < prod s := by
      rcases Nat.eq_zero_or_pos (prod s) with h0 | h0
      · rw [h0, Nat.mul_zero] at h; omega
      · exact h0
    obtain ⟨p, hp1, hp2⟩ := pos_surj s (i % prod s) (Nat.mod_lt _ hp)
    refine ⟨i / prod s :: p, .cons ?_ hp1, ?_⟩
    · exact (Nat.div_lt_iff_lt_mul hp).mpr h
    · show i / prod s * prod s + pos s p = i
      rw [hp2, Nat.mul_comm]
      exact Nat.div_add_mod _ _

/-- the columns of coordinates hold, in the row of each point, its coordinates -/
theorem mesh_get : ∀ (l : List (List β)) (p : List Nat), Within (l.map List.length) p → ∀ (k : Nat) (a : List β) (j : Nat), l[k]? = some a → p[k]? = some j →
    ∃ c x, (mesh l)[k]? = some c ∧ a[j]? = some x ∧ c[pos (l.map List.length) p]? = some x
  | [], p, _, k, a, j, h, _ => by simp at h
  | b :: l, i :: p, hw, k, a, j, hk, hj => by
    cases hw with
    | cons h1 h2 =>
      have hlt := pos_lt _ _ h2
      cases k with
      | zero =>
        simp only [List.getElem?_cons_zero, Option.some.injEq] at hk hj
        subst hk; subst hj
        refine ⟨_, b[i], rfl, List.getElem?_eq_getElem h1, ?_⟩
        show (b.flatMap _)[i * prod (l.map List.length) + pos (l.map List.length) p]? = _
        rw [frFlatMap_get _ (prod (l.map List.length)) b (fun x _ => by simp) i _ hlt, List.getElem?_eq_getElem h1]
        simp [hlt]
      | succ k =>
        simp only [List.getElem?_cons_succ] at hk hj
        obtain ⟨c, x, hc, hx, hcx⟩ := mesh_get l p h2 k a j hk hj
        refine ⟨(List.replicate b.length c).flatten, x, ?_, hx, ?_⟩
        · show ((mesh l).map _)[k]? = _
          rw [List.getElem?_map, hc]; rfl
        · show _[i * prod (l.map List.length) + pos (l.map List.length) p]? = _
          rw [replicate_flatten, frFlatMap_get _ (prod (l.map List.length)) _ (fun x _ => mesh_col_length l c (List.mem_of_getElem? hc)) i _ hlt,
            List.getElem?_range h1]
          exact hcx

theorem setAll_fresh : ∀ (l : List (String × List Cell)) (f : Frame), f.cols ≠ [] → (∀ c ∈ l, c.2.length = f.rows) → (f.names ++ l.map Prod.fst).Nodup →
    f.setAll l = .ok { f with cols := f.cols ++ l }
  | [], f, _, _, _ => by simp [Frame.setAll]
  | c :: l, f, hne, hl, hn => by
    have hset : f.set c.1 c.2 = .ok { f with cols := f.cols ++ [c] } := by
      unfold Frame.set
      rw [if_neg hne, if_neg (by simpa using hl c (by simp)), if_neg]
      intro hc
      have := (List.nodup_append.mp hn).2.2 c.1 hc c.1 (by simp)
      exact this rfl
    unfold Frame.setAll
    rw [hset]
    simp only
    rw [setAll_fresh l { f with cols := f.cols ++ [c] } (by simp) (fun d hd => hl d (by simp [hd])) (by simpa [Frame.names] using hn)]
    simp

theorem setAll_empty (c : String × List Cell) (l : List (String × List Cell)) (h : ∀ d ∈ l, d.2.length = c.2.length) (hn : ((c :: l).map Prod.fst).Nodup) :
    (Frame.mk [] []).setAll (c :: l) = .ok ⟨List.range c.2.length, c :: l⟩ := by
  unfold Frame.setAll
  have : (Frame.mk [] []).set c.1 c.2 = .ok ⟨List.range c.2.length, [c]⟩ := rfl
  rw [this]
  simp only
  rw [setAll_fresh l ⟨List.range c.2.length, [c]⟩ (by simp) (fun d hd => by simpa [Frame.rows] using h d hd) (by simpa [Frame.names] using hn)]
  simp

/-- the column of dates, if there is a base time -/
def dtPart (dtCol : String) (b : Option Cell) (t : ℚ) (n : Nat) : List (String × List Cell) :=
  match b with
  | none => []
  | some b => [(dtCol, List.replicate n (b.map fun b => b + t))]

/-- the table of a grid -/
def tabOf (timeCol dtCol : String) (axes : List (String × List Cell)) (t : ℚ) (b : Option Cell) (flds : List Fld) : Frame :=
  ⟨List.range (prod (sizes axes)), (timeCol, List.replicate (prod (sizes axes)) (some t)) :: (dtPart dtCol b t (prod (sizes axes)) ++
    ((axes.map Prod.fst).zip (mesh (axes.map Prod.snd)) ++ flds.map fun f => (f.name, f.vals)))⟩

theorem zip_fst_mesh (axes : List (String × List Cell)) : ((axes.map Prod.fst).zip (mesh (axes.map Prod.snd))).map Prod.fst = axes.map Prod.fst := by
  rw [List.map_fst_zip]
  rw [mesh_length]; simp

theorem sizes_eq (axes : List (String × List Cell)) : (axes.map Prod.snd).map List.length = sizes axes := by simp [sizes]

theorem toFrame_good {tc dc : String} {axes : List (String × List Cell)} {t : ℚ} {b : Option Cell} {flds : List Fld} (h : Good tc dc axes t b flds)
    (g : Grid) (names : Option (List String)) (hp : g.pick names = .ok flds) : g.toFrame names true tc dc = .ok (tabOf tc dc axes t b flds) := by
  obtain ⟨hne, hane, hnm, htm, hb, hax, hsc⟩ := h
  match flds, hne with
  | f0 :: fs, _ =>
  unfold Grid.toFrame
  simp only [Bool.not_true, Bool.false_eq_true, if_false, hp]
  rw [hax f0 (by simp), htm f0 (by simp), hb f0 (by simp)]
  have hnd : (axes.map Prod.fst ++ (f0 :: fs).map Fld.name).Nodup := (List.nodup_cons.mp (List.nodup_cons.mp hnm).2).2
  have hcl : ∀ c ∈ (axes.map Prod.fst).zip (mesh (axes.map Prod.snd)), c.2.length = prod (sizes axes) := by
    intro c hc
    rw [mesh_col_length _ c.2 (List.of_mem_zip hc).2, sizes_eq]
  obtain ⟨c0, cs, hcs⟩ : ∃ c0 cs, (axes.map Prod.fst).zip (mesh (axes.map Prod.snd)) = c0 :: cs := by
    match axes, hane with
    | a :: as, _ => exact ⟨_, _, rfl⟩
  have hset : (Frame.mk [] []).setAll ((axes.map Prod.fst).zip (mesh (axes.map Prod.snd))) =
      .ok ⟨List.range (prod (sizes axes)), (axes.map Prod.fst).zip (mesh (axes.map Prod.snd))⟩ := by
    rw [hcs] at hcl
    have h0 := hcl c0 (by simp)
    rw [hcs, setAll_empty c0 cs (fun d hd => by rw [h0]; exact hcl d (by simp [hd])), h0]
    rw [← hcs, zip_fst_mesh]
    exact (List.nodup_append.mp hnd).1
  rw [hset]
  simp only
  have htc : tc ∉ axes.map Prod.fst ++ (f0 :: fs).map Fld.name := fun hm => (List.nodup_cons.mp hnm).1 (by simp only [List.mem_cons]; exact Or.inr hm)
  have hdc : dc ∉ axes.map Prod.fst ++ (f0 :: fs).map Fld.name := (List.nodup_cons.mp (List.nodup_cons.mp hnm).2).1
  have htd : tc ≠ dc := fun e => (List.nodup_cons.mp hnm).1 (by simp [e])
  have hins : Frame.insert ⟨List.range (prod (sizes axes)), (axes.map Prod.fst).zip (mesh (axes.map Prod.snd))⟩ 0 tc (some t) =
      .ok ⟨List.range (prod (sizes axes)), (tc, List.replicate (prod (sizes axes)) (some t)) :: (axes.map Prod.fst).zip (mesh (axes.map Prod.snd))⟩ := by
    unfold Frame.insert
    rw [if_neg]
    · simp [Frame.rows]
    · unfold Frame.names
      rw [zip_fst_mesh]
      exact fun hm => htc (List.mem_append_left _ hm)
  rw [hins]
  simp only
  have hfl : ∀ c ∈ (f0 :: fs).map (fun f => (f.name, f.vals)), c.2.length = (List.range (prod (sizes axes))).length := by
    intro c hc
    obtain ⟨f, hf, rfl⟩ := List.mem_map.mp hc
    rw [List.length_range]
    exact hsc f hf
  have hfn : ((f0 :: fs).map (fun f => (f.name, f.vals))).map Prod.fst = (f0 :: fs).map Fld.name := by
    rw [List.map_map]; rfl
  cases b with
  | none =>
    simp only [datetime, Option.map_none]
    rw [setAll_fresh _ _ (by simp) hfl]
    · rfl
    · rw [hfn]
      unfold Frame.names
      simp only [List.map_cons, zip_fst_mesh, List.cons_append]
      exact List.nodup_cons.mpr ⟨htc, hnd⟩
  | some b =>
    simp only [datetime, Option.map_some]
    have hins2 : ∀ x, Frame.insert ⟨List.range (prod (sizes axes)), (tc, List.replicate (prod (sizes axes)) (some t)) ::
        (axes.map Prod.fst).zip (mesh (axes.map Prod.snd))⟩ 1 dc x =
      .ok ⟨List.range (prod (sizes axes)), (tc, List.replicate (prod (sizes axes)) (some t)) :: (dc, List.replicate (prod (sizes axes)) x) ::
        (axes.map Prod.fst).zip (mesh (axes.map Prod.snd))⟩ := by
      intro x
      unfold Frame.insert
      rw [if_neg]
      · simp [Frame.rows]
      · unfold Frame.names
        rw [List.map_cons, zip_fst_mesh, List.mem_cons]
        rintro (h | h)
        · exact htd h.symm
        · exact hdc (List.mem_append_left _ h)
    rw [hins2]
    simp only
    rw [setAll_fresh _ _ (by simp) hfl]
    · rfl
    · rw [hfn]
      unfold Frame.names
      simp only [List.map_cons, zip_fst_mesh, List.cons_append]
      exact hnm

/-- the rows of the table of a grid -/
theorem tab_at {tc dc : String} {axes : List (String × List Cell)} {t : ℚ} {b : Option Cell} {flds : List Fld} (h : Good tc dc axes t b flds)
    (p : List Nat) (hp : Within (sizes axes) p) : AtPoint (tabOf tc dc axes t b flds) tc t axes flds (pos (sizes axes) p) p := by
  have hlt := pos_lt _ _ hp
  refine ⟨⟨_, List.mem_cons_self .., by simp [hlt]⟩, ?_, ?_⟩
  · intro k a j ha hj
    have hp' : Within ((axes.map Prod.snd).map List.length) p := by rw [sizes_eq]; exact hp
    obtain ⟨c, x, hc, hx, hcx⟩ := mesh_get (axes.map Prod.snd) p hp' k a.2 j (by simp [ha]) hj
    refine ⟨x, hx, c, ?_, by rw [← sizes_eq]; exact hcx⟩
    refine List.mem_cons_of_mem _ (List.mem_append_right _ (List.mem_append_left _ ?_))
    have : ((axes.map Prod.fst).zip (mesh (axes.map Prod.snd)))[k]? = some (a.1, c) := by
      rw [List.getElem?_zip_eq_some]
      exact ⟨by simp [ha], hc⟩
    exact List.mem_of_getElem? this
  · intro g hg
    have hl := h.scalar g hg
    rw [prod_foldr] at hl
    refine ⟨g.vals[pos (sizes axes) p]'(by omega), List.getElem?_eq_getElem _, g.vals, ?_, List.getElem?_eq_getElem _⟩
    exact List.mem_cons_of_mem _ (List.mem_append_right _ (List.mem_append_right _ (List.mem_map.mpr ⟨g, hg, rfl⟩)))

/-- C167, one grid: the table of scalar fields on the same points has a row for every point and no others, with the time, the coordinates and the values
    there, and the date if there is a base time. -/
theorem C167_grid_partial (tc dc : String) (axes : List (String × List Cell)) (t : ℚ) (b : Option Cell) (flds : List Fld) (h : Good tc dc axes t b flds)
    (g : Grid) (names : Option (List String)) (hp : g.pick names = .ok flds) :
    ∃ fr, g.toFrame names true tc dc = .ok fr ∧ fr.rows = prod (sizes axes) ∧ fr.names.Nodup ∧ (∀ c ∈ fr.cols, c.2.length = fr.rows) ∧
      (∀ p, Within (sizes axes) p → ∃ i, i < fr.rows ∧ AtPoint fr tc t axes flds i p) ∧
      (∀ i, i < fr.rows → ∃ p, Within (sizes axes) p ∧ AtPoint fr tc t axes flds i p) ∧
      (∀ b', b = some (some b') → ∀ i, i < fr.rows → Has fr dc i (some (b' + t))) ∧ (b = none → dc ∉ fr.names) := by
  refine ⟨_, toFrame_good h g names hp, by simp [tabOf, Frame.rows], ?_, ?_, fun p hp => ⟨_, by simpa [tabOf, Frame.rows] using pos_lt _ _ hp, tab_at h p hp⟩, ?_, ?_, ?_⟩
  · have hnm := h.names
    unfold Frame.names tabOf
    simp only [List.map_cons, List.map_append, zip_fst_mesh, List.map_map]
    have e : (Prod.fst ∘ fun f : Fld => (f.name, f.vals)) = Fld.name := rfl
    rw [e]
    cases b with
    | none =>
      simp only [dtPart, List.map_nil, List.nil_append]
      exact hnm.sublist (List.Sublist.cons_cons _ (List.sublist_cons_self _ _))
    | some b => exact hnm
  · intro c hc
    simp only [tabOf, List.mem_cons, List.mem_append, List.mem_map, Frame.rows, List.length_range] at hc ⊢
    rcases hc with rfl | hc | hc | ⟨f, hf, rfl⟩
    · simp
    · cases b with
      | none => simp [dtPart] at hc
      | some b =>
        simp only [dtPart, List.mem_singleton] at hc
        subst hc; simp
    · rw [mesh_col_length _ c.2 (List.of_mem_zip hc).2, sizes_eq]
    · exact h.scalar f hf
  · intro i hi
    have hi' : i < prod (sizes axes) := by simpa [tabOf, Frame.rows] using hi
    obtain ⟨p, hp1, rfl⟩ := pos_surj _ i hi'
    exact ⟨p, hp1, tab_at h p hp1⟩
  · rintro b' rfl i hi
    have hi' : i < prod (sizes axes) := by simpa [tabOf, Frame.rows] using hi
    exact ⟨_, List.mem_cons_of_mem _ (List.mem_append_left _ (List.mem_singleton.mpr rfl)), by simp [hi']⟩
  · rintro rfl hm
    simp only [Frame.names, tabOf, dtPart, List.nil_append, List.map_cons, List.map_append, zip_fst_mesh, List.map_map] at hm
    have e : (Prod.fst ∘ fun f : Fld => (f.name, f.vals)) = Fld.name := rfl
    rw [e, List.mem_cons] at hm
    rcases hm with hm | hm
    · exact (List.nodup_cons.mp h.names).1 (by simp [hm])
    · exact (List.nodup_cons.mp (List.nodup_cons.mp h.names).2).1 hm

theorem lookup_of_mem : ∀ (l : List (String × β)) (n : String) (v : β), (l.map Prod.fst).Nodup → (n, v) ∈ l → l.lookup n = some v
  | [], _, _, _, h => by simp at h
  | c :: l, n, v, hn, h => by
    rw [List.lookup_cons]
    rcases List.mem_cons.mp h with h | h
    · subst h; simp
    · have : (n == c.1) = false := by
        rw [beq_eq_false_iff_ne]
        rintro rfl
        exact (List.nodup_cons.mp hn).1 (List.mem_map.mpr ⟨_, h, rfl⟩)
      rw [this]
      exact lookup_of_mem l n v (List.nodup_cons.mp hn).2 h

theorem mem_of_lookup : ∀ (l : List (String × β)) (n : String) (v : β), l.lookup n = some v → (n, v) ∈ l
  | [], _, _, h => by simp at h
  | c :: l, n, v, h => by
    rw [List.lookup_cons] at h
    split at h
    · rename_i hb
      obtain ⟨a, b⟩ := c
      simp only [beq_iff_eq] at hb
      simp only [Option.some.injEq] at h
      subst hb; subst h; simp
    · exact List.mem_cons_of_mem _ (mem_of_lookup l n v h)

theorem mem_dropDup [DecidableEq β] (l : List β) (x : β) : x ∈ dropDup l ↔ x ∈ l := by
  induction l with
  | nil => simp [dropDup]
  | cons a l ih =>
    simp only [dropDup, List.mem_cons, List.mem_filter, ih, decide_eq_true_eq]
    by_cases h : x = a
    · simp [h]
    · simp [h]

theorem nodup_dropDup [DecidableEq β] (l : List β) : (dropDup l).Nodup := by
  induction l with
  | nil => simp [dropDup]
  | cons a l ih =>
    simp only [dropDup]
    exact List.nodup_cons.mpr ⟨by simp, ih.filter _⟩

/-- the columns of a table are as long as it has rows -/
def Whole' (f : Frame) : Prop := f.names.Nodup ∧ ∀ c ∈ f.cols, c.2.length = f.rows

theorem col_length {f : Frame} (hf : Whole' f) (n : String) : ((f.col n).getD (List.replicate f.rows none)).length = f.rows := by
  unfold Frame.col
  cases h : f.cols.lookup n with
  | none => simp
  | some l => exact hf.2 _ (mem_of_lookup _ _ _ h)

theorem flatMap_rows (n : String) (frames : List Frame) (h : ∀ f ∈ frames, Whole' f) :
    (frames.flatMap fun f => (f.col n).getD (List.replicate f.rows none)).length = (frames.map Frame.rows).sum := by
  induction frames with
  | nil => rfl
  | cons f l ih =>
    rw [List.flatMap_cons, List.length_append, col_length (h f (by simp)), ih (fun g hg => h g (by simp [hg]))]
    rfl

/-- each row of a table is a row of the concatenation -/
theorem concat_has (A B : List Frame) (f : Frame) (h : ∀ g ∈ A ++ f :: B, Whole' g) (n : String) (i : Nat) (x : Cell) (hx : Has f n i x) :
    ∃ fr, concat (A ++ f :: B) = .ok fr ∧ Has fr n ((A.map Frame.rows).sum + i) x := by
  obtain ⟨l, hl, hi⟩ := hx
  refine ⟨_, by unfold concat; rw [if_neg (by simp)], _, List.mem_map.mpr ⟨n, ?_, rfl⟩, ?_⟩
  · rw [mem_dropDup, List.mem_flatMap]
    exact ⟨f, by simp, List.mem_map.mpr ⟨_, hl, rfl⟩⟩
  · have hA := flatMap_rows n A (fun g hg => h g (by simp [hg]))
    rw [List.flatMap_append, List.getElem?_append_right (by omega), hA, Nat.add_sub_cancel_left, List.flatMap_cons]
    have hc : f.col n = some l := lookup_of_mem _ _ _ (h f (by simp)).1 hl
    have hlt : i < l.length := by
      rw [List.getElem?_eq_some_iff] at hi
      exact hi.1
    rw [hc, Option.getD_some, List.getElem?_append_left hlt, hi]

theorem concat_rows (frames : List Frame) (hne : frames ≠ []) : ∃ fr, concat frames = .ok fr ∧ fr.rows = (frames.map Frame.rows).sum := by
  refine ⟨_, by unfold concat; rw [if_neg hne], by simp [Frame.rows]⟩

/-- each row of the concatenation is one of a table -/
theorem split_row : ∀ (frames : List Frame) (j : Nat), j < (frames.map Frame.rows).sum →
    ∃ A f B i, frames = A ++ f :: B ∧ i < f.rows ∧ j = (A.map Frame.rows).sum + i
  | [], j, h => by simp at h
  | f :: l, j, h => by
    by_cases hj : j < f.rows
    · exact ⟨[], f, l, j, rfl, hj, by simp⟩
    · rw [List.map_cons, List.sum_cons] at h
      obtain ⟨A, g, B, i, rfl, hi, e⟩ := split_row l (j - f.rows) (by omega)
      refine ⟨f :: A, g, B, i, rfl, hi, ?_⟩
      rw [List.map_cons, List.sum_cons]; omega

theorem framesOf_ok (names : Option (List String)) (tc dc : String) (tab : Grid → Frame) : ∀ (gs : List Grid),
    (∀ g ∈ gs, g.toFrame names true tc dc = .ok (tab g)) → framesOf names true tc dc gs = .ok (gs.map tab)
  | [], _ => rfl
  | g :: gs, h => by
    unfold framesOf
    rw [h g (by simp), framesOf_ok names tc dc tab gs (fun g hg => h g (by simp [hg]))]
    rfl

/-- C167, several times: the table of a dataset has a row for every time and every point of the fields at this time, and no others. The fields, and the
    points, need not be the same for all times. -/
theorem C167_temporal_partial (tc dc : String) (gs : List Grid) (names : Option (List String)) (hne : gs ≠ [])
    (ax : Grid → List (String × List Cell)) (tm : Grid → ℚ) (bs : Grid → Option Cell) (fl : Grid → List Fld)
    (h : ∀ g ∈ gs, Good tc dc (ax g) (tm g) (bs g) (fl g) ∧ g.pick names = .ok (fl g)) :
    ∃ fr, toFrame gs names true tc dc = .ok fr ∧ fr.rows = (gs.map fun g => prod (sizes (ax g))).sum ∧
      (∀ g ∈ gs, ∀ p, Within (sizes (ax g)) p → ∃ i, i < fr.rows ∧ AtPoint fr tc (tm g) (ax g) (fl g) i p ∧
        ∀ b, bs g = some (some b) → Has fr dc i (some (b + tm g))) ∧
      (∀ i, i < fr.rows → ∃ g ∈ gs, ∃ p, Within (sizes (ax g)) p ∧ AtPoint fr tc (tm g) (ax g) (fl g) i p) := by
  obtain ⟨tab, htab⟩ : ∃ tab : Grid → Frame, ∀ g ∈ gs, g.toFrame names true tc dc = .ok (tab g) := by
    refine ⟨fun g => tabOf tc dc (ax g) (tm g) (bs g) (fl g), fun g hg => toFrame_good (h g hg).1 g names (h g hg).2⟩
  have hfr := framesOf_ok names tc dc tab gs htab
  have hC : ∀ g ∈ gs, (tab g).rows = prod (sizes (ax g)) ∧ Whole' (tab g) ∧
      (∀ p, Within (sizes (ax g)) p → ∃ i, i < (tab g).rows ∧ AtPoint (tab g) tc (tm g) (ax g) (fl g) i p) ∧
      (∀ i, i < (tab g).rows → ∃ p, Within (sizes (ax g)) p ∧ AtPoint (tab g) tc (tm g) (ax g) (fl g) i p) ∧
      (∀ b', bs g = some (some b') → ∀ i, i < (tab g).rows → Has (tab g) dc i (some (b' + tm g))) := by
    intro g hg
    obtain ⟨fr, h1, h2, h3, h4, h5, h6, h7, -⟩ := C167_grid_partial tc dc _ _ _ _ (h g hg).1 g names (h g hg).2
    rw [htab g hg] at h1
    cases h1
    exact ⟨h2, ⟨h3, h4⟩, h5, h6, h7⟩
  obtain ⟨fr, hfr2, hrows⟩ := concat_rows (gs.map tab) (by simpa using hne)
  have hsum : (gs.map tab).map Frame.rows = gs.map fun g => prod (sizes (ax g)) := by
    rw [List.map_map]
    exact List.map_congr_left fun g hg => (hC g hg).1
  have hwh : ∀ f ∈ gs.map tab, Whole' f := by
    intro f hf
    obtain ⟨g, hg, rfl⟩ := List.mem_map.mp hf
    exact (hC g hg).2.1
  have hhas : ∀ (A B : List Frame) (f : Frame), gs.map tab = A ++ f :: B → ∀ n i x, Has f n i x → Has fr n ((A.map Frame.rows).sum + i) x := by
    intro A B f e n i x hx
    obtain ⟨fr', h1, h2⟩ := concat_has A B f (by rw [← e]; exact hwh) n i x hx
    rw [← e, hfr2] at h1
    cases h1
    exact h2
  have hat : ∀ (A B : List Frame) (f : Frame), gs.map tab = A ++ f :: B → ∀ t ax fl i p, AtPoint f tc t ax fl i p →
      AtPoint fr tc t ax fl ((A.map Frame.rows).sum + i) p := by
    intro A B f e t ax fl i p hp
    refine ⟨hhas A B f e _ _ _ hp.1, fun k a j ha hj => ?_, fun g hg => ?_⟩
    · obtain ⟨x, hx, hh⟩ := hp.2.1 k a j ha hj
      exact ⟨x, hx, hhas A B f e _ _ _ hh⟩
    · obtain ⟨x, hx, hh⟩ := hp.2.2 g hg
      exact ⟨x, hx, hhas A B f e _ _ _ hh⟩
  refine ⟨fr, by unfold toFrame; rw [hfr]; exact hfr2, by rw [hrows, hsum], ?_, ?_⟩
  · intro g hg p hp
    obtain ⟨i, hi, hat'⟩ := (hC g hg).2.2.1 p hp
    obtain ⟨A, B, e⟩ := List.append_of_mem (List.mem_map.mpr ⟨g, hg, rfl⟩ : tab g ∈ gs.map tab)
    refine ⟨_, ?_, hat A B _ e _ _ _ _ _ hat', fun b hb => hhas A B _ e _ _ _ ((hC g hg).2.2.2.2 b hb i hi)⟩
    rw [hrows, e]
    simp only [List.map_append, List.map_cons, List.sum_append, List.sum_cons]
    omega
  · intro j hj
    rw [hrows] at hj
    obtain ⟨A, f, B, i, e, hi, rfl⟩ := split_row _ _ hj
    have hf : f ∈ gs.map tab := by rw [e]; simp
    obtain ⟨g, hg, rfl⟩ := List.mem_map.mp hf
    obtain ⟨p, hp, hat'⟩ := (hC g hg).2.2.2.1 i hi
    exact ⟨g, hg, p, hp, hat A B _ e _ _ _ _ _ hat'⟩

/-! ## fields in a list -/

theorem insertTime_perm (a : ℚ × List Fld) : ∀ l, (insertTime a l).Perm (a :: l)
  | [] => List.Perm.refl _
  | b :: l => by
    unfold insertTime
    split
    · exact List.Perm.refl _
    · exact (List.Perm.cons b (insertTime_perm a l)).trans (List.Perm.swap a b l)

theorem foldr_insertTime_perm : ∀ l : List (ℚ × List Fld), (l.foldr insertTime []).Perm l
  | [] => List.Perm.refl _
  | a :: l => (insertTime_perm a _).trans (List.Perm.cons a (foldr_insertTime_perm l))

theorem insertTime_sorted (a : ℚ × List Fld) : ∀ l : List (ℚ × List Fld), l.Pairwise (fun x y => x.1 ≤ y.1) → (insertTime a l).Pairwise (fun x y => x.1 ≤ y.1)
  | [], _ => by simp [insertTime]
  | b :: l, h => by
    unfold insertTime
    split
    · rename_i hab
      refine List.pairwise_cons.mpr ⟨fun y hy => ?_, h⟩
      rcases List.mem_cons.mp hy with rfl | hy
      · exact hab
      · exact le_trans hab ((List.pairwise_cons.mp h).1 y hy)
    · rename_i hab
      refine List.pairwise_cons.mpr ⟨fun y hy => ?_, insertTime_sorted a l (List.pairwise_cons.mp h).2⟩
      rcases List.mem_cons.mp ((insertTime_perm a l).mem_iff.mp hy) with rfl | hy
      · exact le_of_lt (not_le.mp hab)
      · exact (List.pairwise_cons.mp h).1 y hy

theorem foldr_insertTime_sorted : ∀ l : List (ℚ × List Fld), (l.foldr insertTime []).Pairwise (fun x y => x.1 ≤ y.1)
  | [] => List.Pairwise.nil
  | a :: l => insertTime_sorted a _ (foldr_insertTime_sorted l)

theorem mapM_times : ∀ (l : List (Cell × List Fld)), (∀ a ∈ l, a.1.isSome) →
    ∃ l', (l.mapM fun a => a.1.map fun t => (t, a.2)) = some l' ∧ l'.map (fun a => ((some a.1, a.2) : Cell × List Fld)) = l
  | [], _ => ⟨[], rfl, rfl⟩
  | (none, fs) :: l, h => by simpa using h (none, fs) (by simp)
  | (some t, fs) :: l, h => by
    obtain ⟨l', h1, h2⟩ := mapM_times l (fun a ha => h a (by simp [ha]))
    refine ⟨(t, fs) :: l', ?_, by simp [h2]⟩
    rw [List.mapM_cons, h1]; rfl

theorem sortTimes_perm (l : List (Cell × List Fld)) (h : ∀ a ∈ l, a.1.isSome) : ∃ l', sortTimes l = .ok l' ∧ l'.Perm l ∧
    l'.Pairwise (fun x y => ∀ s t, x.1 = some s → y.1 = some t → s ≤ t) := by
  unfold sortTimes
  by_cases hl : l.length ≤ 1
  · rw [if_pos hl]
    refine ⟨l, rfl, List.Perm.refl _, ?_⟩
    match l, hl with
    | [], _ => exact List.Pairwise.nil
    | [a], _ => exact List.pairwise_singleton _ _
  · obtain ⟨l', h1, h2⟩ := mapM_times l h
    rw [if_neg hl, h1]
    refine ⟨_, rfl, ?_, ?_⟩
    · have := (foldr_insertTime_perm l').map (fun a => ((some a.1, a.2) : Cell × List Fld))
      rw [h2] at this
      exact this
    · refine List.pairwise_map.mpr ((foldr_insertTime_sorted l').imp ?_)
      rintro a b hab s t hs ht
      simp only [Option.some.injEq] at hs ht
      subst hs; subst ht; exact hab

theorem fold_names : ∀ (fs acc : List Fld), ((acc ++ fs).map Fld.name).Nodup →
    fs.foldl (fun l f => if l.any (fun g => g.name = f.name) then l.map (fun g => if g.name = f.name then f else g) else l ++ [f]) acc = acc ++ fs
  | [], acc, _ => by simp
  | f :: fs, acc, h => by
    rw [List.foldl_cons]
    have hn : acc.any (fun g => g.name = f.name) = false := by
      rw [List.any_eq_false]
      intro g hg
      simp only [decide_eq_true_eq]
      intro e
      rw [List.map_append] at h
      exact (List.nodup_append.mp h).2.2 g.name (List.mem_map.mpr ⟨g, hg, rfl⟩) f.name (by simp) e
    rw [hn]
    simp only [Bool.false_eq_true, if_false]
    rw [fold_names fs (acc ++ [f]) (by simpa using h)]
    simp

theorem gridsOf_ok : ∀ (l : List (Cell × List Fld)), (∀ a ∈ l, a.2 ≠ [] ∧ (a.2.map Fld.name).Nodup ∧ ∀ f ∈ a.2, f.base.isSome) →
    ∃ gs, gridsOf l = .ok gs ∧ List.Forall₂ (fun (a : Cell × List Fld) (g : Grid) => g.time = a.1 ∧ g.flds = a.2) l gs
  | [], _ => ⟨[], rfl, .nil⟩
  | (t, []) :: l, h => by simpa using h (t, []) (by simp)
  | (t, f :: fs) :: l, h => by
    obtain ⟨gs, h1, h2⟩ := gridsOf_ok l (fun a ha => h a (by simp [ha]))
    obtain ⟨-, hn, hb⟩ := h (t, f :: fs) (by simp)
    have hb := hb f (by simp)
    cases hf : f.base with
    | none => rw [hf] at hb; simp at hb
    | some b =>
      refine ⟨_, by unfold gridsOf; rw [hf, h1], .cons ⟨rfl, ?_⟩ h2⟩
      exact fold_names (f :: fs) [] (by simpa using hn)

/-- C167, fields: the table of fields that have a time and a base time has, for each of them and each of its points, a row with the time, the coordinates
    and the value there, provided that those of the same time have the same points and different names. -/
theorem C167_fields_partial (tc dc : String) (flds : List Fld) (hne : flds ≠ [])
    (h : ∀ f ∈ flds, ∃ t b, f.time = some t ∧ Good tc dc f.axes t (some b) (flds.filter fun g => g.time = f.time)) :
    ∃ fr, fieldsToFrame flds none true tc dc = .ok fr ∧
      ∀ f ∈ flds, ∀ p, Within (sizes f.axes) p → ∃ t i, f.time = some t ∧ i < fr.rows ∧ AtPoint fr tc t f.axes [f] i p := by
  have hmem : ∀ a ∈ byTime flds, ∃ f ∈ flds, a = (f.time, flds.filter fun g => g.time = f.time) := by
    intro a ha
    obtain ⟨t, ht, rfl⟩ := List.mem_map.mp ha
    rw [mem_dropDup] at ht
    obtain ⟨f, hf, rfl⟩ := List.mem_map.mp ht
    exact ⟨f, hf, rfl⟩
  obtain ⟨l, hl, hperm, -⟩ := sortTimes_perm (byTime flds) (fun a ha => by
    obtain ⟨f, hf, rfl⟩ := hmem a ha
    obtain ⟨t, b, ht, -⟩ := h f hf
    simp [ht])
  have hl2 : ∀ a ∈ l, ∃ f ∈ flds, a = (f.time, flds.filter fun g => g.time = f.time) := fun a ha => hmem a (hperm.mem_iff.mp ha)
  obtain ⟨gs, hgs, hrel⟩ := gridsOf_ok l (fun a ha => by
    obtain ⟨f, hf, rfl⟩ := hl2 a ha
    obtain ⟨t, b, ht, hg⟩ := h f hf
    refine ⟨hg.ne, ?_, fun k hk => by rw [hg.base k hk]; rfl⟩
    exact (List.nodup_append.mp (List.nodup_cons.mp (List.nodup_cons.mp hg.names).2).2).2.1)
  have hg1 : ∀ g ∈ gs, ∃ f ∈ flds, g.time = f.time ∧ g.flds = flds.filter fun k => k.time = f.time := by
    intro g hg
    obtain ⟨a, ha, h1, h2⟩ : ∃ a ∈ l, g.time = a.1 ∧ g.flds = a.2 := by
      clear hl hperm hl2 hgs
      induction hrel with
      | nil => simp at hg
      | cons hr _ ih =>
        rcases List.mem_cons.mp hg with rfl | hg
        · exact ⟨_, by simp, hr⟩
        · obtain ⟨a, ha, h⟩ := ih hg
          exact ⟨a, by simp [ha], h⟩
    obtain ⟨f, hf, rfl⟩ := hl2 a ha
    exact ⟨f, hf, h1, h2⟩
  have hg2 : ∀ f ∈ flds, ∃ g ∈ gs, g.time = f.time := by
    intro f hf
    have hin : (f.time, flds.filter fun g => g.time = f.time) ∈ l := hperm.mem_iff.mpr
      (List.mem_map.mpr ⟨f.time, by rw [mem_dropDup]; exact List.mem_map.mpr ⟨f, hf, rfl⟩, rfl⟩)
    generalize hA : (f.time, flds.filter fun g => g.time = f.time) = A at hin
    have hA1 : A.1 = f.time := by rw [← hA]
    clear hl hperm hl2 hgs hg1
    induction hrel with
    | nil => simp at hin
    | cons hr _ ih =>
      rcases List.mem_cons.mp hin with rfl | hin
      · exact ⟨_, List.mem_cons_self .., by rw [hr.1, hA1]⟩
      · obtain ⟨g, hg, h⟩ := ih hin
        exact ⟨g, by simp [hg], h⟩
  -- the hypotheses of the theorem on datasets
  have hfl : ∀ g : Grid, ∃ ax t b, g ∈ gs → Good tc dc ax t (some b) g.flds ∧ g.time = some t ∧ ∀ f ∈ flds, f.time = g.time → f.axes = ax := by
    intro g
    by_cases hg : g ∈ gs
    · obtain ⟨f, hf, h1, h2⟩ := hg1 g hg
      obtain ⟨t, b, ht, hgood⟩ := h f hf
      refine ⟨f.axes, t, b, fun _ => ⟨by rw [h2]; exact hgood, by rw [h1, ht], fun k hk hkt => ?_⟩⟩
      exact hgood.points k (List.mem_filter.mpr ⟨hk, by simp [hkt, h1]⟩)
    · exact ⟨[], 0, none, fun hg' => absurd hg' hg⟩
  choose ax tm bs hgood using hfl
  have hgne : gs ≠ [] := by
    obtain ⟨f, hf⟩ := List.exists_mem_of_ne_nil _ hne
    obtain ⟨g, hg, -⟩ := hg2 f hf
    exact List.ne_nil_of_mem hg
  have hin : ∀ f ∈ flds, ∀ g ∈ gs, g.time = f.time → f ∈ g.flds := by
    intro f hf g hg e
    obtain ⟨k, hk, h1, h2⟩ := hg1 g hg
    rw [h2]
    exact List.mem_filter.mpr ⟨hf, by simp [← e, h1]⟩
  unfold fieldsToFrame
  rw [hl]
  simp only [hgs]
  rcases gs with _ | ⟨g, _ | ⟨g1, gs⟩⟩
  · exact absurd rfl hgne
  · simp only
    obtain ⟨hgd, hgt, hga⟩ := hgood g (by simp)
    obtain ⟨fr, h1, h2, -, -, h3, -⟩ := C167_grid_partial tc dc _ _ _ _ hgd g none rfl
    refine ⟨fr, h1, fun f hf p hp => ?_⟩
    obtain ⟨g', hg', e⟩ := hg2 f hf
    simp only [List.mem_singleton] at hg'
    subst hg'
    have hax := hga f hf e.symm
    rw [hax] at hp
    obtain ⟨i, hi, hat⟩ := h3 p hp
    refine ⟨tm g', i, by rw [← e, hgt], hi, ?_⟩
    rw [hax]
    exact ⟨hat.1, hat.2.1, fun k hk => by
      simp only [List.mem_singleton] at hk
      subst hk
      exact hat.2.2 k (hin k hf g' (by simp) e)⟩
  · simp only
    obtain ⟨fr, h1, -, h3, -⟩ := C167_temporal_partial tc dc (g :: g1 :: gs) none hgne ax tm (fun g => some (bs g)) (fun g => g.flds)
      (fun g hg => ⟨(hgood g hg).1, rfl⟩)
    refine ⟨fr, h1, fun f hf p hp => ?_⟩
    obtain ⟨g', hg', e⟩ := hg2 f hf
    have hax := (hgood g' hg').2.2 f hf e.symm
    rw [hax] at hp
    obtain ⟨i, hi, hat, -⟩ := h3 g' hg' p hp
    refine ⟨tm g', i, by rw [← e, (hgood g' hg').2.1], hi, ?_⟩
    rw [hax]
    exact ⟨hat.1, hat.2.1, fun k hk => by
      simp only [List.mem_singleton] at hk
      subst hk
      exact hat.2.2 k (hin k hf g' hg' e)⟩

/-- C167: fields asked for by name are those of these names, in this order; a name that there is not is a KeyError -/
theorem C167_names (g : Grid) (hn : (g.flds.map Fld.name).Nodup) (ns : List String) :
    (∀ l, g.pick (some ns) = .ok l ↔ l.map Fld.name = ns ∧ ∀ f ∈ l, f ∈ g.flds) ∧
    ((∃ n ∈ ns, n ∉ g.flds.map Fld.name) → g.pick (some ns) = .error .key) := by
  have hfind : ∀ f ∈ g.flds, g.flds.find? (fun k => k.name = f.name) = some f := by
    intro f hf
    generalize g.flds = fs at hn hf
    induction fs with
    | nil => simp at hf
    | cons k fs ih =>
      rw [List.map_cons, List.nodup_cons] at hn
      rw [List.find?_cons]
      rcases List.mem_cons.mp hf with rfl | hf
      · simp
      · have : ¬ k.name = f.name := fun e => hn.1 (by rw [e]; exact List.mem_map.mpr ⟨f, hf, rfl⟩)
        simp only [this, decide_false]
        exact ih hn.2 hf
  have hm : ∀ (ns : List String) (l : List Fld), (ns.mapM fun n => g.flds.find? fun f => f.name = n) = some l ↔ l.map Fld.name = ns ∧ ∀ f ∈ l, f ∈ g.flds := by
    intro ns
    induction ns with
    | nil =>
      intro l
      cases l <;> simp
    | cons n ns ih =>
      intro l
      rw [List.mapM_cons]
      constructor
      · intro h
        cases h1 : g.flds.find? (fun f => f.name = n) with
        | none => rw [h1] at h; cases h
        | some f =>
          cases h2 : (ns.mapM fun n => g.flds.find? fun f => f.name = n) with
          | none => rw [h1, h2] at h; cases h
          | some l' =>
            rw [h1, h2] at h
            cases h
            obtain ⟨h3, h4⟩ := (ih l').mp h2
            have h5 := List.find?_some h1
            have h6 := List.mem_of_find?_eq_some h1
            simp only [decide_eq_true_eq] at h5
            exact ⟨by simp [h5, h3], fun k hk => by
              rcases List.mem_cons.mp hk with rfl | hk
              · exact h6
              · exact h4 k hk⟩
      · rintro ⟨h1, h2⟩
        cases l with
        | nil => simp at h1
        | cons f l =>
          simp only [List.map_cons, List.cons.injEq] at h1
          rw [← h1.1, hfind f (h2 f (by simp)), (ih l).mpr ⟨h1.2, fun k hk => h2 k (by simp [hk])⟩]
          rfl
  refine ⟨fun l => ?_, ?_⟩
  · unfold Grid.pick
    rw [← hm]
    simp only
    cases (ns.mapM fun n => g.flds.find? fun f => f.name = n) <;> simp
  · rintro ⟨n, hn1, hn2⟩
    unfold Grid.pick
    simp only
    cases h : (ns.mapM fun n => g.flds.find? fun f => f.name = n) with
    | none => rfl
    | some l =>
      obtain ⟨h1, h2⟩ := (hm ns l).mp h
      rw [← h1] at hn1
      obtain ⟨f, hf, rfl⟩ := List.mem_map.mp hn1
      exact absurd (List.mem_map.mpr ⟨f, h2 f hf, rfl⟩) hn2

/-- C167: the table of fields of the same time is that of the grid with these fields, also if some are asked for by name -/
theorem C167_one_time (flds : List Fld) (hne : flds ≠ []) (t b : Cell) (ht : ∀ f ∈ flds, f.time = t) (hb : ∀ f ∈ flds, f.base = some b)
    (hn : (flds.map Fld.name).Nodup) (names : Option (List String)) (allTimes : Bool) (tc dc : String) :
    fieldsToFrame flds names allTimes tc dc = (Grid.mk t (some b) flds).toFrame names allTimes tc dc := by
  have hby : byTime flds = [(t, flds)] := by
    unfold byTime
    have : dropDup (flds.map Fld.time) = [t] := by
      have h1 := nodup_dropDup (flds.map Fld.time)
      have h2 : ∀ x ∈ dropDup (flds.map Fld.time), x = t := by
        intro x hx
        rw [mem_dropDup] at hx
        obtain ⟨f, hf, rfl⟩ := List.mem_map.mp hx
        exact ht f hf
      have h3 : dropDup (flds.map Fld.time) ≠ [] := by
        cases flds with
        | nil => exact absurd rfl hne
        | cons f fs => simp [dropDup]
      match hd : dropDup (flds.map Fld.time), h3 with
      | [a], _ =>
        rw [hd] at h2
        rw [h2 a (by simp)]
      | a :: c :: l, _ =>
        rw [hd] at h1 h2
        have e1 := h2 a (by simp)
        have e2 := h2 c (by simp)
        subst e1; subst e2
        simp at h1
    rw [this, List.map_singleton]
    congr 2
    rw [List.filter_eq_self]
    intro f hf
    simp [ht f hf]
  unfold fieldsToFrame
  rw [hby]
  obtain ⟨f, fs, rfl⟩ : ∃ f fs, flds = f :: fs := by
    cases flds with
    | nil => exact absurd rfl hne
    | cons f fs => exact ⟨f, fs, rfl⟩
  have hf := fold_names (f :: fs) [] (by simpa using hn)
  rw [List.nil_append] at hf
  simp only [sortTimes, List.length_singleton, Nat.le_refl, if_true, gridsOf, hb f (by simp), hf]

/-! ## where C167 fails -/

/-- C167 fails for selections of times: any but `slice(None)` is an AssertionError. -/
theorem C167_time_sel_violated (g : Grid) (gs : List Grid) (names : Option (List String)) (tc dc : String) :
    toFrame (g :: gs) names false tc dc = .error .assertion := by
  simp [toFrame, framesOf, Grid.toFrame]

theorem axes_frame (axes : List (String × List Cell)) (hane : axes ≠ []) (hn : (axes.map Prod.fst).Nodup) :
    (Frame.mk [] []).setAll ((axes.map Prod.fst).zip (mesh (axes.map Prod.snd))) =
      .ok ⟨List.range (prod (sizes axes)), (axes.map Prod.fst).zip (mesh (axes.map Prod.snd))⟩ := by
  have hcl : ∀ c ∈ (axes.map Prod.fst).zip (mesh (axes.map Prod.snd)), c.2.length = prod (sizes axes) := by
    intro c hc
    rw [mesh_col_length _ c.2 (List.of_mem_zip hc).2, sizes_eq]
  obtain ⟨c0, cs, hcs⟩ : ∃ c0 cs, (axes.map Prod.fst).zip (mesh (axes.map Prod.snd)) = c0 :: cs := by
    match axes, hane with
    | a :: as, _ => exact ⟨_, _, rfl⟩
  rw [hcs] at hcl
  have h0 := hcl c0 (by simp)
  rw [hcs, setAll_empty c0 cs (fun d hd => by rw [h0]; exact hcl d (by simp [hd])), h0]
  rw [← hcs, zip_fst_mesh]
  exact hn

/-- C167 fails for grids without a time: a TypeError. -/
theorem C167_no_time_violated (f : Fld) (fs : List Fld) (time : Cell) (base : Option Cell) (tc dc : String) (ht : f.time = none) (hane : f.axes ≠ [])
    (hn : (f.axes.map Prod.fst).Nodup) (htc : tc ∉ f.axes.map Prod.fst) :
    (Grid.mk time base (f :: fs)).toFrame none true tc dc = .error .type := by
  unfold Grid.toFrame
  simp only [Bool.not_true, Bool.false_eq_true, if_false, Grid.pick]
  rw [axes_frame f.axes hane hn]
  simp only
  unfold Frame.insert
  rw [if_neg (by unfold Frame.names; rw [zip_fst_mesh]; exact htc)]
  simp [datetime, ht]

/-- C167 fails for fields without a base time: a NoBasetimeError, although grids have tables without dates. -/
theorem C167_no_basetime_violated (f : Fld) (names : Option (List String)) (tc dc : String) (hb : f.base = none) :
    fieldsToFrame [f] names true tc dc = .error .noBasetime := by
  have : byTime [f] = [(f.time, [f])] := by simp [byTime, dropDup]
  unfold fieldsToFrame
  rw [this]
  simp [sortTimes, gridsOf, hb]

/-- C167 fails for vector fields, and for fields of other points than the first: a ValueError. -/
theorem C167_other_size_violated (f : Fld) (time : Cell) (base : Option Cell) (t : ℚ) (tc dc : String) (ht : f.time = some t) (hb : f.base = none)
    (hane : f.axes ≠ []) (hn : (f.axes.map Prod.fst).Nodup) (htc : tc ∉ f.axes.map Prod.fst) (hs : f.vals.length ≠ prod (sizes f.axes)) :
    (Grid.mk time base [f]).toFrame none true tc dc = .error .value := by
  unfold Grid.toFrame
  simp only [Bool.not_true, Bool.false_eq_true, if_false, Grid.pick]
  rw [axes_frame f.axes hane hn]
  simp only
  unfold Frame.insert
  rw [if_neg (by unfold Frame.names; rw [zip_fst_mesh]; exact htc)]
  simp only [datetime, ht, hb, Option.map_none, List.map_cons, List.map_nil]
  unfold Frame.setAll Frame.set
  rw [if_neg (by simp), if_pos (by simpa [Frame.rows] using hs)]

/-- C167 fails for a field that has the name of an axis: its values are in place of the coordinates. -/
theorem C167_axis_name_violated (a tc dc : String) (h : tc ≠ a) (X v : List Cell) (hv : v.length = X.length) (t : ℚ) (time : Cell) (base : Option Cell) :
    (Grid.mk time base [⟨a, some t, none, [(a, X)], v⟩]).toFrame none true tc dc =
      .ok ⟨List.range X.length, [(tc, List.replicate X.length (some t)), (a, v)]⟩ := by
  have hm : mesh [X] = [X] := by
    simp only [mesh, List.map_nil]
    have : prod ([] : List Nat) = 1 := rfl
    rw [this]
    simp
  unfold Grid.toFrame
  simp [Grid.pick, hm, Frame.setAll, Frame.set, Frame.insert, Frame.names, Frame.rows, datetime, h, hv, h.symm]

example : Good "time" "datetime" [("x", [some 0, some 1]), ("y", [some 5, some 7, some 8])] 3 (some (some 100))
    [⟨"rho", some 3, some (some 100), [("x", [some 0, some 1]), ("y", [some 5, some 7, some 8])], [some 1, some 2, some 3, some 4, none, some 6]⟩] where
  ne := by simp
  axesNe := by simp
  names := by decide
  time := by simp
  base := by simp
  points := by simp
  scalar := by simp [sizes]

end Viscid.Props
