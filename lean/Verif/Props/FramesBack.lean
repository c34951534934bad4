import Verif.Props.Frames
import Mathlib.Tactic.FieldSimp
import Mathlib.Tactic.Ring
/-!
# C168: fields of tables
-/
namespace Viscid.Props
open Viscid.Frames Viscid.Spec.Frames
open Viscid.Spec.Arith (Within)
open Viscid.Layout (prod)

theorem dropDup_append [DecidableEq β] (l l' : List β) : dropDup (l ++ l') = dropDup l ++ (dropDup l').filter fun x => x ∉ l := by
  induction l with
  | nil => simp [dropDup]
  | cons a l ih =>
    simp only [List.cons_append, dropDup, ih, List.filter_append, List.filter_filter, List.cons.injEq, true_and]
    congr 1
    apply List.filter_congr
    intro x _
    by_cases h1 : x = a <;> by_cases h2 : x ∈ l <;> simp [h1, h2]

theorem dropDup_absorb [DecidableEq β] (l l' : List β) (h : ∀ x ∈ l', x ∈ l) : dropDup (l ++ l') = dropDup l := by
  rw [dropDup_append]
  have : (dropDup l').filter (fun x => x ∉ l) = [] := by
    rw [List.filter_eq_nil_iff]
    intro x hx
    rw [mem_dropDup] at hx
    simp [h x hx]
  rw [this, List.append_nil]

theorem dropDup_nodup [DecidableEq β] (l : List β) (h : l.Nodup) : dropDup l = l := by
  induction l with
  | nil => rfl
  | cons a l ih =>
    have hn := List.nodup_cons.mp h
    rw [dropDup, ih hn.2]
    congr 1
    rw [List.filter_eq_self]
    intro b hb
    simp only [ne_eq, decide_eq_true_eq]
    rintro rfl
    exact hn.1 hb

theorem dropDup_copies [DecidableEq β] (c : List β) : ∀ (gs : List γ), gs ≠ [] → dropDup (gs.flatMap fun _ => c) = dropDup c
  | [], h => absurd rfl h
  | _ :: gs, _ => by
    rw [List.flatMap_cons]
    apply dropDup_absorb
    intro x hx
    obtain ⟨_, _, h⟩ := List.mem_flatMap.mp hx
    exact h

theorem dropDup_blocks [DecidableEq β] (n : Nat) (hn : 1 ≤ n) (f : γ → β) : ∀ (gs : List γ), (gs.map f).Nodup →
    dropDup (gs.flatMap fun g => List.replicate n (f g)) = gs.map f
  | [], _ => rfl
  | g :: gs, h => by
    have hn' := List.nodup_cons.mp h
    obtain ⟨m, rfl⟩ : ∃ m, n = m + 1 := ⟨n - 1, by omega⟩
    have hr : ∀ k, dropDup (List.replicate (k + 1) (f g)) = [f g] := by
      intro k
      induction k with
      | zero => simp [dropDup]
      | succ k ih => rw [List.replicate_succ, dropDup, ih]; simp
    rw [List.flatMap_cons, dropDup_append, dropDup_blocks (m + 1) hn f gs hn'.2, hr m, List.map_cons, List.singleton_append]
    congr 1
    rw [List.filter_eq_self]
    intro x hx
    simp only [List.mem_replicate, decide_eq_true_eq]
    rintro ⟨-, rfl⟩
    exact hn'.1 hx

theorem dropDupLab_snd : ∀ (ls : List Nat) (vs : List Cell), ls.length = vs.length → (dropDupLab (ls.zip vs)).map Prod.snd = dropDup vs
  | [], [], _ => rfl
  | l :: ls, v :: vs, h => by
    have ih := dropDupLab_snd ls vs (by simpa using h)
    simp only [List.zip_cons_cons, dropDupLab, List.map_cons, dropDup, ← ih, List.filter_map]
    rfl

theorem dropDup_mesh [DecidableEq β] : ∀ (l : List (List β)), (∀ a ∈ l, a ≠ [] ∧ a.Nodup) → (mesh l).map dropDup = l
  | [], _ => rfl
  | a :: l, h => by
    obtain ⟨ha, hnd⟩ := h a (by simp)
    have ih := dropDup_mesh l (fun b hb => h b (by simp [hb]))
    simp only [mesh, List.map_cons, List.map_map]
    have hp : 1 ≤ prod (l.map List.length) := by
      clear ih
      induction l with
      | nil => exact Nat.le_refl 1
      | cons b l ih =>
        rw [List.map_cons, prod_cons]
        have h1 : 1 ≤ b.length := by
          have := (h b (by simp)).1
          cases b with
          | nil => exact absurd rfl this
          | cons => simp
        have h2 := ih (fun c hc => h c (by simp only [List.mem_cons] at hc ⊢; tauto))
        exact Nat.mul_le_mul h1 h2
    have h1 := dropDup_blocks (prod (l.map List.length)) hp (fun x : β => x) a (by simpa using hnd)
    rw [List.map_id'] at h1
    rw [h1]
    congr 1
    have : (dropDup ∘ fun c : List β => (List.replicate a.length c).flatten) = dropDup := by
      funext c
      show dropDup (List.replicate a.length c).flatten = _
      rw [replicate_flatten]
      apply dropDup_copies
      rw [ne_eq, List.range_eq_nil]
      simpa using ha
    rw [this, ih]

/-! ## selecting the rows of a time -/

theorem select_true (l r : List β) (m : List Bool) : select (List.replicate l.length true ++ m) (l ++ r) = l ++ select m r := by
  induction l with
  | nil => simp
  | cons a l ih => simp [select, List.replicate_succ, ih]

theorem select_false (l r : List β) (m : List Bool) : select (List.replicate l.length false ++ m) (l ++ r) = select m r := by
  induction l with
  | nil => simp
  | cons a l ih => simp [select, List.replicate_succ, ih]

theorem select_length : ∀ (m : List Bool) (l : List β) (l' : List γ), l.length = l'.length → (select m l).length = (select m l').length
  | [], _, _, _ => by simp [select]
  | true :: m, [], [], _ => by simp [select]
  | false :: m, [], [], _ => by simp [select]
  | true :: m, a :: l, b :: l', h => by simp [select, select_length m l l' (by simpa using h)]
  | false :: m, a :: l, b :: l', h => by simp [select, select_length m l l' (by simpa using h)]

/-- the rows of a time are those of its grid -/
theorem select_block (n : Nat) (tm : γ → ℚ) (F : γ → List β) : ∀ (gs : List γ), (∀ g ∈ gs, (F g).length = n) → (gs.map tm).Nodup → ∀ g ∈ gs,
    select ((gs.flatMap fun g => List.replicate n (some (tm g) : Cell)).map fun x => x.isSome && x = some (tm g)) (gs.flatMap F) = F g := by
  intro gs
  induction gs with
  | nil => intro _ _ g hg; simp at hg
  | cons a gs ih =>
    intro hl hn g hg
    have hn' := List.nodup_cons.mp hn
    have hnone : ∀ (t : ℚ) (hs : List γ), t ∉ hs.map tm → (∀ g ∈ hs, (F g).length = n) →
        select ((hs.flatMap fun g => List.replicate n (some (tm g) : Cell)).map fun x => x.isSome && x = some t) (hs.flatMap F) = [] := by
      intro t hs
      induction hs with
      | nil => intro _ _; rfl
      | cons b hs ih =>
        intro ht hl
        have hb : ((List.replicate n (some (tm b) : Cell)).map fun x => x.isSome && x = some t) = List.replicate (F b).length false := by
          rw [hl b (by simp), List.map_replicate]
          have : ¬ tm b = t := by rintro rfl; exact ht (by simp)
          simp [this]
        rw [List.flatMap_cons, List.flatMap_cons, List.map_append, hb, select_false]
        exact ih (fun hm => ht (by simp only [List.map_cons, List.mem_cons]; exact Or.inr hm)) (fun c hc => hl c (by simp [hc]))
    rw [List.flatMap_cons, List.flatMap_cons, List.map_append, List.map_replicate]
    rcases List.mem_cons.mp hg with rfl | hg
    · have : (List.replicate n ((some (tm g) : Cell).isSome && (some (tm g) : Cell) = some (tm g))) = List.replicate (F g).length true := by
        rw [hl g (by simp)]; simp
      rw [this, select_true, hnone _ gs hn'.1 (fun c hc => hl c (by simp [hc])), List.append_nil]
    · have hne : ¬ tm a = tm g := by
        intro e
        exact hn'.1 (by rw [e]; exact List.mem_map.mpr ⟨g, hg, rfl⟩)
      have : (List.replicate n ((some (tm a) : Cell).isSome && (some (tm a) : Cell) = some (tm g))) = List.replicate (F a).length false := by
        rw [hl a (by simp)]; simp [hne]
      rw [this, select_false]
      exact ih (fun c hc => hl c (by simp [hc])) hn'.2 g hg

/-! ## finding the columns of coordinates -/

/-- all columns but the last have the same value in the first two rows -/
def Still : List (String × List Cell) → Prop
  | [] => False
  | [c] => ∃ x y l, x ≠ y ∧ c.2 = some x :: some y :: l
  | c :: cs => (∃ x l, c.2 = some x :: some x :: l) ∧ Still cs

theorem changes_still : ∀ (cs Y : List (String × List Cell)), Still cs → changes (cs ++ Y) + 1 = cs.length
  | [], _, h => by exact absurd h (by simp [Still])
  | [c], Y, h => by
    obtain ⟨x, y, l, hne, hc⟩ := h
    cases Y with
    | nil => rfl
    | cons d Y =>
      have : ¬ y - x = 0 := fun e => hne (sub_eq_zero.mp e).symm
      simp [changes, hc, this]
  | c :: d :: cs, Y, h => by
    obtain ⟨⟨x, l, hc⟩, h⟩ := h
    have ih := changes_still (d :: cs) Y h
    show changes (c :: d :: (cs ++ Y)) + 1 = _
    unfold changes
    rw [hc]
    simp only [sub_self, if_true]
    have ih : changes (d :: (cs ++ Y)) + 1 = cs.length + 1 := ih
    rw [ih]; rfl

theorem still_of (cs : List (String × List Cell)) (hne : cs ≠ [])
    (h : ∀ (k : Nat) (c : String × List Cell), cs[k]? = some c → ∃ x y l, c.2 = some x :: some y :: l ∧ (k + 1 < cs.length → x = y) ∧ (k + 1 = cs.length → x ≠ y)) :
    Still cs := by
  induction cs with
  | nil => exact absurd rfl hne
  | cons c cs ih =>
    obtain ⟨x, y, l, hc, h1, h2⟩ := h 0 c rfl
    cases cs with
    | nil => exact ⟨x, y, l, h2 rfl, hc⟩
    | cons d cs =>
      refine ⟨⟨x, l, ?_⟩, ih (by simp) fun k e he => ?_⟩
      · have := h1 (by simp); rw [← this] at hc; exact hc
      · obtain ⟨x, y, l, hc, h1, h2⟩ := h (k + 1) e (by simpa using he)
        exact ⟨x, y, l, hc, fun hk => h1 (by simpa using hk), fun hk => h2 (by simpa using hk)⟩

theorem pos_zeros (n j : Nat) : ∀ (s : List Nat), pos (s ++ [n]) ((s.map fun _ => 0) ++ [j]) = j
  | [] => by simp [pos]
  | a :: s => by
    have ih := pos_zeros n j s
    show 0 * _ + pos (s ++ [n]) ((s.map fun _ => 0) ++ [j]) = j
    rw [ih]; omega

theorem within_zeros (n j : Nat) (hj : j < n) : ∀ (s : List Nat), (∀ a ∈ s, 0 < a) → Within (s ++ [n]) ((s.map fun _ => 0) ++ [j])
  | [], _ => .cons hj .nil
  | a :: s, h => .cons (h a (by simp)) (within_zeros n j hj s (fun b hb => h b (by simp [hb])))

theorem list_two (l : List β) (x y : β) (h0 : l[0]? = some x) (h1 : l[1]? = some y) : ∃ l', l = x :: y :: l' := by
  match l, h0, h1 with
  | a :: b :: l, h0, h1 =>
    simp only [List.getElem?_cons_zero, Option.some.injEq] at h0
    simp only [List.getElem?_cons_succ, List.getElem?_cons_zero, Option.some.injEq] at h1
    subst h0; subst h1; exact ⟨l, rfl⟩

/-- along the last axis, and no other, the first two rows differ -/
theorem mesh_still (init : List (String × List Cell)) (last : String × List Cell) (hlast : 2 ≤ last.2.length)
    (h : ∀ a ∈ init ++ [last], a.2 ≠ [] ∧ a.2.Nodup ∧ none ∉ a.2) :
    Still (((init ++ [last]).map Prod.fst).zip (mesh ((init ++ [last]).map Prod.snd))) := by
  have hlen : (((init ++ [last]).map Prod.fst).zip (mesh ((init ++ [last]).map Prod.snd))).length = init.length + 1 := by
    rw [List.length_zip, mesh_length]; simp
  apply still_of
  · intro e; rw [e] at hlen; simp at hlen
  intro k c hc
  rw [hlen]
  obtain ⟨hk1, hk2⟩ := List.getElem?_zip_eq_some.mp hc
  rw [List.getElem?_map] at hk1
  obtain ⟨a, ha, hac⟩ := Option.map_eq_some_iff.mp hk1
  have hamem := List.mem_of_getElem? ha
  obtain ⟨hane, hand, hann⟩ := h a hamem
  have hw : ∀ j, j < 2 → Within (((init ++ [last]).map Prod.snd).map List.length) ((init.map fun _ => 0) ++ [j]) := by
    intro j hj
    have := within_zeros last.2.length j (by omega) (init.map fun a => a.2.length) (fun m hm => by
      obtain ⟨b, hb, rfl⟩ := List.mem_map.mp hm
      have := (h b (by simp [hb])).1
      exact List.length_pos_iff.mpr this)
    simp only [List.map_append, List.map_map, List.map_cons, List.map_nil] at this ⊢
    exact this
  have hp : ∀ j, pos (((init ++ [last]).map Prod.snd).map List.length) ((init.map fun _ => 0) ++ [j]) = j := by
    intro j
    have := pos_zeros last.2.length j (init.map fun a => a.2.length)
    simp only [List.map_append, List.map_map, List.map_cons, List.map_nil] at this ⊢
    exact this
  have hkl : k < init.length + 1 := by
    have := (List.getElem?_eq_some_iff.mp ha).1
    simpa using this
  have hent : ∀ j, j < 2 → ∃ q x, ((init.map fun _ => 0) ++ [j])[k]? = some q ∧ a.2[q]? = some x ∧ c.2[j]? = some x ∧ (k < init.length → q = 0) ∧ (k = init.length → q = j) := by
    intro j hj
    obtain ⟨q, hq⟩ : ∃ q, ((init.map fun _ => 0) ++ [j])[k]? = some q := by
      rw [List.getElem?_eq_getElem (by simp; omega)]; exact ⟨_, rfl⟩
    obtain ⟨c', x, h1, h2, h3⟩ := mesh_get ((init ++ [last]).map Prod.snd) _ (hw j hj) k a.2 q (by rw [List.getElem?_map, ha]; rfl) hq
    rw [hk2] at h1
    cases h1
    rw [hp] at h3
    refine ⟨q, x, hq, h2, h3, fun hk => ?_, fun hk => ?_⟩
    · rw [List.getElem?_append_left (by simpa using hk)] at hq
      simp only [List.getElem?_map] at hq
      obtain ⟨_, _, e⟩ := Option.map_eq_some_iff.mp hq
      exact e.symm
    · rw [List.getElem?_append_right (by simp [hk])] at hq
      simp [hk] at hq
      exact hq.symm
  obtain ⟨q0, x0, -, hx0, hc0, hz0, ho0⟩ := hent 0 (by omega)
  obtain ⟨q1, x1, -, hx1, hc1, hz1, ho1⟩ := hent 1 (by omega)
  obtain ⟨l, hl⟩ := list_two c.2 x0 x1 hc0 hc1
  have hs : ∀ x, x ∈ a.2 → ∃ y : ℚ, x = some y := by
    intro x hx
    cases x with
    | none => exact absurd hx hann
    | some y => exact ⟨y, rfl⟩
  obtain ⟨y0, rfl⟩ := hs x0 (List.mem_of_getElem? hx0)
  obtain ⟨y1, rfl⟩ := hs x1 (List.mem_of_getElem? hx1)
  refine ⟨y0, y1, l, hl, fun hk => ?_, fun hk => ?_⟩
  · rw [hz0 (by omega)] at hx0
    rw [hz1 (by omega), hx0] at hx1
    simpa using hx1
  · rw [ho0 (by omega)] at hx0
    rw [ho1 (by omega)] at hx1
    rintro rfl
    have h0 := List.getElem?_eq_some_iff.mp hx0
    have h1 := List.getElem?_eq_some_iff.mp hx1
    have := List.pairwise_iff_getElem.mp hand 0 1 h0.1 h1.1 (by omega)
    exact this (h0.2.trans h1.2.symm)

/-! ## the table of a series -/

/-- the name of the column of dates, if there is a base time -/
def dtNames (dc : String) : Option Cell → List String
  | none => []
  | some _ => [dc]

theorem tab_names {tc dc : String} {axes : List (String × List Cell)} {t : ℚ} {b : Option Cell} {flds : List Fld} :
    (tabOf tc dc axes t b flds).names = tc :: (dtNames dc b ++ (axes.map Prod.fst ++ flds.map Fld.name)) := by
  unfold Frame.names tabOf
  simp only [List.map_cons, List.map_append, zip_fst_mesh, List.map_map]
  have e : (Prod.fst ∘ fun f : Fld => (f.name, f.vals)) = Fld.name := rfl
  rw [e]
  cases b <;> rfl

theorem tab_whole {tc dc : String} {axes : List (String × List Cell)} {t : ℚ} {b : Option Cell} {flds : List Fld} (h : Good tc dc axes t b flds) :
    Whole' (tabOf tc dc axes t b flds) := by
  obtain ⟨fr, h1, -, h3, h4, -⟩ := C167_grid_partial tc dc _ _ _ _ h ⟨some t, b, flds⟩ none rfl
  rw [toFrame_good h ⟨some t, b, flds⟩ none rfl] at h1
  cases h1
  exact ⟨h3, h4⟩

theorem tab_col {tc dc : String} {axes : List (String × List Cell)} {t : ℚ} {b : Option Cell} {flds : List Fld} (h : Good tc dc axes t b flds)
    (n : String) (l : List Cell) (hl : (n, l) ∈ (tabOf tc dc axes t b flds).cols) : (tabOf tc dc axes t b flds).col n = some l :=
  lookup_of_mem _ _ _ (tab_whole h).1 hl

theorem dropDup_same {l : List String} (hl : l.Nodup) (frames : List Frame) (hne : frames ≠ []) (h : ∀ f ∈ frames, f.names = l) :
    dropDup (frames.flatMap Frame.names) = l := by
  have : frames.flatMap Frame.names = frames.flatMap fun _ => l := by
    induction frames with
    | nil => rfl
    | cons f fs ih =>
      rw [List.flatMap_cons, List.flatMap_cons, h f (by simp)]
      cases fs with
      | nil => rfl
      | cons g gs => rw [ih (by simp) fun f hf => h f (by simp only [List.mem_cons] at hf ⊢; tauto)]
  rw [this, dropDup_copies _ _ hne, dropDup_nodup _ hl]

theorem lookup_map (F : String → β) : ∀ (l : List String) (n : String), n ∈ l → (l.map fun n => (n, F n)).lookup n = some (F n)
  | [], _, h => by simp at h
  | m :: l, n, h => by
    rw [List.map_cons, List.lookup_cons]
    by_cases e : n = m
    · subst e; simp
    · have : (n == m) = false := by rw [beq_eq_false_iff_ne]; exact e
      rw [this]
      exact lookup_map F l n (by simpa [e] using h)

/-- the time of a grid -/
def tmOf (g : Grid) : ℚ := g.time.getD 0

/-- the table of one of the grids -/
def tabG (tc : String) (axes : List (String × List Cell)) (b : Option Cell) (g : Grid) : Frame := tabOf tc "datetime" axes (tmOf g) b g.flds

/-- a column of one of the grids -/
def colG (tc : String) (axes : List (String × List Cell)) (b : Option Cell) (n : String) (g : Grid) : List Cell :=
  ((tabG tc axes b g).col n).getD (List.replicate (tabG tc axes b g).rows none)

section
variable {tc : String} {axes : List (String × List Cell)} {b : Option Cell} {gs : List Grid}

theorem series_good (h : Series tc axes b gs) {g : Grid} (hg : g ∈ gs) : g.time = some (tmOf g) ∧ g.base = b ∧ Good tc "datetime" axes (tmOf g) b g.flds := by
  obtain ⟨t, h1, h2, h3⟩ := h.good g hg
  have : tmOf g = t := by rw [tmOf, h1]; rfl
  rw [this]; exact ⟨h1, h2, h3⟩

theorem tabG_rows (g : Grid) : (tabG tc axes b g).rows = prod (sizes axes) := by simp [tabG, tabOf, Frame.rows]

theorem colG_length (h : Series tc axes b gs) {g : Grid} (hg : g ∈ gs) (n : String) : (colG tc axes b n g).length = prod (sizes axes) := by
  have := col_length (tab_whole (series_good h hg).2.2) n
  exact this.trans (tabG_rows g)

theorem colG_mem (h : Series tc axes b gs) {g : Grid} (hg : g ∈ gs) {n : String} {l : List Cell} (hl : (n, l) ∈ (tabG tc axes b g).cols) : colG tc axes b n g = l := by
  unfold colG tabG
  rw [tab_col (series_good h hg).2.2 n l hl]; rfl

theorem series_names (h : Series tc axes b gs) {g g' : Grid} (hg : g ∈ gs) (hg' : g' ∈ gs) : (tabG tc axes b g).names = (tabG tc axes b g').names := by
  unfold tabG
  rw [tab_names, tab_names, h.names g hg g' hg']

theorem series_frame (h : Series tc axes b gs) {g0 : Grid} (hg0 : g0 ∈ gs) :
    toFrame gs none true tc "datetime" = .ok ⟨List.range (gs.length * prod (sizes axes)),
      (tabG tc axes b g0).names.map fun n => (n, gs.flatMap (colG tc axes b n))⟩ := by
  have hfr := framesOf_ok none tc "datetime" (tabG tc axes b) gs fun g hg => toFrame_good (series_good h hg).2.2 g none rfl
  unfold toFrame
  rw [hfr]
  simp only [concat]
  rw [if_neg (by simpa using h.ne), dropDup_same (tab_whole (series_good h hg0).2.2).1 _ (by simpa using h.ne)]
  · congr 2
    · have : (gs.map (tabG tc axes b)).map Frame.rows = List.replicate gs.length (prod (sizes axes)) := by
        rw [List.map_map, List.eq_replicate_iff]
        refine ⟨by simp, fun x hx => ?_⟩
        obtain ⟨g, -, rfl⟩ := List.mem_map.mp hx
        exact tabG_rows g
      rw [this, List.sum_replicate_nat]
    · apply List.map_congr_left
      intro n _
      rw [List.flatMap_map]
      rfl
  · intro f hf
    obtain ⟨g, hg, rfl⟩ := List.mem_map.mp hf
    exact series_names h hg hg0

theorem series_tm (h : Series tc axes b gs) : (gs.map tmOf).Nodup := by
  have : gs.map Grid.time = (gs.map tmOf).map some := by
    rw [List.map_map]
    exact List.map_congr_left fun g hg => (series_good h hg).1
  have h1 := h.times
  rw [this] at h1
  exact List.Pairwise.of_map some (fun a b hab e => hab (congrArg some e)) h1

theorem series_pos (h : Series tc axes b gs) : 1 ≤ prod (sizes axes) := by
  have hp := h.points
  clear h
  induction axes with
  | nil => exact Nat.le_refl 1
  | cons a l ih =>
    rw [sizes, List.map_cons, prod_cons]
    exact Nat.mul_le_mul (List.length_pos_iff.mpr (hp a (by simp)).1) (ih fun c hc => hp c (by simp [hc]))

theorem col_time (h : Series tc axes b gs) {g : Grid} (hg : g ∈ gs) : colG tc axes b tc g = List.replicate (prod (sizes axes)) (some (tmOf g)) :=
  colG_mem h hg (List.mem_cons_self ..)

theorem col_axis (h : Series tc axes b gs) {g : Grid} (hg : g ∈ gs) {n : String} {l : List Cell}
    (hl : (n, l) ∈ (axes.map Prod.fst).zip (mesh (axes.map Prod.snd))) : colG tc axes b n g = l :=
  colG_mem h hg (List.mem_cons_of_mem _ (List.mem_append_right _ (List.mem_append_left _ hl)))

theorem col_fld (h : Series tc axes b gs) {g : Grid} (hg : g ∈ gs) {f : Fld} (hf : f ∈ g.flds) : colG tc axes b f.name g = f.vals :=
  colG_mem h hg (List.mem_cons_of_mem _ (List.mem_append_right _ (List.mem_append_right _ (List.mem_map.mpr ⟨f, hf, rfl⟩))))

theorem frFlatMap_congr {β γ} {f g : γ → List β} : ∀ (l : List γ), (∀ a ∈ l, f a = g a) → l.flatMap f = l.flatMap g
  | [], _ => rfl
  | a :: l, h => by rw [List.flatMap_cons, List.flatMap_cons, h a (by simp), frFlatMap_congr l fun b hb => h b (by simp [hb])]

theorem mapM_of_forall (g : α → Option β) (h : α → β) : ∀ (l : List α), (∀ n ∈ l, g n = some (h n)) → l.mapM g = some (l.map h)
  | [], _ => rfl
  | a :: l, hh => by
    rw [List.mapM_cons, hh a (by simp), mapM_of_forall g h l fun b hb => hh b (by simp [hb])]; rfl

/-- the table of the rows of one time is that of the grid -/
theorem series_atTime (h : Series tc axes b gs) {g0 g : Grid} (hg0 : g0 ∈ gs) (hg : g ∈ gs) (lab : List Nat) :
    (Frame.atTime ⟨lab, (tabG tc axes b g0).names.map fun n => (n, gs.flatMap (colG tc axes b n))⟩ (gs.flatMap (colG tc axes b tc)) (some (tmOf g))).cols =
      (tabG tc axes b g).cols := by
  have ht : gs.flatMap (colG tc axes b tc) = gs.flatMap fun g => List.replicate (prod (sizes axes)) (some (tmOf g) : Cell) :=
    frFlatMap_congr gs fun g hg => col_time h hg
  unfold Frame.atTime
  simp only [List.map_map]
  rw [ht, series_names h hg0 hg]
  unfold Frame.names
  rw [List.map_map]
  conv => rhs; rw [← List.map_id (tabG tc axes b g).cols]
  apply List.map_congr_left
  rintro ⟨n, l⟩ hl
  simp only [Function.comp_apply, id]
  rw [select_block _ tmOf (colG tc axes b n) gs (fun g hg => colG_length h hg n) (series_tm h) g hg, colG_mem h hg hl]

theorem series_atTime_rows (h : Series tc axes b gs) {g0 g : Grid} (hg : g ∈ gs) (lab : List Nat) (hlab : lab.length = gs.length * prod (sizes axes)) :
    (Frame.atTime ⟨lab, (tabG tc axes b g0).names.map fun n => (n, gs.flatMap (colG tc axes b n))⟩ (gs.flatMap (colG tc axes b tc)) (some (tmOf g))).rows =
      prod (sizes axes) := by
  have ht : gs.flatMap (colG tc axes b tc) = gs.flatMap fun g => List.replicate (prod (sizes axes)) (some (tmOf g) : Cell) :=
    frFlatMap_congr gs fun g hg => col_time h hg
  have hlen : ∀ l : List Grid, (l.flatMap fun g => List.replicate (prod (sizes axes)) (some (tmOf g) : Cell)).length = l.length * prod (sizes axes) := by
    intro l
    induction l with
    | nil => simp
    | cons a l ih => rw [List.flatMap_cons, List.length_append, ih, List.length_cons, Nat.add_mul, Nat.one_mul, List.length_replicate, Nat.add_comm]
  unfold Frame.atTime Frame.rows
  simp only
  rw [ht, select_length _ lab _ (hlab.trans (hlen gs).symm),
    select_block _ tmOf (fun g => List.replicate (prod (sizes axes)) (some (tmOf g) : Cell)) gs (fun g hg => by simp) (series_tm h) g hg]
  simp

theorem readFlds_ok (f1 : Frame) (t c : Cell) (axes : List (String × List Cell)) : ∀ (fs : List Fld),
    (∀ f ∈ fs, f1.col f.name = some f.vals ∧ f.vals.length = prod (sizes axes) ∧ f.time = t ∧ f.axes = axes) →
    readFlds f1 t c axes (fs.map Fld.name) = .ok (fs.map fun f => { f with base := some c })
  | [], _ => rfl
  | f :: fs, h => by
    obtain ⟨h1, h2, h3, h4⟩ := h f (by simp)
    rw [List.map_cons, readFlds, h1]
    simp only
    rw [if_neg (by simpa [sizes] using h2), readFlds_ok f1 t c axes fs fun g hg => h g (by simp [hg])]
    simp only [List.map_cons]
    rw [← h3, ← h4]

theorem readGrids_ok (h : Series tc axes b gs) (c : Cell) (names : List String) (fr : Frame) (tcol : List Cell) (hc : fr.col tc = some tcol)
    (hat : ∀ g ∈ gs, (fr.atTime tcol (some (tmOf g))).cols = (tabG tc axes b g).cols) :
    ∀ l : List Grid, (∀ g ∈ l, g ∈ gs ∧ g.flds.map Fld.name = names) → readGrids fr tc c axes names (l.map fun g => some (tmOf g)) = .ok (l.map (rebase c))
  | [], _ => rfl
  | g :: l, hl => by
    obtain ⟨hg, hn⟩ := hl g (by simp)
    obtain ⟨hgt, -, hgood⟩ := series_good h hg
    rw [List.map_cons, readGrids, hc]
    simp only
    rw [← hn, readFlds_ok _ _ _ _ g.flds, hn, readGrids_ok h c names fr tcol hc hat l fun a ha => hl a (by simp [ha])]
    · simp only [List.map_cons, rebase, hgt]
    · intro f hf
      refine ⟨?_, hgood.scalar f hf, hgood.time f hf, hgood.points f hf⟩
      unfold Frame.col
      rw [hat g hg]
      exact tab_col hgood f.name f.vals (List.mem_cons_of_mem _ (List.mem_append_right _ (List.mem_append_right _ (List.mem_map.mpr ⟨f, hf, rfl⟩))))

theorem good_ne {tc dc : String} {axes : List (String × List Cell)} {t : ℚ} {b : Option Cell} {flds : List Fld} (h : Good tc dc axes t b flds) :
    tc ≠ dc ∧ (∀ n ∈ axes.map Prod.fst ++ flds.map Fld.name, n ≠ tc ∧ n ≠ dc) ∧ ∀ n ∈ flds.map Fld.name, n ∉ axes.map Prod.fst := by
  have hn := h.names
  have h1 := List.nodup_cons.mp hn
  have h2 := List.nodup_cons.mp h1.2
  refine ⟨fun e => h1.1 (by simp [e]), fun n hm => ⟨?_, ?_⟩, fun n hm ha => ?_⟩
  · rintro rfl; exact h1.1 (List.mem_cons_of_mem _ hm)
  · rintro rfl; exact h2.1 hm
  · exact (List.nodup_append.mp h2.2).2.2 n ha n hm rfl

/-- the columns of the coordinates are found -/
theorem findCrds_ok (h : Series tc axes b gs) {g : Grid} (hg : g ∈ gs) (f0 : Frame) (hc : f0.cols = (tabG tc axes b g).cols)
    (hr : f0.rows = prod (sizes axes)) (hlast : ∃ a, axes.getLast? = some a ∧ 2 ≤ a.2.length) :
    findCrds f0 tc "datetime" = .ok (axes.map Prod.fst) := by
  obtain ⟨last, hl, hlen⟩ := hlast
  obtain ⟨init, rfl⟩ : ∃ init, axes = init ++ [last] := by
    have := List.getLast?_eq_some_iff.mp hl
    exact this
  have hgood := (series_good h hg).2.2
  obtain ⟨hne, hN, hF⟩ := good_ne hgood
  have hfil : (tabG tc (init ++ [last]) b g).cols.filter (fun c => c.1 ≠ tc && c.1 ≠ "datetime") =
      ((init ++ [last]).map Prod.fst).zip (mesh ((init ++ [last]).map Prod.snd)) ++ g.flds.map fun f => (f.name, f.vals) := by
    unfold tabG tabOf
    simp only
    rw [List.filter_cons_of_neg (by simp), List.filter_append]
    have : (dtPart "datetime" b (tmOf g) (prod (sizes (init ++ [last])))).filter (fun c => c.1 ≠ tc && c.1 ≠ "datetime") = [] := by
      cases b <;> simp [dtPart]
    rw [this, List.nil_append, List.filter_eq_self]
    rintro c hcm
    have : c.1 ≠ tc ∧ c.1 ≠ "datetime" := by
      apply hN
      rcases List.mem_append.mp hcm with h1 | h1
      · rw [← zip_fst_mesh]
        exact List.mem_append_left _ (List.mem_map.mpr ⟨c, h1, rfl⟩)
      · obtain ⟨f, hf, rfl⟩ := List.mem_map.mp h1
        exact List.mem_append_right _ (List.mem_map.mpr ⟨f, hf, rfl⟩)
    simp [this.1, this.2]
  have hrows : 2 ≤ prod (sizes (init ++ [last])) := by
    have hp := h.points
    clear * - hp hlen
    induction init with
    | nil => simpa [sizes, prod] using hlen
    | cons a init ih =>
      have h1 : 1 ≤ a.2.length := List.length_pos_iff.mpr (hp a (by simp)).1
      have h2 := ih fun c hc => hp c (by simp only [List.cons_append, List.mem_cons] at hc ⊢; exact Or.inr hc)
      rw [List.cons_append, sizes, List.map_cons, prod_cons]
      exact Nat.le_trans h2 (Nat.le_mul_of_pos_left _ h1)
  unfold findCrds
  simp only [hc]
  rw [hfil, if_neg (by show ¬ f0.rows ≤ 1; omega), if_neg (by
    intro e
    have := congrArg List.length e
    rw [List.length_append, List.length_zip, mesh_length] at this
    simp at this)]
  have hch := changes_still _ (g.flds.map fun f => (f.name, f.vals)) (mesh_still init last hlen h.points)
  rw [hch]
  unfold Frame.names
  simp only
  rw [List.map_append (l₁ := List.zip _ _), zip_fst_mesh]
  have : (((init ++ [last]).map Prod.fst).zip (mesh ((init ++ [last]).map Prod.snd))).length = ((init ++ [last]).map Prod.fst).length := by
    rw [List.length_zip, mesh_length]; simp
  rw [this, List.take_left]

theorem dropDup_axis (h : Series tc axes b gs) : axes.map (fun a => (a.1, dropDup (gs.flatMap (colG tc axes b a.1)))) = axes := by
  have hm := dropDup_mesh (axes.map Prod.snd) (by
    intro a ha
    obtain ⟨c, hc, rfl⟩ := List.mem_map.mp ha
    exact ⟨(h.points c hc).1, (h.points c hc).2.1⟩)
  apply List.ext_getElem?
  intro k
  rw [List.getElem?_map]
  cases hk : axes[k]? with
  | none => rfl
  | some a =>
    have h1 : ((mesh (axes.map Prod.snd)).map dropDup)[k]? = some a.2 := by rw [hm, List.getElem?_map, hk]; rfl
    rw [List.getElem?_map] at h1
    obtain ⟨c, hc, hca⟩ := Option.map_eq_some_iff.mp h1
    have hmem : (a.1, c) ∈ (axes.map Prod.fst).zip (mesh (axes.map Prod.snd)) := by
      apply List.mem_of_getElem? (i := k)
      rw [List.getElem?_zip_eq_some]
      exact ⟨by rw [List.getElem?_map, hk]; rfl, hc⟩
    have : gs.flatMap (colG tc axes b a.1) = gs.flatMap fun _ => c := frFlatMap_congr gs fun g hg => col_axis h hg hmem
    simp only [Option.map_some]
    rw [this, dropDup_copies c gs h.ne, hca]

theorem build_ok (h : Series tc axes b gs) {g0 : Grid} (hg0 : g0 ∈ gs) (lab : List Nat) (c : Cell) :
    build ⟨lab, (tabG tc axes b g0).names.map fun n => (n, gs.flatMap (colG tc axes b n))⟩ tc "datetime" (axes.map Prod.fst) (gs.map fun g => some (tmOf g)) c =
      .ok (gs.map (rebase c)) := by
  have hgood := (series_good h hg0).2.2
  obtain ⟨hne, hN, hF⟩ := good_ne hgood
  have hnames : (tabG tc axes b g0).names = tc :: (dtNames "datetime" b ++ (axes.map Prod.fst ++ g0.flds.map Fld.name)) := by
    unfold tabG; rw [tab_names]
  unfold build
  rw [mapM_of_forall _ (fun n => gs.flatMap (colG tc axes b n)) (axes.map Prod.fst) (fun n hn => by
    unfold Frame.col
    simp only
    rw [lookup_map]
    rw [hnames]
    exact List.mem_cons_of_mem _ (List.mem_append_right _ (List.mem_append_left _ hn)))]
  simp only
  rw [if_neg (by simpa using hgood.axesNe)]
  have hz : (axes.map Prod.fst).zip (((axes.map Prod.fst).map fun n => gs.flatMap (colG tc axes b n)).map dropDup) = axes := by
    conv => rhs; rw [← dropDup_axis h]
    simp only [List.map_map, List.zip_map', Function.comp_def]
  rw [hz]
  have hfn : (Frame.names ⟨lab, (tabG tc axes b g0).names.map fun n => (n, gs.flatMap (colG tc axes b n))⟩).filter
      (fun n => n ≠ tc && n ≠ "datetime" && n ∉ axes.map Prod.fst) = g0.flds.map Fld.name := by
    have : Frame.names ⟨lab, (tabG tc axes b g0).names.map fun n => (n, gs.flatMap (colG tc axes b n))⟩ = (tabG tc axes b g0).names := by
      unfold Frame.names
      rw [List.map_map, List.map_id'']
      intro x; rfl
    rw [this, hnames, List.filter_cons_of_neg (by simp), List.filter_append, List.filter_append]
    have h1 : (dtNames "datetime" b).filter (fun n => n ≠ tc && n ≠ "datetime" && n ∉ axes.map Prod.fst) = [] := by
      cases b <;> simp [dtNames]
    have h2 : (axes.map Prod.fst).filter (fun n => n ≠ tc && n ≠ "datetime" && n ∉ axes.map Prod.fst) = [] := by
      rw [List.filter_eq_nil_iff]
      intro n hn
      simp [hn]
    rw [h1, h2, List.nil_append, List.nil_append, List.filter_eq_self]
    intro n hn
    have h3 := hN n (List.mem_append_right _ hn)
    have h4 := hF n hn
    simp [h3.1, h3.2, h4]
  rw [hfn]
  refine readGrids_ok h c _ _ (gs.flatMap (colG tc axes b tc)) ?_ (fun g hg => series_atTime h hg0 hg lab) gs fun g hg => ⟨hg, h.names g hg g0 hg0⟩
  unfold Frame.col
  simp only
  rw [lookup_map]
  rw [hnames]; simp

theorem dropDupLab_zero (lab : List Nat) (vs : List Cell) (v : Cell) : (dropDupLab ((0 :: lab).zip (v :: vs))).lookup 0 = some v := by
  simp [dropDupLab]

/-- the times, and the base time -/
theorem timesOf_ok (h : Series tc axes b gs) {g0 : Grid} {gs' : List Grid} (hgs : gs = g0 :: gs') (c : Cell)
    (hb : (b = none ∧ c = none) ∨ ∃ b0, b = some (some b0) ∧ c = some b0) :
    let fr : Frame := ⟨List.range (gs.length * prod (sizes axes)), (tabG tc axes b g0).names.map fun n => (n, gs.flatMap (colG tc axes b n))⟩
    timesOf fr tc "datetime" = .ok (gs.map fun g => some (tmOf g), c, fr.atTime (gs.flatMap (colG tc axes b tc)) (some (tmOf g0))) := by
  intro fr
  have hg0 : g0 ∈ gs := by rw [hgs]; simp
  have hgood := (series_good h hg0).2.2
  obtain ⟨hne, hN, hF⟩ := good_ne hgood
  have hnames : (tabG tc axes b g0).names = tc :: (dtNames "datetime" b ++ (axes.map Prod.fst ++ g0.flds.map Fld.name)) := by
    unfold tabG; rw [tab_names]
  have hpos := series_pos h
  have ht : gs.flatMap (colG tc axes b tc) = gs.flatMap fun g => List.replicate (prod (sizes axes)) (some (tmOf g) : Cell) :=
    frFlatMap_congr gs fun g hg => col_time h hg
  have hcol : fr.col tc = some (gs.flatMap (colG tc axes b tc)) := by
    unfold Frame.col
    rw [lookup_map]
    rw [hnames]; simp
  have hlen : (gs.flatMap (colG tc axes b tc)).length = gs.length * prod (sizes axes) := by
    have : ∀ l : List Grid, (l.flatMap fun g => List.replicate (prod (sizes axes)) (some (tmOf g) : Cell)).length = l.length * prod (sizes axes) := by
      intro l
      induction l with
      | nil => simp
      | cons a l ih => rw [List.flatMap_cons, List.length_append, ih, List.length_cons, Nat.add_mul, Nat.one_mul, List.length_replicate, Nat.add_comm]
    rw [ht, this]
  have hu : (dropDupLab (fr.labels.zip (gs.flatMap (colG tc axes b tc)))).map Prod.snd = gs.map fun g => some (tmOf g) := by
    rw [dropDupLab_snd _ _ (by rw [hlen]; simp [fr]), ht, dropDup_blocks _ hpos (fun g => (some (tmOf g) : Cell))]
    have := series_tm h
    rw [show (gs.map fun g => (some (tmOf g) : Cell)) = (gs.map tmOf).map some by rw [List.map_map]; rfl]
    exact List.Pairwise.map some (fun a b hab e => hab (Option.some.inj e)) this
  have h0 : (dropDupLab (fr.labels.zip (gs.flatMap (colG tc axes b tc)))).lookup 0 = some (some (tmOf g0)) := by
    obtain ⟨m, hm⟩ : ∃ m, prod (sizes axes) = m + 1 := ⟨prod (sizes axes) - 1, by omega⟩
    have e1 : ∃ l, gs.flatMap (colG tc axes b tc) = some (tmOf g0) :: l := by
      rw [ht, hgs, List.flatMap_cons, hm, List.replicate_succ]
      exact ⟨_, rfl⟩
    have e2 : ∃ l, fr.labels = 0 :: l := by
      obtain ⟨k, hk⟩ : ∃ k, gs.length * prod (sizes axes) = k + 1 := by
        rw [hgs, hm, List.length_cons]
        exact ⟨gs'.length * (m + 1) + m, by ring⟩
      show ∃ l, List.range (gs.length * prod (sizes axes)) = 0 :: l
      rw [hk, List.range_succ_eq_map]
      exact ⟨_, rfl⟩
    obtain ⟨l1, e1⟩ := e1
    obtain ⟨l2, e2⟩ := e2
    rw [e1, e2]
    exact dropDupLab_zero _ _ _
  have hbase : baseOf fr (dropDupLab (fr.labels.zip (gs.flatMap (colG tc axes b tc)))) "datetime" = .ok c := by
    have hfn : fr.names = (tabG tc axes b g0).names := by
      unfold Frame.names
      show ((tabG tc axes b g0).names.map fun n => (n, gs.flatMap (colG tc axes b n))).map Prod.fst = _
      rw [List.map_map, List.map_id'']
      · rfl
      · intro x; rfl
    unfold baseOf
    rw [hu]
    rcases hb with ⟨rfl, rfl⟩ | ⟨b0, rfl, rfl⟩
    · rw [if_neg]
      rw [hfn, hnames]
      simp only [dtNames, List.nil_append, List.mem_cons, not_or]
      exact ⟨fun e => hne e.symm, fun hm => (hN _ hm).2 rfl⟩
    · have hmem : "datetime" ∈ (tabG tc axes (some (some b0)) g0).names := by rw [hnames]; simp [dtNames]
      rw [if_pos (by rw [hfn]; exact hmem)]
      have hdc : fr.col "datetime" = some (gs.flatMap fun g => List.replicate (prod (sizes axes)) (some (b0 + tmOf g) : Cell)) := by
        unfold Frame.col
        rw [lookup_map _ _ _ hmem]
        congr 1
        exact frFlatMap_congr gs fun g hg => colG_mem h hg (List.mem_cons_of_mem _ (List.mem_append_left _ (List.mem_singleton.mpr rfl)))
      rw [hdc]
      simp only
      have htm := series_tm h
      rw [dropDup_blocks _ hpos (fun g => (some (b0 + tmOf g) : Cell)) gs (by
        rw [show (gs.map fun g => (some (b0 + tmOf g) : Cell)) = (gs.map tmOf).map fun x => some (b0 + x) by rw [List.map_map]; rfl]
        exact List.Pairwise.map _ (fun a b hab e => hab (by simpa using e)) htm), hgs]
      cases gs' with
      | nil => simp [lift2]
      | cons g1 gs' =>
        have hne' : tmOf g1 - tmOf g0 ≠ 0 := by
          intro e
          rw [hgs] at htm
          simp only [List.map_cons, List.nodup_cons, List.mem_cons, not_or] at htm
          exact htm.1.1 (sub_eq_zero.mp e).symm
        simp only [List.map_cons, lift2, Except.ok.injEq, Option.some.injEq]
        have : b0 + tmOf g1 - (b0 + tmOf g0) = tmOf g1 - tmOf g0 := by ring
        rw [this, div_self hne']
        ring
  unfold timesOf
  rw [hcol]
  simp only
  rw [hbase, h0]
  simp only
  rw [hu]

/-- C168: the fields of the table of grids of different times are those of the grids, with the same names, coordinates, values, times and base time.
    Without a base time theirs is not a time. The names of the axes need not be given if the last axis has two points or more. -/
theorem C168_round_partial (tc : String) (axes : List (String × List Cell)) (b : Option Cell) (gs : List Grid) (h : Series tc axes b gs) (crds : Option (List String))
    (hc : crds = some (axes.map Prod.fst) ∨ crds = none ∧ ∃ a, axes.getLast? = some a ∧ 2 ≤ a.2.length) :
    ∃ fr, toFrame gs none true tc "datetime" = .ok fr ∧
      (∀ b0, b = some (some b0) → fromFrame fr crds tc "datetime" = .ok gs) ∧ (b = none → fromFrame fr crds tc "datetime" = .ok (gs.map (rebase none))) := by
  obtain ⟨g0, gs', hgs⟩ : ∃ g0 gs', gs = g0 :: gs' := by
    cases gs with
    | nil => exact absurd rfl h.ne
    | cons a l => exact ⟨a, l, rfl⟩
  have hg0 : g0 ∈ gs := by rw [hgs]; simp
  have key : ∀ c : Cell, ((b = none ∧ c = none) ∨ ∃ b0, b = some (some b0) ∧ c = some b0) →
      fromFrame ⟨List.range (gs.length * prod (sizes axes)), (tabG tc axes b g0).names.map fun n => (n, gs.flatMap (colG tc axes b n))⟩ crds tc "datetime" =
        .ok (gs.map (rebase c)) := by
    intro c hbc
    unfold fromFrame
    rw [timesOf_ok h hgs c hbc]
    simp only
    rcases hc with rfl | ⟨rfl, hl⟩
    · exact build_ok h hg0 _ c
    · simp only
      rw [findCrds_ok h hg0 _ (series_atTime h hg0 hg0 _) (series_atTime_rows h hg0 _ (by simp)) hl]
      exact build_ok h hg0 _ c
  refine ⟨_, series_frame h hg0, fun b0 hb => ?_, fun hb => key none (Or.inl ⟨hb, rfl⟩)⟩
  rw [key (some b0) (Or.inr ⟨b0, hb, rfl⟩)]
  congr 1
  conv => rhs; rw [← List.map_id gs]
  apply List.map_congr_left
  intro g hg
  obtain ⟨-, h1, h2⟩ := series_good h hg
  obtain ⟨t, bb, fl⟩ := g
  simp only [rebase, id, Grid.mk.injEq, true_and]
  refine ⟨by rw [← hb]; exact h1.symm, ?_⟩
  conv => rhs; rw [← List.map_id fl]
  apply List.map_congr_left
  intro f hf
  have := h2.base f hf
  rw [hb] at this
  obtain ⟨n, t, b', a, v⟩ := f
  simp only at this
  rw [this]
  rfl

/-- and for the table of one grid -/
theorem C168_grid_partial (tc : String) (axes : List (String × List Cell)) (b0 : ℚ) (g : Grid) (h : Series tc axes (some (some b0)) [g]) (crds : Option (List String))
    (hc : crds = some (axes.map Prod.fst) ∨ crds = none ∧ ∃ a, axes.getLast? = some a ∧ 2 ≤ a.2.length) :
    ∃ fr, g.toFrame none true tc "datetime" = .ok fr ∧ fromFrame fr crds tc "datetime" = .ok [g] := by
  have hg := (series_good h (List.mem_singleton.mpr rfl)).2.2
  obtain ⟨fr, h1, h2, -⟩ := C168_round_partial tc axes _ [g] h crds hc
  have h3 := series_frame h (List.mem_singleton.mpr rfl)
  rw [h1] at h3
  refine ⟨_, toFrame_good hg g none rfl, ?_⟩
  have : fr = tabG tc axes (some (some b0)) g := by
    cases h3
    have hcols : ((tabG tc axes (some (some b0)) g).names.map fun n => (n, [g].flatMap (colG tc axes (some (some b0)) n))) = (tabG tc axes (some (some b0)) g).cols := by
      unfold Frame.names
      rw [List.map_map]
      conv => rhs; rw [← List.map_id (tabG tc axes (some (some b0)) g).cols]
      apply List.map_congr_left
      rintro ⟨n, l⟩ hl
      simp only [Function.comp_apply, List.flatMap_cons, List.flatMap_nil, List.append_nil, id]
      rw [colG_mem h (List.mem_singleton.mpr rfl) hl]
    rw [hcols]
    simp only [List.length_singleton, Nat.one_mul]
    rfl
  rw [← h2 b0 rfl, this]
  rfl

/-- C168 fails for grids whose base time is not a time (as those of tables without dates are), if there are two times or more: an IndexError. -/
theorem C168_nat_violated (tc : String) (axes : List (String × List Cell)) (gs : List Grid) (h : Series tc axes (some none) gs) (hl : 2 ≤ gs.length)
    (crds : Option (List String)) : ∃ fr, toFrame gs none true tc "datetime" = .ok fr ∧ fromFrame fr crds tc "datetime" = .error .index := by
  obtain ⟨g0, g1, gs', hgs⟩ : ∃ g0 g1 gs', gs = g0 :: g1 :: gs' := by
    match gs, hl with
    | g0 :: g1 :: gs', _ => exact ⟨g0, g1, gs', rfl⟩
  have hg0 : g0 ∈ gs := by rw [hgs]; simp
  refine ⟨_, series_frame h hg0, ?_⟩
  have hnames : (tabG tc axes (some none) g0).names = tc :: (dtNames "datetime" (some none) ++ (axes.map Prod.fst ++ g0.flds.map Fld.name)) := by
    unfold tabG; rw [tab_names]
  have hpos := series_pos h
  have ht : gs.flatMap (colG tc axes (some none) tc) = gs.flatMap fun g => List.replicate (prod (sizes axes)) (some (tmOf g) : Cell) :=
    frFlatMap_congr gs fun g hg => col_time h hg
  have hmem : "datetime" ∈ (tabG tc axes (some none) g0).names := by rw [hnames]; simp [dtNames]
  have hfn : Frame.names ⟨List.range (gs.length * prod (sizes axes)), (tabG tc axes (some none) g0).names.map fun n => (n, gs.flatMap (colG tc axes (some none) n))⟩ =
      (tabG tc axes (some none) g0).names := by
    unfold Frame.names
    rw [List.map_map, List.map_id'']
    intro x; rfl
  have hdd : dropDup (gs.flatMap (colG tc axes (some none) "datetime")) = [none] := by
    have : gs.flatMap (colG tc axes (some none) "datetime") = gs.flatMap fun _ => List.replicate (prod (sizes axes)) (none : Cell) :=
      frFlatMap_congr gs fun g hg => colG_mem h hg (List.mem_cons_of_mem _ (List.mem_append_left _ (List.mem_singleton.mpr rfl)))
    rw [this, dropDup_copies _ gs h.ne]
    have := dropDup_blocks (prod (sizes axes)) hpos (fun _ : Unit => (none : Cell)) [()] (by simp)
    simpa using this
  have hlen : (gs.flatMap (colG tc axes (some none) tc)).length = gs.length * prod (sizes axes) := by
    have : ∀ l : List Grid, (l.flatMap fun g => List.replicate (prod (sizes axes)) (some (tmOf g) : Cell)).length = l.length * prod (sizes axes) := by
      intro l
      induction l with
      | nil => simp
      | cons a l ih => rw [List.flatMap_cons, List.length_append, ih, List.length_cons, Nat.add_mul, Nat.one_mul, List.length_replicate, Nat.add_comm]
    rw [ht, this]
  have hu : (dropDupLab ((List.range (gs.length * prod (sizes axes))).zip (gs.flatMap (colG tc axes (some none) tc)))).map Prod.snd = gs.map fun g => some (tmOf g) := by
    rw [dropDupLab_snd _ _ (by rw [hlen]; simp), ht, dropDup_blocks _ hpos (fun g => (some (tmOf g) : Cell))]
    have := series_tm h
    rw [show (gs.map fun g => (some (tmOf g) : Cell)) = (gs.map tmOf).map some by rw [List.map_map]; rfl]
    exact List.Pairwise.map some (fun a b hab e => hab (Option.some.inj e)) this
  unfold fromFrame timesOf
  unfold Frame.col
  rw [lookup_map _ _ tc (by rw [hnames]; simp)]
  simp only
  unfold baseOf
  rw [hfn, if_pos hmem, hu]
  unfold Frame.col
  rw [lookup_map _ _ _ hmem]
  simp only [hdd]
  rw [hgs]
  simp only [List.map_cons]

theorem readGrids_times (f : Frame) (tc : String) (c : Cell) (axes : List (String × List Cell)) (names : List String) : ∀ (ts : List Cell) (gs : List Grid),
    readGrids f tc c axes names ts = .ok gs → gs.map Grid.time = ts ∧ ∀ g ∈ gs, g.base = some c
  | [], gs, h => by cases h; simp
  | t :: ts, gs, h => by
    unfold readGrids at h
    split at h
    · cases h
    · split at h
      · cases h
      · rename_i l hl
        cases h
        obtain ⟨h1, h2⟩ := readGrids_times f tc c axes names ts l hl
        refine ⟨by simp [h1], fun g hg => ?_⟩
        rcases List.mem_cons.mp hg with rfl | hg
        · rfl
        · exact h2 g hg

theorem build_times (f : Frame) (tc dc : String) (crds : List String) (ts : List Cell) (c : Cell) (gs : List Grid) (h : build f tc dc crds ts c = .ok gs) :
    gs.map Grid.time = ts ∧ ∀ g ∈ gs, g.base = some c := by
  unfold build at h
  split at h
  · cases h
  · split at h
    · cases h
    · exact readGrids_times f tc c _ _ ts gs h

theorem dropDupLab_sub : ∀ (l : List (Nat × Cell)), ∀ a ∈ dropDupLab l, a ∈ l
  | [], a, h => by simp [dropDupLab] at h
  | b :: l, a, h => by
    simp only [dropDupLab, List.mem_cons, List.mem_filter] at h
    rcases h with rfl | h
    · simp
    · exact List.mem_cons_of_mem _ (dropDupLab_sub l a h.1)

/-- C168 fails for the rest of a table whose row labelled 0 was left out: there is one time, 0, whatever the column of times says. -/
theorem C168_rows_violated (f : Frame) (crds : Option (List String)) (tc dc : String) (h0 : 0 ∉ f.labels) (gs : List Grid) (h : fromFrame f crds tc dc = .ok gs) :
    gs.map Grid.time = [some 0] := by
  have hkey : timesOf f tc dc = .error .key ∨ timesOf f tc dc = .error .index := by
    unfold timesOf
    split
    · exact Or.inl rfl
    · rename_i col _
      simp only
      have : (dropDupLab (f.labels.zip col)).lookup 0 = none := by
        cases hl : (dropDupLab (f.labels.zip col)).lookup 0 with
        | none => rfl
        | some v =>
          have hm : ∀ (l : List (Nat × Cell)), l.lookup 0 = some v → (0, v) ∈ l := by
            intro l
            induction l with
            | nil => intro h; simp at h
            | cons a l ih =>
              intro h
              rw [List.lookup_cons] at h
              by_cases e : a.1 = 0
              · have : (0 == a.1) = true := by simp [e]
                rw [this] at h
                obtain ⟨a1, a2⟩ := a
                simp only [Option.some.injEq] at h e
                subst h; subst e; simp
              · have : (0 == a.1) = false := by rw [beq_eq_false_iff_ne]; exact fun e' => e e'.symm
                rw [this] at h
                exact List.mem_cons_of_mem _ (ih h)
          exact absurd (List.of_mem_zip (dropDupLab_sub _ _ (hm _ hl))).1 h0
      rw [this]
      split
      · rename_i e _
        cases e with
        | key => exact Or.inl rfl
        | index => exact Or.inr rfl
      · exact Or.inl rfl
  unfold fromFrame at h
  rcases hkey with hk | hk
  · rw [hk] at h
    simp only at h
    split at h
    · exact (build_times _ _ _ _ _ _ _ h).1
    · split at h
      · cases h
      · exact (build_times _ _ _ _ _ _ _ h).1
  · rw [hk] at h; cases h

/-- C168 fails for tables whose column of dates has another name than `datetime`: the base time is lost, although that name is given. -/
theorem C168_datetime_col_violated (f : Frame) (crds : Option (List String)) (tc dc : String) (hd : "datetime" ∉ f.names) (gs : List Grid)
    (h : fromFrame f crds tc dc = .ok gs) : ∀ g ∈ gs, g.base = some none := by
  have hkey : timesOf f tc dc = .error .key ∨ ∃ ts f0, timesOf f tc dc = .ok (ts, none, f0) := by
    unfold timesOf
    split
    · exact Or.inl rfl
    · simp only
      unfold baseOf
      rw [if_neg hd]
      simp only
      split
      · exact Or.inl rfl
      · exact Or.inr ⟨_, _, rfl⟩
  unfold fromFrame at h
  rcases hkey with hk | ⟨ts, f0, hk⟩
  all_goals
    rw [hk] at h
    simp only at h
    split at h
    · exact (build_times _ _ _ _ _ _ _ h).2
    · split at h
      · cases h
      · exact (build_times _ _ _ _ _ _ _ h).2

end

/-- C168 fails if the last axis has one point and the names of the axes are not given: it becomes a field. -/
theorem C168_one_point_violated : ∃ (g : Grid) (fr : Frame), Series "time" [("x", [some 0, some 1]), ("y", [some 5])] (some (some 100)) [g] ∧
    g.toFrame none true "time" "datetime" = .ok fr ∧ fromFrame fr none "time" "datetime" =
      .ok [⟨some 3, some (some 100), [⟨"y", some 3, some (some 100), [("x", [some 0, some 1])], [some 5, some 5]⟩,
        ⟨"v", some 3, some (some 100), [("x", [some 0, some 1])], [some 7, some 8]⟩]⟩] := by
  refine ⟨⟨some 3, some (some 100), [⟨"v", some 3, some (some 100), [("x", [some 0, some 1]), ("y", [some 5])], [some 7, some 8]⟩]⟩, _, ?_, rfl, by decide +kernel⟩
  refine ⟨by simp, ?_, by simp, by simp, by decide +kernel⟩
  intro g hg
  rw [List.mem_singleton] at hg
  subst hg
  exact ⟨3, rfl, rfl, by simp, by simp, by decide, by simp, by simp, by simp, by simp [sizes]⟩

/-- C168 fails if the rows were put in another order and the names of the axes are given: the values are at other points, and there is no error. -/
theorem C168_order_violated : fromFrame ⟨[0, 2, 1, 3], [("time", [some 3, some 3, some 3, some 3]), ("x", [some 0, some 1, some 0, some 1]), ("y", [some 0, some 0, some 5, some 5]),
      ("v", [some 10, some 30, some 20, some 40])]⟩ (some ["x", "y"]) "time" "datetime" =
      .ok [⟨some 3, some none, [⟨"v", some 3, some none, [("x", [some 0, some 1]), ("y", [some 0, some 5])], [some 10, some 30, some 20, some 40]⟩]⟩] ∧
    fromFrame ⟨[0, 1, 2, 3], [("time", [some 3, some 3, some 3, some 3]), ("x", [some 0, some 0, some 1, some 1]), ("y", [some 0, some 5, some 0, some 5]),
      ("v", [some 10, some 20, some 30, some 40])]⟩ (some ["x", "y"]) "time" "datetime" =
      .ok [⟨some 3, some none, [⟨"v", some 3, some none, [("x", [some 0, some 1]), ("y", [some 0, some 5])], [some 10, some 20, some 30, some 40]⟩]⟩] := by
  decide +kernel

/-- C168 fails for a table of one row if the names of the axes are not given: a ValueError. -/
theorem C168_one_row_violated (f : Frame) (tc dc : String) (t : Cell) (htc : f.col tc = some [t]) (hd : "datetime" ∉ f.names) (hl : f.labels.length = 1) :
    fromFrame f none tc dc = .error .value := by
  obtain ⟨k, hk⟩ := List.length_eq_one_iff.mp hl
  unfold fromFrame timesOf
  rw [htc]
  simp only
  unfold baseOf
  rw [if_neg hd, hk]
  simp only [List.zip_cons_cons, List.zip_nil_right]
  have hf : ∀ f0 : Frame, f0.labels.length ≤ 1 → findCrds f0 tc dc = .error .value := by
    intro f0 h0
    unfold findCrds
    simp only
    rw [if_pos (by exact h0)]
  cases hlk : (dropDupLab [(k, t)]).lookup 0 with
  | none =>
    simp only
    rw [hf f (by omega)]
  | some t0 =>
    simp only
    rw [hf]
    unfold Frame.atTime
    simp only [hk, List.map_cons, List.map_nil]
    cases hb : (t.isSome && decide (t = t0)) <;> simp [select]

/-- the hypotheses can be met: two times, two axes, one of one point -/
example : Series "time" [("x", [some 5]), ("y", [some 1, some 0])] (some (some 100))
    [⟨some 3, some (some 100), [⟨"v", some 3, some (some 100), [("x", [some 5]), ("y", [some 1, some 0])], [some 7, none]⟩]⟩,
     ⟨some 1, some (some 100), [⟨"v", some 1, some (some 100), [("x", [some 5]), ("y", [some 1, some 0])], [some 8, some 9]⟩]⟩] := by
  refine ⟨by simp, ?_, by decide, by simp, by decide +kernel⟩
  intro g hg
  simp only [List.mem_cons, List.not_mem_nil, or_false] at hg
  rcases hg with rfl | rfl
  · exact ⟨3, rfl, rfl, by simp, by simp, by decide, by simp, by simp, by simp, by simp [sizes]⟩
  · exact ⟨1, rfl, rfl, by simp, by simp, by decide, by simp, by simp, by simp, by simp [sizes]⟩

example : Series "time" [("x", [some 5]), ("y", [some 1, some 0])] (some none)
    [⟨some 3, some none, [⟨"v", some 3, some none, [("x", [some 5]), ("y", [some 1, some 0])], [some 7, none]⟩]⟩,
     ⟨some 1, some none, [⟨"v", some 1, some none, [("x", [some 5]), ("y", [some 1, some 0])], [some 8, some 9]⟩]⟩] := by
  refine ⟨by simp, ?_, by decide, by simp, by decide +kernel⟩
  intro g hg
  simp only [List.mem_cons, List.not_mem_nil, or_false] at hg
  rcases hg with rfl | rfl
  · exact ⟨3, rfl, rfl, by simp, by simp, by decide, by simp, by simp, by simp, by simp [sizes]⟩
  · exact ⟨1, rfl, rfl, by simp, by simp, by decide, by simp, by simp, by simp, by simp [sizes]⟩

/-- and there are tables without the row labelled 0 that can be read: the values of time 3 are lost -/
example : fromFrame ⟨[4, 5, 6], [("time", [some 0, some 0, some 3]), ("x", [some 0, some 1, some 0]), ("v", [some 7, some 8, some 9])]⟩ (some ["x"]) "time" "datetime" =
    .ok [⟨some 0, some none, [⟨"v", some 0, some none, [("x", [some 0, some 1])], [some 7, some 8]⟩]⟩] := by decide +kernel

/-- others are a ValueError -/
example : fromFrame ⟨[4, 5], [("time", [some 3, some 3]), ("x", [some 0, some 1]), ("v", [some 7, some 8])]⟩ none "time" "datetime" = .error .value := by decide +kernel

/-- and tables with a column of dates of another name -/
example : ∃ fr, (Grid.mk (some 3) (some (some 100)) [⟨"v", some 3, some (some 100), [("x", [some 1, some 0])], [some 7, some 8]⟩]).toFrame none true "time" "date" = .ok fr ∧
    fr.names = ["time", "date", "x", "v"] ∧ fromFrame fr none "time" "date" = .ok [⟨some 3, some none, [⟨"v", some 3, some none, [("x", [some 1, some 0])], [some 7, some 8]⟩]⟩] :=
  ⟨_, rfl, by decide +kernel, by decide +kernel⟩

/-- C168: coordinates that are given but are no columns are a KeyError, and no coordinates at all an IndexError -/
theorem C168_columns (f : Frame) (crds : List String) (tc dc : String) (hn : crds = [] ∨ ∃ c ∈ crds, f.col c = none) :
    fromFrame f (some crds) tc dc = .error .index ∨ crds ≠ [] ∧ fromFrame f (some crds) tc dc = .error .key := by
  have hb : ∀ times base, build f tc dc crds times base = .error .index ∨ crds ≠ [] ∧ build f tc dc crds times base = .error .key := by
    intro times base
    rcases hn with rfl | ⟨c, hc, hn⟩
    · exact Or.inl rfl
    · refine Or.inr ⟨(by rintro rfl; cases hc), ?_⟩
      have : ∀ l : List String, c ∈ l → l.mapM (fun c => f.col c) = none := by
        intro l
        induction l with
        | nil => intro h; cases h
        | cons x l ih =>
          intro h
          rw [List.mapM_cons]
          rcases List.mem_cons.mp h with rfl | h
          · rw [hn]
            rfl
          · rw [ih h]
            cases f.col x <;> rfl
      unfold build
      rw [this _ hc]
  unfold fromFrame
  split
  · exact Or.inl rfl
  · exact hb _ _
  · exact hb _ _

example : fromFrame ⟨[0], [("time", [some 3]), ("x", [some 0])]⟩ (some ["y"]) "time" "datetime" = .error .key := by decide +kernel

end Viscid.Props
