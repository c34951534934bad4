import Verif.Spec.SetSlice
import Verif.Lemmas.LazySlice
import Mathlib.Data.List.Nodup
import Mathlib.Data.List.GetD
/-!
# C188: assigning to a selection of a field
-/
namespace Viscid.Props
open Viscid.SetSlice Viscid.Spec.SetSlice
open Viscid.Layout (Arr)
open Viscid.LazySlice (Err Idx Sel axisSel full mem_pyIndices)
open Viscid.Spec.LazySlice (Valid)
open Viscid.Spec.Slice (pyIndices pyRange ap)

theorem ap_nodup (a d : Int) (n : Nat) (hd : d ≠ 0) : (ap a d n).Nodup := by
  unfold ap
  refine List.Nodup.map ?_ List.nodup_range
  intro x y h
  have h1 : (x : Int) * d = (y : Int) * d := by simpa using h
  have := Int.eq_of_mul_eq_mul_right hd h1
  omega

theorem pyIndices_nodup (L : Nat) (a b : Option Int) (d : Int) (hd : d ≠ 0) : ((pyIndices L a b d).map Int.toNat).Nodup := by
  have h1 : (pyIndices L a b d).Nodup := by
    unfold pyIndices pyRange
    split <;> exact ap_nodup _ _ _ hd
  refine List.Nodup.map_on ?_ h1
  intro x hx y hy h
  have := mem_pyIndices L a b d hd x hx
  have := mem_pyIndices L a b d hd y hy
  omega

/-- what `axisSel` gives: for an integer one position in range, for a slice positions in range without repetition -/
theorem axisSel_spec (L : Nat) (i : Idx) (s : Sel) (h : axisSel L i = .ok s) :
    (∃ p, s = .one p ∧ p < L ∧ ∀ q, q < L → (Hit L i q ↔ q = p)) ∨ (∃ l, s = .many l ∧ l.Nodup ∧ (∀ p ∈ l, p < L) ∧ ∀ q, q < L → (Hit L i q ↔ q ∈ l)) := by
  cases i with
  | int i =>
    left
    unfold axisSel at h
    dsimp only at h
    by_cases hi : -(L : Int) ≤ i ∧ i < L
    · rw [if_pos hi] at h
      cases h
      refine ⟨_, rfl, by split <;> omega, fun q hq => ?_⟩
      simp only [Hit]
      by_cases h0 : i < 0
      · rw [if_pos h0]
        omega
      · rw [if_neg h0]
        omega
    · rw [if_neg hi] at h
      cases h
  | slc s =>
    right
    unfold axisSel at h
    dsimp only at h
    by_cases hs : s.step = some 0
    · rw [if_pos hs] at h
      cases h
    · rw [if_neg hs] at h
      cases h
      have hd : s.step.getD 1 ≠ 0 := by
        cases hst : s.step with
        | none => simp
        | some v => rw [hst] at hs; simpa using hs
      refine ⟨_, rfl, pyIndices_nodup L _ _ _ hd, ?_, ?_⟩
      · intro p hp
        obtain ⟨x, hx, rfl⟩ := List.mem_map.mp hp
        have := mem_pyIndices L _ _ _ hd x hx
        omega
      · intro q hq
        simp only [Hit]
        rw [List.mem_map]
        constructor
        · intro h
          exact ⟨_, h, by simp⟩
        · rintro ⟨x, hx, rfl⟩
          have := mem_pyIndices L _ _ _ hd x hx
          rw [Int.toNat_of_nonneg (by omega)]
          exact hx

/-- the entries and what they pick: bounds, no repetition -/
inductive GoodSel : List Nat → List Idx → List SelN → Prop
  | nil : GoodSel [] [] []
  | new {S : List Nat} {I : List Idx} {ss : List SelN} : GoodSel S I ss → GoodSel S I (.new :: ss)
  | one {L : Nat} {S : List Nat} {i : Idx} {I : List Idx} {p : Nat} {ss : List SelN} : p < L → (∀ q, q < L → (Hit L i q ↔ q = p)) → GoodSel S I ss →
      GoodSel (L :: S) (i :: I) (.sel (.one p) :: ss)
  | many {L : Nat} {S : List Nat} {i : Idx} {I : List Idx} {l : List Nat} {ss : List SelN} : l.Nodup → (∀ p ∈ l, p < L) → (∀ q, q < L → (Hit L i q ↔ q ∈ l)) → GoodSel S I ss →
      GoodSel (L :: S) (i :: I) (.sel (.many l) :: ss)
  | rest {L : Nat} {S : List Nat} {l : List Nat} {ss : List SelN} : l.Nodup → (∀ p ∈ l, p < L) → (∀ q, q < L → q ∈ l) → GoodSel S [] ss → GoodSel (L :: S) [] (.sel (.many l) :: ss)

theorem sels_good : ∀ (S : List Nat) (E : List Ent) (ss : List SelN), sels S E = .ok ss → GoodSel S (plain E) ss := by
  intro S E
  fun_induction sels S E with
  | case1 S =>
    intro ss hss
    cases hss
    induction S with
    | nil => exact GoodSel.nil
    | cons L S ih => exact GoodSel.rest List.nodup_range (fun p hp => List.mem_range.mp hp) (fun q hq => List.mem_range.mpr hq) ih
  | case2 S E r h ih =>
    intro ss hss
    cases hss
    exact GoodSel.new (ih r h)
  | case3 S E e h ih => intro ss hss; cases hss
  | case4 => intro ss hss; cases hss
  | case5 => intro ss hss; cases hss
  | case6 L S i E s h r hr ih =>
    intro ss hss
    cases hss
    rcases axisSel_spec L i s h with ⟨p, rfl, h2, h3⟩ | ⟨l, rfl, h2, h3, h4⟩
    · exact GoodSel.one h2 h3 (ih r hr)
    · exact GoodSel.many h2 h3 h4 (ih r hr)
  | case7 => intro ss hss; cases hss

theorem valid_cons {n : Nat} {S j : List Nat} (h : Valid (n :: S) j) : ∃ i k, j = i :: k ∧ i < n ∧ Valid S k := by
  cases j with
  | nil => exact absurd h (by simp [Valid])
  | cons i k => exact ⟨i, k, rfl, h⟩

theorem unsubst_subst {S : List Nat} {I : List Idx} {ss : List SelN} (h : GoodSel S I ss) : ∀ j, Valid (shapeOf ss) j → unsubst ss (subst ss j) = some j := by
  induction h with
  | nil =>
    intro j hj
    cases j with
    | nil => rfl
    | cons => exact absurd hj (by simp [shapeOf, Valid])
  | new _ ih =>
    intro j hj
    obtain ⟨i, k, rfl, hi, hk⟩ := valid_cons hj
    have : i = 0 := by omega
    subst this
    simp [subst, unsubst, ih k hk]
  | one hp _ _ ih =>
    intro j hj
    simp [subst, unsubst, ih j hj]
  | many hnd hlt _ _ ih =>
    intro j hj
    obtain ⟨i, k, rfl, hi, hk⟩ := valid_cons hj
    simp only [subst, unsubst, List.headD_cons, List.tail_cons, ih k hk]
    rw [List.getD_eq_getElem _ _ hi, if_pos (List.getElem_mem hi), List.Nodup.idxOf_getElem hnd]
    rfl
  | rest hnd hlt _ _ ih =>
    intro j hj
    obtain ⟨i, k, rfl, hi, hk⟩ := valid_cons hj
    simp only [subst, unsubst, List.headD_cons, List.tail_cons, ih k hk]
    rw [List.getD_eq_getElem _ _ hi, if_pos (List.getElem_mem hi), List.Nodup.idxOf_getElem hnd]
    rfl

/-- an index is picked exactly if it is the place of an index of the result -/
theorem unsubst_picked {S : List Nat} {I : List Idx} {ss : List SelN} (h : GoodSel S I ss) : ∀ k, Valid S k → ((unsubst ss k).isSome ↔ Picked S I k) := by
  induction h with
  | nil =>
    intro k hk
    cases k with
    | nil => exact ⟨fun _ => Picked.nil, fun _ => rfl⟩
    | cons => exact absurd hk (by simp [Valid])
  | new _ ih =>
    intro k hk
    rw [← ih k hk]
    simp [unsubst]
  | @one L S t I p ss hp hh _ ih =>
    intro k hk
    obtain ⟨i, k, rfl, hi, hk⟩ := valid_cons hk
    have e : unsubst (.sel (.one p) :: ss) (i :: k) = if i = p then unsubst ss k else none := rfl
    rw [e]
    constructor
    · intro h
      by_cases h1 : i = p
      · rw [if_pos h1] at h
        exact Picked.cons hi ((hh i hi).mpr h1) ((ih k hk).mp h)
      · rw [if_neg h1] at h
        cases h
    · intro h
      cases h with
      | cons _ h1 h2 => rw [if_pos ((hh i hi).mp h1)]; exact (ih k hk).mpr h2
  | @many L S t I l ss hnd hlt hh _ ih =>
    intro k hk
    obtain ⟨i, k, rfl, hi, hk⟩ := valid_cons hk
    have e : unsubst (.sel (.many l) :: ss) (i :: k) = if i ∈ l then (unsubst ss k).map (l.idxOf i :: ·) else none := rfl
    rw [e]
    constructor
    · intro h
      by_cases h1 : i ∈ l
      · rw [if_pos h1] at h
        exact Picked.cons hi ((hh i hi).mpr h1) ((ih k hk).mp (by simpa using h))
      · rw [if_neg h1] at h
        cases h
    · intro h
      cases h with
      | cons _ h1 h2 => rw [if_pos ((hh i hi).mp h1)]; simpa using (ih k hk).mpr h2
  | @rest L S l ss hnd hlt hh _ ih =>
    intro k hk
    obtain ⟨i, k, rfl, hi, hk⟩ := valid_cons hk
    have e : unsubst (.sel (.many l) :: ss) (i :: k) = if i ∈ l then (unsubst ss k).map (l.idxOf i :: ·) else none := rfl
    rw [e, if_pos (hh i hi)]
    constructor
    · intro h
      exact Picked.rest hi ((ih k hk).mp (by simpa using h))
    · intro h
      cases h with
      | rest _ h2 => simpa using (ih k hk).mpr h2

theorem src_unique {s j i i' : List Nat} (h : Src s j i) (h' : Src s j i') : i = i' := by
  have : i.reverse = i'.reverse := by
    apply List.ext_getElem?
    intro d
    by_cases hd : d < s.length
    · have hs : s.reverse[d]? = some (s.reverse[d]'(by simpa using hd)) := List.getElem?_eq_getElem _
      rw [h.2 d _ hs, h'.2 d _ hs]
    · rw [List.getElem?_eq_none (by simp [h.1]; omega), List.getElem?_eq_none (by simp [h'.1]; omega)]
  exact List.reverse_inj.mp this

theorem bidxRev_length : ∀ (s j : List Nat), (bidxRev s j).length = s.length
  | [], _ => rfl
  | x :: s, j => by simp [bidxRev, bidxRev_length s j.tail]

theorem bidxRev_get : ∀ (s j : List Nat) (d n : Nat), s[d]? = some n → (bidxRev s j)[d]? = some (if n = 1 then 0 else j.getD d 0)
  | [], _, _, _, h => by simp at h
  | x :: s, j, 0, n, h => by
    simp only [List.getElem?_cons_zero, Option.some.injEq] at h
    subst h
    cases j <;> simp [bidxRev]
  | x :: s, j, d + 1, n, h => by
    rw [List.getElem?_cons_succ] at h
    have := bidxRev_get s j.tail d n h
    simp only [bidxRev, List.getElem?_cons_succ, this]
    cases j <;> simp

theorem strip_eq (n : Nat) : ∀ s : List Nat, ∃ m, s = List.replicate m 1 ++ strip n s
  | [] => ⟨0, rfl⟩
  | x :: l => by
    unfold strip
    by_cases h : x = 1 ∧ n < l.length + 1
    · rw [if_pos h]
      obtain ⟨m, hm⟩ := strip_eq n l
      exact ⟨m + 1, by rw [List.replicate_succ, List.cons_append, ← hm, h.1]⟩
    · rw [if_neg h]
      exact ⟨0, rfl⟩

theorem bget_src (v : Arr α) (n : Nat) (j i : List Nat) (h : Src v.shape j i) : bget v n j = v.get i := by
  unfold bget
  congr 1
  refine src_unique ?_ h
  obtain ⟨m, hm⟩ := strip_eq n v.shape
  have hl : v.shape.length - (strip n v.shape).length = m := by
    have := congrArg List.length hm
    simp at this
    omega
  rw [hl]
  constructor
  · have := congrArg List.length hm
    simp [bidxRev_length] at this ⊢
    omega
  · intro d x hx
    rw [hm, List.reverse_append, List.reverse_replicate] at hx
    rw [List.reverse_append, List.reverse_reverse, List.reverse_replicate]
    by_cases hd : d < (strip n v.shape).length
    · rw [List.getElem?_append_left (by simpa using hd)] at hx
      rw [List.getElem?_append_left (by rw [bidxRev_length]; simpa using hd)]
      exact bidxRev_get _ _ d x hx
    · rw [List.getElem?_append_right (by simpa using hd)] at hx
      rw [List.getElem?_append_right (by rw [bidxRev_length]; simpa using hd)]
      rw [List.getElem?_replicate] at hx ⊢
      rw [bidxRev_length]
      split at hx
      · cases hx
        rw [if_pos (by assumption), if_pos rfl]
      · cases hx

theorem assign_spec (a : Arr α) (E : List Ent) (v a' : Arr α) (h : assign a E v = .ok a') :
    a'.shape = a.shape ∧ (∃ r, index a' E = .ok r ∧ ∀ j i, Valid r.shape j → Src v.shape j i → r.get j = v.get i) ∧
      ∀ k, Valid a.shape k → ¬ Picked a.shape (plain E) k → a'.get k = a.get k := by
  unfold assign at h
  cases hs : sels a.shape E with
  | error e => rw [hs] at h; cases h
  | ok ss =>
    rw [hs] at h
    dsimp only at h
    split at h
    · cases h
      have hg := sels_good _ _ _ hs
      refine ⟨rfl, ⟨⟨shapeOf ss, _⟩, by unfold index; dsimp only; rw [hs], ?_⟩, ?_⟩
      · intro j i hj hi
        dsimp only at hj ⊢
        rw [unsubst_subst hg j hj]
        exact bget_src v _ j i hi
      · intro k hk hnp
        dsimp only
        rw [← unsubst_picked hg k hk] at hnp
        cases hu : unsubst ss k with
        | none => rfl
        | some j => rw [hu] at hnp; exact absurd rfl hnp
    · cases h

/-- where new axes may be in an assignment: for vectors with the components last, not after as many entries as there are axes -/
def NewEarly (f : SetSlice.Fld α) (slices : List Ent) : Prop := (∃ n, f.comps = some (false, n)) → ∀ e ∈ slices.drop f.nsd, e ≠ Ent.newax

theorem ents_same (f : SetSlice.Fld α) (slices : List Ent) (comp : Idx) (hl : (plain slices).length = f.nsd) (hn : 0 < f.nsd) (h : NewEarly f slices) :
    f.setEnts slices comp = f.getEnts slices comp := by
  unfold SetSlice.Fld.setEnts SetSlice.Fld.getEnts SetSlice.Fld.nrComp
  cases hc : f.comps with
  | none => rfl
  | some c =>
    obtain ⟨b, n⟩ := c
    cases b with
    | true => simp
    | false =>
      simp only [Option.map_some, Bool.false_eq_true, if_false]
      rw [if_neg (by omega)]
      congr 1
      have h1 := h ⟨n, hc⟩
      have hlen : ∀ E : List Ent, E.length = (plain E).length + E.count .newax := by
        intro E
        induction E with
        | nil => rfl
        | cons e E ih =>
          cases e with
          | newax => simp [plain] at ih ⊢; omega
          | idx i => simp [plain] at ih ⊢; omega
      have h2 : slices.count .newax = (slices.take f.nsd).count .newax := by
        conv_lhs => rw [← List.take_append_drop f.nsd slices]
        rw [List.count_append, List.count_eq_zero.mpr (fun hm => h1 _ hm rfl)]
        rfl
      have := hlen slices
      omega

/-- C188: what is assigned to a selection of a field is what the same selection then gives, whatever the selection and the value; all other values are as before. For
vectors with the components last, this needs that no new axis comes late in the selection -/
theorem C188_set_partial (f : SetSlice.Fld α) (slices : List Ent) (comp : Idx) (v : Arr α) (f' : SetSlice.Fld α) (hl : (plain slices).length = f.nsd) (hn : 0 < f.nsd)
    (he : NewEarly f slices) (h : f.setSlice slices comp v = .ok f') :
    f'.data.shape = f.data.shape ∧ (∃ r, f'.getSlice slices comp = .ok r ∧ ∀ j i, Valid r.shape j → Src v.shape j i → r.get j = v.get i) ∧
      ∀ k, Valid f.data.shape k →
        ¬ Picked f.data.shape (match f.comps with | none => plain slices | some (true, _) => comp :: plain slices | some (false, _) => plain slices ++ [comp]) k →
        f'.data.get k = f.data.get k := by
  unfold SetSlice.Fld.setSlice at h
  cases ha : assign f.data (f.setEnts slices comp) v with
  | error e => rw [ha] at h; cases h
  | ok d =>
    rw [ha] at h
    cases h
    obtain ⟨h1, ⟨r, h2, h3⟩, h4⟩ := assign_spec _ _ _ _ ha
    refine ⟨h1, ⟨r, ?_, h3⟩, ?_⟩
    · unfold SetSlice.Fld.getSlice
      rw [ents_same f slices comp hl hn he] at h2
      exact h2
    · intro k hk hnp
      refine h4 k hk ?_
      rw [ents_same f slices comp hl hn he]
      intro hp
      apply hnp
      unfold SetSlice.Fld.getEnts SetSlice.Fld.nrComp at hp
      cases hc : f.comps with
      | none => rw [hc] at hp; exact hp
      | some c =>
        obtain ⟨b, n⟩ := c
        cases b with
        | true =>
          rw [hc] at hp
          simpa [insertAt, plain] using hp
        | false =>
          rw [hc] at hp
          simp only [Option.map_some, Bool.false_eq_true, if_false] at hp
          rw [if_neg (by omega)] at hp
          simpa [insertAt, plain] using hp

/-- C188: which assignments raise: those whose selection could not be read either, and those whose value does not have a shape that can be broadcast -/
theorem C188_raises_partial (f : SetSlice.Fld α) (slices : List Ent) (comp : Idx) (v : Arr α) (hl : (plain slices).length = f.nsd) (hn : 0 < f.nsd) (he : NewEarly f slices) :
    (∀ e, f.getSlice slices comp = .error e → f.setSlice slices comp v = .error e) ∧
      (∀ r, f.getSlice slices comp = .ok r → (v.shape = [] ∨ v.shape = r.shape → ∃ f', f.setSlice slices comp v = .ok f') ∧
        (v.shape.length = r.shape.length → (∃ d x y : Nat, v.shape[d]? = some x ∧ r.shape[d]? = some y ∧ x ≠ 1 ∧ x ≠ y) → f.setSlice slices comp v = .error .valueError)) := by
  unfold SetSlice.Fld.getSlice SetSlice.Fld.setSlice assign index
  rw [ents_same f slices comp hl hn he]
  cases hs : sels f.data.shape (f.getEnts slices comp) with
  | error e =>
    constructor
    · rintro e' h
      cases h
      rfl
    · rintro r h
      cases h
  | ok ss =>
    have hself : ∀ s : List Nat, fitsRev s s = true := by
      intro s
      induction s with
      | nil => rfl
      | cons x s ih => simp [fitsRev, ih]
    have hst : ∀ n (s : List Nat), s.length ≤ n → strip n s = s := by
      intro n s h
      cases s with
      | nil => rfl
      | cons x l =>
        unfold strip
        rw [if_neg (by simp at h; omega)]
    have hbad : ∀ (s t : List Nat) (d x y : Nat), s[d]? = some x → t[d]? = some y → x ≠ 1 → x ≠ y → fitsRev s t = false := by
      intro s
      induction s with
      | nil => intro t d x y h; simp at h
      | cons a s ih =>
        intro t d x y h1 h2 h3 h4
        cases t with
        | nil => rfl
        | cons b t =>
          cases d with
          | zero =>
            simp at h1 h2
            subst h1 h2
            simp [fitsRev, h3, h4]
          | succ d =>
            simp at h1 h2
            simp [fitsRev, ih t d x y h1 h2 h3 h4]
    refine ⟨fun e h => (by cases h), fun r h => ?_⟩
    cases h
    dsimp only
    constructor
    · rintro (h | h)
      · rw [h]
        exact ⟨_, rfl⟩
      · rw [h, hst _ _ (Nat.le_refl _), if_pos (hself _)]
        exact ⟨_, rfl⟩
    · rintro hlen ⟨d, x, y, h1, h2, h3, h4⟩
      have hd := (List.getElem?_eq_some_iff.mp h1).1
      have : fitsRev (strip (shapeOf ss).length v.shape).reverse (shapeOf ss).reverse = false := by
        rw [hst _ _ (Nat.le_of_eq hlen)]
        refine hbad _ _ (v.shape.length - 1 - d) x y ?_ ?_ h3 h4
        · rw [List.getElem?_reverse (by omega)]
          rw [← h1]; congr 1; omega
        · rw [List.getElem?_reverse (by omega)]
          rw [← h2]; congr 1; omega
      rw [this]
      rfl

/-- C188: which values can be assigned to a selection that can be read: with no more axes than it has, those whose sizes, counted from the last, are 1 or those of the selection -/
theorem C188_broadcast_partial (f : SetSlice.Fld α) (slices : List Ent) (comp : Idx) (v r : Arr α) (hl : (plain slices).length = f.nsd) (hn : 0 < f.nsd) (he : NewEarly f slices)
    (hr : f.getSlice slices comp = .ok r) (hv : v.shape.length ≤ r.shape.length) :
    ((∃ f', f.setSlice slices comp v = .ok f') ↔ ∀ d x y : Nat, v.shape.reverse[d]? = some x → r.shape.reverse[d]? = some y → x = 1 ∨ x = y) ∧
      ((¬ ∃ f', f.setSlice slices comp v = .ok f') → f.setSlice slices comp v = .error .valueError) := by
  unfold SetSlice.Fld.getSlice index at hr
  unfold SetSlice.Fld.setSlice assign
  rw [ents_same f slices comp hl hn he]
  cases hs : sels f.data.shape (f.getEnts slices comp) with
  | error e => rw [hs] at hr; cases hr
  | ok ss =>
    rw [hs] at hr
    cases hr
    have hst : ∀ n (s : List Nat), s.length ≤ n → strip n s = s := by
      intro n s h
      cases s with
      | nil => rfl
      | cons x l =>
        unfold strip
        rw [if_neg (by simp at h; omega)]
    have hfit : ∀ (s t : List Nat), s.length ≤ t.length → (fitsRev s t = true ↔ ∀ d x y : Nat, s[d]? = some x → t[d]? = some y → x = 1 ∨ x = y) := by
      intro s
      induction s with
      | nil => intro t _; simp [fitsRev]
      | cons a s ih =>
        intro t ht
        cases t with
        | nil => simp at ht
        | cons b t =>
          unfold fitsRev
          rw [Bool.and_eq_true, ih t (by simpa using ht)]
          constructor
          · rintro ⟨h1, h2⟩ d x y hx hy
            cases d with
            | zero => simp at hx hy; subst hx hy; simpa using h1
            | succ d => exact h2 d x y (by simpa using hx) (by simpa using hy)
          · intro h
            exact ⟨by simpa using h 0 a b rfl rfl, fun d x y hx hy => h (d + 1) x y (by simpa using hx) (by simpa using hy)⟩
    have hiff := hfit v.shape.reverse (shapeOf ss).reverse (by simpa using hv)
    dsimp only at hv ⊢
    rw [hst _ _ hv]
    by_cases hc : fitsRev v.shape.reverse (shapeOf ss).reverse = true
    · rw [if_pos hc]
      exact ⟨⟨fun _ => hiff.mp hc, fun _ => ⟨_, rfl⟩⟩, fun h => absurd ⟨_, rfl⟩ h⟩
    · rw [if_neg hc]
      exact ⟨⟨fun h => (nomatch h), fun h => absurd (hiff.mpr h) hc⟩, fun _ => rfl⟩

/-- C188 is violated: `fld[:, None] = fld[:, None]` raises for a vector field with its two or more components last -/
theorem C188_trailing_violated (X C : Nat) (hC : 2 ≤ C) (g : List Nat → α) (f : SetSlice.Fld α) (hf : f = ⟨1, some (false, C), ⟨[X, C], g⟩⟩) :
    ∃ r, f.getSlice [.idx full, .newax] full = .ok r ∧ f.setSlice [.idx full, .newax] full r = .error .valueError := by
  have hfull : ∀ L : Nat, axisSel L full = .ok (.many (List.range L)) := by
    intro L
    have h : axisSel L full = .ok (.many ((pyIndices L none none 1).map Int.toNat)) := rfl
    rw [h, LazySlice.pyIndices_fwd L none (Or.inl rfl) none (Or.inl rfl), LazySlice.toNat_cast]
  subst hf
  have e1 : ∃ r, index (⟨[X, C], g⟩ : Arr α) [.idx full, .newax, .idx full] = .ok r ∧ r.shape = [X, 1, C] := by
    unfold index
    simp [sels, hfull, shapeOf]
  obtain ⟨r, h1, h2⟩ := e1
  refine ⟨r, h1, ?_⟩
  have e : strip 3 [X, 1, C] = [X, 1, C] := by
    unfold strip
    rw [if_neg (by simp)]
  unfold SetSlice.Fld.setSlice assign SetSlice.Fld.setEnts SetSlice.Fld.nrComp
  simp [insertAt, sels, hfull, shapeOf, h2, e, fitsRev, show C ≠ 1 by omega]

/-- C188 is violated: with two new axes between the axes of a vector field with its components last, the last index and that of the component are exchanged:
`fld[i, None, None, j]` with component `c` gets its value at `[i, c, j]` -/
theorem C188_exchanged_violated (X Y C i j c : Nat) (hi : i < X) (hj : j < C) (hc : c < Y) (g : List Nat → α) (v : α) (f : SetSlice.Fld α)
    (hf : f = ⟨2, some (false, C), ⟨[X, Y, C], g⟩⟩) :
    ∃ f', f.setSlice [.idx (.int i), .newax, .newax, .idx (.int j)] (.int c) ⟨[], fun _ => v⟩ = .ok f' ∧
      ∀ a b d, f'.data.get [a, b, d] = if a = i ∧ b = c ∧ d = j then v else g [a, b, d] := by
  have hint : ∀ L p : Nat, p < L → axisSel L (.int p) = .ok (.one p) := by
    intro L p h
    unfold axisSel
    dsimp only
    rw [if_pos (by omega), if_neg (by omega), Int.toNat_natCast]
  subst hf
  have e : sels [X, Y, C] [.idx (.int i), .newax, .newax, .idx (.int c), .idx (.int j)] = .ok [.sel (.one i), .new, .new, .sel (.one c), .sel (.one j)] := by
    simp [sels, hint, hi, hj, hc]
  refine ⟨⟨2, some (false, C), ⟨[X, Y, C], fun k => match unsubst [.sel (.one i), .new, .new, .sel (.one c), .sel (.one j)] k with
    | some _ => v
    | none => g k⟩⟩, ?_, ?_⟩
  · unfold SetSlice.Fld.setSlice assign
    have e2 : SetSlice.Fld.setEnts (⟨2, some (false, C), ⟨[X, Y, C], g⟩⟩ : SetSlice.Fld α) [.idx (.int i), .newax, .newax, .idx (.int j)] (.int c) =
      [.idx (.int i), .newax, .newax, .idx (.int c), .idx (.int j)] := rfl
    rw [e2]
    dsimp only
    rw [e]
    rfl
  · intro a b d
    simp only [unsubst, List.headD_cons, List.tail_cons]
    by_cases h1 : a = i <;> by_cases h2 : b = c <;> by_cases h3 : d = j <;> simp [h1, h2, h3]

/-- a vector field with 3×2 values of 2 components: assigning to every second x, the last y and the second component -/
example : ((⟨2, some (false, 2), ⟨[3, 2, 2], fun k => 100 * k.getD 0 0 + 10 * k.getD 1 0 + k.getD 2 0⟩⟩ : SetSlice.Fld Nat).setSlice
      [.idx (.slc ⟨none, none, some (-2)⟩), .idx (.int (-1))] (.int 1) ⟨[2], fun k => 7 + k.getD 0 0⟩).map
      (fun f' => [[0, 0, 0], [0, 1, 1], [1, 1, 1], [2, 1, 0], [2, 1, 1]].map f'.data.get) = .ok [0, 8, 111, 210, 7] := by decide +kernel

example : NewEarly (⟨2, some (false, 2), ⟨[3, 2, 2], fun _ => 0⟩⟩ : SetSlice.Fld Nat) [.newax, .idx (.int 0), .idx full] := by
  intro _ e he
  simp at he
  subst he
  simp

end Viscid.Props
