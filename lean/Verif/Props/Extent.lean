import Verif.Model.Extent
import Verif.Spec.Extent
/-!
# C237: limits of fields, and the extent of selections
-/
namespace Viscid.Props
open Viscid.Extent Viscid.Spec.Extent
open Viscid.AmrSlice (E num Sel Patch extents extent1)

namespace EX

theorem fold_spec (f : ℚ → ℚ → ℚ) (rel : ℚ → ℚ → Prop) (hr : ∀ x, rel x x) (ht : ∀ x y z, rel x y → rel y z → rel x z)
    (h1 : ∀ a b, rel (f a b) a ∧ rel (f a b) b ∧ (f a b = a ∨ f a b = b)) (d : Nat) (rs : List (List ℚ)) :
    ∀ r : List ℚ, r.length = d → (∀ s ∈ rs, s.length = d) →
      (rs.foldl (List.zipWith f) r).length = d ∧
      ∀ (k : Nat) (m : ℚ), (rs.foldl (List.zipWith f) r)[k]? = some m →
        (∃ s ∈ r :: rs, s[k]? = some m) ∧ ∀ s ∈ r :: rs, ∀ x, s[k]? = some x → rel m x := by
  induction rs with
  | nil =>
    intro r hd _
    refine ⟨hd, fun k m hm => ⟨⟨r, by simp, hm⟩, ?_⟩⟩
    intro s hs x hx
    simp only [List.mem_singleton] at hs
    subst hs
    rw [List.foldl_nil] at hm
    rw [hm] at hx
    obtain rfl := Option.some.inj hx
    exact hr _
  | cons q rs ih =>
    intro r hd hs
    have hq : q.length = d := hs q (by simp)
    have hz : (List.zipWith f r q).length = d := by simp [hd, hq]
    obtain ⟨i1, i2⟩ := ih (List.zipWith f r q) hz (fun s h => hs s (List.mem_cons_of_mem _ h))
    refine ⟨i1, fun k m hm => ?_⟩
    obtain ⟨⟨s, hs1, hs2⟩, j2⟩ := i2 k m hm
    have hk : k < d := by
      have := (List.getElem?_eq_some_iff.1 hm).1
      rw [List.foldl_cons] at this; omega
    have er : r[k]? = some (r[k]'(by omega)) := by rw [List.getElem?_eq_getElem]
    have eq : q[k]? = some (q[k]'(by omega)) := by rw [List.getElem?_eq_getElem]
    have ez : (List.zipWith f r q)[k]? = some (f (r[k]'(by omega)) (q[k]'(by omega))) := by
      rw [List.getElem?_zipWith, er, eq]
    obtain ⟨a1, a2, a3⟩ := h1 (r[k]'(by omega)) (q[k]'(by omega))
    have hm' := j2 _ List.mem_cons_self _ ez
    constructor
    · rcases List.mem_cons.1 hs1 with rfl | h
      · rw [ez] at hs2
        rcases a3 with a3 | a3
        · exact ⟨r, by simp, by rw [er, ← a3]; exact hs2⟩
        · exact ⟨q, by simp, by rw [eq, ← a3]; exact hs2⟩
      · exact ⟨s, by simp [h], hs2⟩
    · intro s hs x hx
      rcases List.mem_cons.1 hs with rfl | h
      · rw [er] at hx; obtain rfl := Option.some.inj hx
        exact ht _ _ _ hm' a1
      · rcases List.mem_cons.1 h with rfl | h
        · rw [eq] at hx; obtain rfl := Option.some.inj hx
          exact ht _ _ _ hm' a2
        · exact j2 s (List.mem_cons_of_mem _ h) x hx

theorem min_spec (a b : ℚ) : min a b ≤ a ∧ min a b ≤ b ∧ (min a b = a ∨ min a b = b) :=
  ⟨min_le_left a b, min_le_right a b, min_choice a b⟩
theorem max_spec (a b : ℚ) : a ≤ max a b ∧ b ≤ max a b ∧ (max a b = a ∨ max a b = b) :=
  ⟨le_max_left a b, le_max_right a b, max_choice a b⟩

theorem extents_len : ∀ (sel : List Sel) (es : List (E × E)), extents sel = .ok es → es.length = sel.length
  | [], es, h => by cases h; rfl
  | s :: l, es, h => by
    unfold extents at h
    cases h1 : extent1 s with
    | error e => rw [h1] at h; simp at h
    | ok x =>
      cases h2 : extents l with
      | error e => rw [h1, h2] at h; simp at h
      | ok xs =>
        rw [h1, h2] at h
        obtain rfl : x :: xs = es := by simpa using h
        simp [extents_len l xs h2]

theorem extents_get : ∀ (sel : List Sel) (es : List (E × E)), extents sel = .ok es → ∀ (k : Nat) (s : Sel), sel[k]? = some s →
    ∃ e, es[k]? = some e ∧ extent1 s = .ok e
  | [], _, _, k, s, hk => by simp at hk
  | s :: l, es, h, k, s', hk => by
    unfold extents at h
    cases h1 : extent1 s with
    | error e => rw [h1] at h; simp at h
    | ok x =>
      cases h2 : extents l with
      | error e => rw [h1, h2] at h; simp at h
      | ok xs =>
        rw [h1, h2] at h
        obtain rfl : x :: xs = es := by simpa using h
        cases k with
        | zero => simp only [List.getElem?_cons_zero, Option.some.injEq] at hk; subst hk; exact ⟨x, rfl, h1⟩
        | succ k => exact extents_get l xs h2 k s' (by simpa using hk)

theorem loop_full (lo hi : List E) (es : List (E × E)) (n : Nat) :
    loop lo hi (es.map fun e => (some e.1, some e.2)) n = if n ≤ es.length then .ok (es.map fun e => (some e.1, some e.2)) else .error .index := by
  induction n with
  | zero => simp [loop]
  | succ n ih =>
    unfold loop
    rw [ih]
    by_cases h : n + 1 ≤ es.length
    · rw [if_pos (by omega), if_pos h]
      simp only [List.getElem?_map, List.getElem?_eq_getElem (show n < es.length by omega), Option.map_some]
    · rw [if_neg h]
      by_cases h' : n ≤ es.length
      · rw [if_pos h']
        have : es[n]? = none := List.getElem?_eq_none (by omega)
        simp [this]
      · rw [if_neg h']

end EX

/-- C237: the limits of a field of patches are, along each axis, the least and the greatest of those of its patches; also when
they are taken from the skeleton, for the patches of which they are. -/
theorem C237_limits (d : Nat) (ps : List Patch) (hne : ps ≠ []) (hd : ∀ p ∈ ps, p.lo.length = d ∧ p.hi.length = d) :
    ∀ sk ∈ [none, some ps], ∃ l h, xl sk ps = .ok l ∧ xh sk ps = .ok h ∧ l.length = d ∧ h.length = d ∧
      ∀ (k : Nat) (a b : ℚ), l[k]? = some a → h[k]? = some b → Least (ps.map Patch.lo) k a ∧ Greatest (ps.map Patch.hi) k b := by
  obtain ⟨p, qs, rfl⟩ : ∃ p qs, ps = p :: qs := by
    cases ps with
    | nil => exact absurd rfl hne
    | cons p qs => exact ⟨p, qs, rfl⟩
  have h1 := EX.fold_spec min (· ≤ ·) (fun _ => le_refl _) (fun _ _ _ => le_trans) EX.min_spec d (qs.map Patch.lo) p.lo
    (hd p (by simp)).1 (fun s hs => by obtain ⟨q, hq, rfl⟩ := List.mem_map.1 hs; exact (hd q (by simp [hq])).1)
  have h2 := EX.fold_spec max (fun a b => b ≤ a) (fun _ => le_refl _) (fun _ _ _ h h' => le_trans h' h) EX.max_spec d (qs.map Patch.hi) p.hi
    (hd p (by simp)).2 (fun s hs => by obtain ⟨q, hq, rfl⟩ := List.mem_map.1 hs; exact (hd q (by simp [hq])).2)
  intro sk hsk
  have : sk.getD (p :: qs) = p :: qs := by
    simp only [List.mem_cons, List.not_mem_nil, or_false] at hsk
    rcases hsk with rfl | rfl <;> rfl
  unfold xl xh
  rw [this]
  exact ⟨_, _, rfl, rfl, h1.1, h2.1, fun k a b ha hb => ⟨h1.2 k a ha, h2.2 k b hb⟩⟩

/-- C237: with a skeleton the limits are those of its patches, whatever patches the field has. -/
theorem C237_skeleton (d : Nat) (sk ps : List Patch) (hne : sk ≠ []) (hd : ∀ p ∈ sk, p.lo.length = d ∧ p.hi.length = d) :
    ∃ l h, xl (some sk) ps = .ok l ∧ xh (some sk) ps = .ok h ∧ l.length = d ∧ h.length = d ∧
      ∀ (k : Nat) (a b : ℚ), l[k]? = some a → h[k]? = some b → Least (sk.map Patch.lo) k a ∧ Greatest (sk.map Patch.hi) k b := by
  obtain ⟨l, h, h1, h2, h3⟩ := C237_limits d sk hne hd (some sk) (by simp)
  exact ⟨l, h, h1, h2, h3⟩

/-- C237: a selection of values, or between values, along each of at least three axes has the extent between these values, in order.
Missing: open ends, indices and fewer axes, see the following theorems. -/
theorem C237_values_partial (lo hi : List ℚ) (sel : List Sel) (h3 : 3 ≤ sel.length) (es : List (Option E × Option E))
    (h : sliceExtent lo hi sel = .ok es) :
    es.length = sel.length ∧ ∀ (k : Nat) (a b : ℚ) (u : Option Int),
      (sel[k]? = some (.slc (.val a) (.val b) u) → es[k]? = some (some (num (min a b)), some (num (max a b)))) ∧
      (sel[k]? = some (.one (.val a)) → es[k]? = some (some (num a), some (num a))) := by
  unfold sliceExtent at h
  cases he : extents sel with
  | error e => rw [he] at h; simp at h
  | ok xs =>
    have hl := EX.extents_len sel xs he
    rw [he] at h
    simp only [EX.loop_full] at h
    rw [if_pos (by omega)] at h
    obtain rfl := Except.ok.inj h
    refine ⟨by simp [hl], fun k a b u => ⟨fun hk => ?_, fun hk => ?_⟩⟩
    · obtain ⟨e, h1, h2⟩ := EX.extents_get sel xs he k _ hk
      have hn : ∀ x y : ℚ, num x < num y ↔ x < y := fun x y => by
        unfold num; rw [WithBot.coe_lt_coe, WithTop.coe_lt_coe]
      have : extent1 (.slc (.val a) (.val b) u) = .ok (num (min a b), num (max a b)) := by
        show Except.ok (if num b < num a then (num b, num a) else (num a, num b)) = _
        split
        · rename_i h; have := (hn _ _).1 h; rw [min_eq_right this.le, max_eq_left this.le]
        · rename_i h; have := not_lt.1 (fun h' => h ((hn _ _).2 h')); rw [min_eq_left this, max_eq_right this]
      rw [this] at h2
      obtain rfl := Except.ok.inj h2
      simp [h1]
    · obtain ⟨e, h1, h2⟩ := EX.extents_get sel xs he k _ hk
      have : extent1 (.one (.val a)) = .ok (num a, num a) := by
        show Except.ok (if num a < num a then (num a, num a) else (num a, num a)) = _
        rw [if_neg (lt_irrefl _)]
      rw [this] at h2
      obtain rfl := Except.ok.inj h2
      simp [h1]

/-- C237 is violated: open ends are infinite, and never the limits of the field, though there is code to put these there. -/
theorem C237_open_violated (lo hi : List ℚ) (sel : List Sel) (h3 : 3 ≤ sel.length) (es : List (Option E × Option E))
    (h : sliceExtent lo hi sel = .ok es) (k : Nat) (hk : sel[k]? = some (.slc .none .none none)) :
    es[k]? = some (some ⊥, some ⊤) := by
  unfold sliceExtent at h
  cases he : extents sel with
  | error e => rw [he] at h; simp at h
  | ok xs =>
    have hl := EX.extents_len sel xs he
    rw [he] at h
    simp only [EX.loop_full] at h
    rw [if_pos (by omega)] at h
    obtain rfl := Except.ok.inj h
    obtain ⟨e, h1, h2⟩ := EX.extents_get sel xs he k _ hk
    have : extent1 (.slc .none .none none) = .ok (⊥, ⊤) := by
      show Except.ok (if (⊤ : E) < ⊥ then (⊤, ⊥) else (⊥, ⊤)) = _
      rw [if_neg not_lt_bot]
    rw [this] at h2
    obtain rfl := Except.ok.inj h2
    simp [h1]

/-- C237 is violated: a selection by index along any axis is refused, whatever the field. -/
theorem C237_index_violated (lo hi : List ℚ) (sel : List Sel) (i : Int) (s : Sel)
    (hs : s ∈ sel) (h : s = .one (.idx i) ∨ ∃ b u, s = .slc (.idx i) b u ∨ s = .slc b (.idx i) u) :
    ∃ e, sliceExtent lo hi sel = .error e := by
  cases hr : sliceExtent lo hi sel with
  | error e => exact ⟨e, rfl⟩
  | ok es =>
    exfalso
    unfold sliceExtent at hr
    cases he : extents sel with
    | error e => rw [he] at hr; simp at hr
    | ok xs =>
      obtain ⟨k, hk, e⟩ := List.getElem_of_mem hs
      obtain ⟨x, -, hx⟩ := EX.extents_get sel xs he k s (by rw [List.getElem?_eq_getElem hk, e])
      rcases h with rfl | ⟨b, u, rfl | rfl⟩
      · cases hx
      · cases b <;> revert hx <;> unfold extent1 <;> simp only [AmrSlice.values, Interior.sel2values, Interior.endOf] <;> (try split_ifs) <;> simp [AmrSlice.ext]
      · cases b <;> revert hx <;> unfold extent1 <;> simp only [AmrSlice.values, Interior.sel2values, Interior.endOf] <;> (try split_ifs) <;> simp [AmrSlice.ext]

/-- C237 is violated: fields with fewer than three axes are refused, whatever the selection. -/
theorem C237_axes_violated (lo hi : List ℚ) (sel : List Sel) (h2 : sel.length < 3) : ∃ e, sliceExtent lo hi sel = .error e := by
  unfold sliceExtent
  cases he : extents sel with
  | error e => exact ⟨e, rfl⟩
  | ok xs =>
    have hl := EX.extents_len sel xs he
    exact ⟨.index, by simp only [EX.loop_full]; rw [if_neg (by omega)]⟩

/-- The hypotheses of C237 are met. -/
example : ∃ es, sliceExtent [0, 0, 0] [9, 9, 9] [.slc (.val 5) (.val 2) none, .slc .none .none none, .one (.val 1)] = .ok es :=
  ⟨[(some (num 2), some (num 5)), (some ⊥, some ⊤), (some (num 1), some (num 1))], by decide +kernel⟩
example : xl none [⟨[0, 3], [1, 4]⟩, ⟨[1, -2], [2, 5]⟩] = .ok [0, -2] ∧ xh none [⟨[0, 3], [1, 4]⟩, ⟨[1, -2], [2, 5]⟩] = .ok [2, 5] := by
  decide +kernel

end Viscid.Props
