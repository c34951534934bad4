import Verif.Spec.Contig
import Mathlib.Tactic.Ring
/-!
# C264: memory of fields
-/
namespace Viscid.Props
open Viscid.Contig Viscid.Spec.Contig
open Viscid.Layout (prod ravel unravel)

namespace CG

theorem ravel_lt (s : List Nat) : ∀ ix, Inside ix s → ravel s ix < prod s := by
  induction s with
  | nil => intro ix h; cases h; simp [ravel, prod]
  | cons n s ih =>
    intro ix h
    cases h with
    | @cons i _ ix _ hi h =>
      have := ih ix h
      show i * prod s + ravel s ix < n * prod s
      have h2 : (i + 1) * prod s ≤ n * prod s := Nat.mul_le_mul_right _ hi
      rw [Nat.succ_mul] at h2
      omega

theorem unravel_ravel (s : List Nat) : ∀ ix, Inside ix s → unravel s (ravel s ix) = ix := by
  induction s with
  | nil => intro ix h; cases h; rfl
  | cons n s ih =>
    intro ix h
    cases h with
    | @cons i _ ix _ hi h =>
      have hr := ravel_lt s ix h
      show (i * prod s + ravel s ix) / prod s :: unravel s ((i * prod s + ravel s ix) % prod s) = i :: ix
      rw [Nat.mul_comm, Nat.mul_add_div (by omega), Nat.mul_add_mod, Nat.div_eq_of_lt hr, Nat.mod_eq_of_lt hr, ih ix h, Nat.add_zero]

theorem horner (s : List Nat) : ∀ (ix : List Nat) (p : Nat), Inside ix s →
    (List.zip s ix).foldl (fun p ni => p * ni.1 + ni.2) p = p * prod s + ravel s ix := by
  induction s with
  | nil => intro ix p h; cases h; simp [prod, ravel]
  | cons n s ih =>
    intro ix p h
    cases h with
    | @cons i _ ix _ hi h =>
      simp only [List.zip_cons_cons, List.foldl_cons]
      rw [ih ix _ h]
      show (p * n + i) * prod s + ravel s ix = p * (n * prod s) + (i * prod s + ravel s ix)
      ring

theorem position_eq {s ix : List Nat} (h : Inside ix s) : position s ix = ravel s ix := by
  unfold position
  rw [horner s ix 0 h]; omega

/-- products of indices and strides -/
def dot (ix : List Nat) (st : List Int) : Int := (List.zipWith (fun (i : Nat) (s : Int) => (i : Int) * s) ix st).sum

theorem dot_c (s : List Nat) : ∀ ix, Inside ix s → dot ix (cStrides s) = ravel s ix := by
  induction s with
  | nil => intro ix h; cases h; rfl
  | cons n s ih =>
    intro ix h
    cases h with
    | @cons i _ ix _ hi h =>
      have := ih ix h
      simp only [dot] at this
      simp only [dot, cStrides, List.zipWith_cons_cons, List.sum_cons, this, ravel]
      push_cast
      rfl

theorem dot_strict (s : List Nat) : ∀ (st : List Int) (ix : List Nat), st.length = s.length → strict s st = true → Inside ix s → dot ix st = ravel s ix := by
  induction s with
  | nil => intro st ix hl _ h; cases h; rfl
  | cons n s ih =>
    intro st ix hl hs h
    cases st with
    | nil => simp at hl
    | cons t ts =>
      cases h with
      | @cons i _ ix _ hi h =>
        simp only [strict, Bool.and_eq_true, Bool.or_eq_true, decide_eq_true_eq] at hs
        have := ih ts ix (by simpa using hl) hs.2 h
        simp only [dot] at this
        simp only [dot, List.zipWith_cons_cons, List.sum_cons, this, ravel]
        rcases hs.1 with e | e
        · have : i = 0 := by omega
          subst this
          simp
        · subst e
          push_cast
          rfl

theorem sum_rev (l : List Int) : l.reverse.sum = l.sum := by
  induction l with
  | nil => rfl
  | cons a l ih => simp [ih]; omega

theorem dot_rev (ix : List Nat) (st : List Int) (h : ix.length = st.length) : dot ix.reverse st.reverse = dot ix st := by
  unfold dot
  rw [← List.reverse_zipWith h, sum_rev]

theorem len_c (s : List Nat) : (cStrides s).length = s.length := by
  induction s with
  | nil => rfl
  | cons n s ih => simp [cStrides, ih]

theorem inside_rev {ix s : List Nat} (h : Inside ix s) : Inside ix.reverse s.reverse := by
  exact List.rel_reverse h

theorem inside_len {ix s : List Nat} (h : Inside ix s) : ix.length = s.length := List.Forall₂.length_eq h

theorem get_alloc (m : Mem α) (s : List Nat) (f : List Nat → α) {ix : List Nat} (h : Inside ix s) :
    fetch (alloc m s f).1 (alloc m s f).2 ix = f ix := by
  have : addr (alloc m s f).2 ix = ravel s ix := by
    have := dot_c s ix h
    simp only [dot] at this
    simp only [addr, alloc, this]; omega
  simp only [fetch, this]
  simp only [alloc, if_true, Int.toNat_natCast, unravel_ravel s ix h]

theorem get_allocF (m : Mem α) (s : List Nat) (f : List Nat → α) {ix : List Nat} (h : Inside ix s) :
    fetch (allocF m s f).1 (allocF m s f).2 ix = f ix := by
  have : addr (allocF m s f).2 ix = ravel s.reverse ix.reverse := by
    have h1 := dot_c s.reverse ix.reverse (inside_rev h)
    have h2 := dot_rev ix.reverse (cStrides s.reverse) (by simp [len_c, inside_len h])
    rw [List.reverse_reverse, h1] at h2
    simp only [dot] at h2
    simp only [addr, allocF, h2]; omega
  simp only [fetch, this]
  simp only [allocF, if_true, Int.toNat_natCast, unravel_ravel _ _ (inside_rev h), List.reverse_reverse]

theorem strict_c (s : List Nat) : strict s (cStrides s) = true := by
  induction s with
  | nil => rfl
  | cons n s ih => simp [strict, cStrides, ih]

theorem contiguous_alloc (m : Mem α) (s : List Nat) (f : List Nat → α) : contiguous (alloc m s f).2 = true := by
  simp [contiguous, alloc, strict_c]

theorem place {a : Nd} (hl : a.strides.length = a.shape.length) (hc : contiguous a = true) {ix : List Nat} (h : Inside ix a.shape) :
    addr a ix = a.off + position a.shape ix := by
  have hs : strict a.shape a.strides = true := by
    simp only [contiguous, Bool.or_eq_true] at hc
    rcases hc with e | e
    · exfalso
      have : 0 ∈ a.shape := by simpa using e
      revert this
      have : ∀ (ix s : List Nat), Inside ix s → 0 ∉ s := by
        intro ix s h
        induction h with
        | nil => simp
        | cons h1 _ ih => simp only [List.mem_cons, not_or]; exact ⟨by omega, ih⟩
      exact this _ _ h
    · exact e
  have := dot_strict a.shape a.strides ix hl hs h
  simp only [dot] at this
  rw [position_eq h]
  simp only [addr, this]

theorem strict_one (s : List Nat) : ∀ st : List Int, prod s = 1 → strict s st = true := by
  induction s with
  | nil => intro st _; cases st <;> rfl
  | cons n s ih =>
    intro st h
    have h' : n * prod s = 1 := h
    cases st with
    | nil => rfl
    | cons t ts =>
      simp only [strict, Bool.and_eq_true, Bool.or_eq_true, decide_eq_true_eq]
      exact ⟨Or.inl (Nat.eq_one_of_mul_eq_one_right h'), ih ts (Nat.eq_one_of_mul_eq_one_left h')⟩

theorem load_idem (m : Mem α) (f : Fld α) : load (load m f).1 (load m f).2.1 = load m f := by
  unfold load
  cases h : f.cache with
  | some a => simp only [h]
  | none => rfl

theorem next_fromSrc (m : Mem α) (s : Src α) : m.next ≤ (fromSrc m s).1.next := by
  unfold fromSrc
  split <;> (try split) <;> simp [alloc, allocF]

theorem old_fromSrc (m : Mem α) (s : Src α) {b : Nat} (h : b < m.next) (k : Int) : (fromSrc m s).1.val b k = m.val b k := by
  have : b ≠ m.next := by omega
  unfold fromSrc
  split <;> (try split) <;> simp [alloc, allocF, this]

theorem valid_fromSrc (m : Mem α) (f : Fld α) (hf : Sound m f) : Valid (fromSrc m f.src).1 (fromSrc m f.src).2 := by
  cases hs : f.src with
  | arr a => exact hf.2.1 a hs
  | file z s g =>
    simp only [fromSrc]
    split <;> simp [Valid, alloc, allocF, len_c]
  | relaid b a =>
    simp only [fromSrc]
    split <;> simp [Valid, alloc, len_c]

theorem valid_load (m : Mem α) (f : Fld α) (hf : Sound m f) : Valid (load m f).1 (load m f).2.2 := by
  unfold load
  split
  · next a h => exact hf.1 a h
  · exact valid_fromSrc m f hf

/-- arrays that are there keep their values -/
theorem get_grow {m m' : Mem α} {a : Nd} (hv : Valid m a) (h : ∀ b < m.next, ∀ k, m'.val b k = m.val b k) (ix : List Nat) : fetch m' a ix = fetch m a ix :=
  h _ hv.1 _

theorem new_alloc (m : Mem α) (s : List Nat) (f : List Nat → α) {b : Nat} (hb : b < m.next) (k : Int) : (alloc m s f).1.val b k = m.val b k := by
  have : b ≠ m.next := by omega
  simp [alloc, this]

/-- the field as `as_c_contiguous` leaves it if its data is copied has its values in any memory that has what was there -/
theorem elem_after {m m2 : Mem α} {f : Fld α} (hf : Sound m f) (hc : contiguous (load m f).2.2 = false)
    (hnew : ∀ b < (load m f).1.next, ∀ k, m2.val b k = (load m f).1.val b k) {ix : List Nat} (h : Inside ix (dataOf m f).shape) :
    elem m2 (if isLoaded f then (load m f).2.1 else clear (load m f).2.1) ix = elem m f ix := by
  have hv := valid_load m f hf
  by_cases hl : isLoaded f = true
  · rw [if_pos hl]
    have e : load m2 (load m f).2.1 = (m2, (load m f).2.1, (load m f).2.2) := by
      unfold isLoaded at hl
      cases hcache : f.cache with
      | none => rw [hcache] at hl; cases hl
      | some a => simp only [load, hcache]
    simp only [elem, dataOf, e]
    exact get_grow hv hnew ix
  · rw [if_neg hl]
    have hcache : f.cache = none := by
      unfold isLoaded at hl
      cases hcache : f.cache with
      | none => rfl
      | some a => rw [hcache] at hl; simp at hl
    obtain ⟨src, cache⟩ := f
    simp only at hcache
    subst hcache
    have hin : Inside ix (fromSrc m src).2.shape := h
    have hc : contiguous (fromSrc m src).2 = false := hc
    have hv : Valid (fromSrc m src).1 (fromSrc m src).2 := hv
    have hnew : ∀ b < (fromSrc m src).1.next, ∀ k, m2.val b k = (fromSrc m src).1.val b k := hnew
    show fetch (fromSrc m2 src).1 (fromSrc m2 src).2 ix = fetch (fromSrc m src).1 (fromSrc m src).2 ix
    clear h hf hl
    cases src with
    | arr a => exact get_grow hv hnew ix
    | file z s g =>
      cases z with
      | true =>
        have hin' : Inside ix s := hin
        exact (get_allocF _ _ _ hin').trans (get_allocF _ _ _ hin').symm
      | false =>
        have hin' : Inside ix s := hin
        exact (get_alloc _ _ _ hin').trans (get_alloc _ _ _ hin').symm
    | relaid b a =>
      exfalso
      simp only [fromSrc] at hc
      split at hc <;> (rw [contiguous_alloc] at hc; cases hc)

theorem copied {m : Mem α} {f : Fld α} (hc : contiguous (load m f).2.2 = false) :
    asCContiguous m f = ((alloc (load m f).1 (load m f).2.2.shape (fetch (load m f).1 (load m f).2.2)).1,
      (if isLoaded f then (load m f).2.1 else clear (load m f).2.1),
      .field ⟨.arr (alloc (load m f).1 (load m f).2.2.shape (fetch (load m f).1 (load m f).2.2)).2, none⟩) := by
  have hp : prod (load m f).2.2.shape ≠ 1 := fun e => by
    simp only [contiguous, strict_one _ _ e, Bool.or_true] at hc
    cases hc
  simp only [asCContiguous, hc, Bool.false_eq_true, if_false, wrap]
  rw [if_neg (show ¬ prod (alloc (load m f).1 (load m f).2.2.shape (fetch (load m f).1 (load m f).2.2)).2.shape = 1 from hp)]

end CG
open CG

/-- **C264, order in memory.** For every field, loaded or not, with any number of axes, strides and sizes: `as_c_contiguous` returns a field (never a number) of the same shape and values,
    with elements one after the other, the last axis fastest; the values of the field itself stay what they are. -/
theorem C264_order (m : Mem α) (f : Fld α) (hf : Sound m f) :
    ∃ m' f' r g, asCContiguous m f = (m', f', r) ∧ returned f' r = some g ∧ (dataOf m' g).shape = (dataOf m f).shape ∧
      ∀ ix, Inside ix (dataOf m f).shape → elem m' g ix = elem m f ix ∧ elem m' f' ix = elem m f ix ∧
        addr (dataOf m' g) ix = (dataOf m' g).off + position (dataOf m f).shape ix := by
  have hv := valid_load m f hf
  by_cases hc : contiguous (load m f).2.2 = true
  · refine ⟨(load m f).1, (load m f).2.1, .self, (load m f).2.1, by simp only [asCContiguous, hc, if_true], rfl, by rw [dataOf, load_idem]; rfl, ?_⟩
    intro ix h
    have e : elem (load m f).1 (load m f).2.1 ix = elem m f ix := by simp only [elem, dataOf, load_idem]
    refine ⟨e, e, ?_⟩
    rw [dataOf, load_idem]
    exact place hv.2 hc h
  · have hc : contiguous (load m f).2.2 = false := by simpa using hc
    refine ⟨_, _, _, ⟨.arr (alloc (load m f).1 (load m f).2.2.shape (fetch (load m f).1 (load m f).2.2)).2, none⟩, copied hc, rfl, rfl, ?_⟩
    · intro ix h
      refine ⟨get_alloc _ _ _ h, ?_, ?_⟩
      · exact elem_after hf (by simpa using hc) (fun b hb k => new_alloc _ _ _ hb k) h
      · exact place (a := (alloc (load m f).1 (load m f).2.2.shape (fetch (load m f).1 (load m f).2.2)).2) (by simp [alloc, len_c]) (contiguous_alloc _ _ _) h

/-- **C264, loading.** The data is in memory afterwards if it was before, or if it is what is returned; it is not kept beside a copy. -/
theorem C264_loaded (m : Mem α) (f : Fld α) :
    isLoaded (asCContiguous m f).2.1 = (isLoaded f || contiguous (dataOf m f)) := by
  have hl : isLoaded (load m f).2.1 = true := by
    unfold load isLoaded
    split
    · next a h => simp [h]
    · rfl
  unfold asCContiguous dataOf
  by_cases hc : contiguous (load m f).2.2 = true
  · simp only [hc, if_true, hl, Bool.or_true]
  · simp only [hc, if_false, Bool.not_eq_true] at hc ⊢
    simp only [hc, Bool.or_false]
    by_cases h : isLoaded f = true
    · simp [h, hl]
    · simp only [h]
      simp [clear, isLoaded]

/-- **C264, sharing.** What is returned is the field itself if its data has the order already; else it is a copy, and nothing that is written to it
    shows in the field. -/
theorem C264_sharing (m : Mem α) (f : Fld α) (hf : Sound m f) :
    (contiguous (dataOf m f) = true → (asCContiguous m f).2.2 = .self) ∧
    (contiguous (dataOf m f) = false → ∃ m' f' g, asCContiguous m f = (m', f', .field g) ∧
      ∀ ix v jx, Inside jx (dataOf m f).shape → elem (write m' g ix v).1 f' jx = elem m f jx) := by
  constructor
  · intro hc
    have hc' : contiguous (load m f).2.2 = true := hc
    simp only [asCContiguous, hc', if_true]
  · intro hc
    have hc' : contiguous (load m f).2.2 = false := hc
    refine ⟨_, _, _, copied hc', ?_⟩
    intro ix v jx h
    refine elem_after hf hc' (fun b hb k => ?_) h
    have : b ≠ (load m f).1.next := by omega
    clear h hc hc'
    generalize load m f = L at hb this ⊢
    simp only [write, load, fromSrc, store, alloc, this, false_and, if_false]

/-- **C264 fails** for `as_flat` and `as_interlaced` of a field that is in memory: what they return is not made until it is read. What is written to the field until then
    shows in it, at any index and for any value; what is written after that does not. -/
theorem C264_late_violated (m : Mem α) (f : Fld α) (a : Nd) (hc : f.cache = some a) (hv : Valid m a) (hp : prod a.shape ≠ 1) (ix : List Nat) (c : Nat)
    (h : Inside (c :: ix) a.shape) (v : α) :
    ∃ m' f' g, asLayout m f false = (m', f', .field g) ∧
      elem (write m' f' (c :: ix) v).1 g (ix ++ [c]) = v ∧
      elem (write (load m' g).1 f' (c :: ix) v).1 (load m' g).2.1 (ix ++ [c]) = elem m f (c :: ix) := by
  have hl : load m f = (m, f, a) := by simp only [load, hc]
  have hin : Inside (ix ++ [c]) (a.shape.tail ++ [a.shape.headD 0]) := by
    cases hs : a.shape with
    | nil => rw [hs] at h; cases h
    | cons n s =>
      rw [hs] at h
      cases h with
      | cons h1 h2 => exact List.rel_append h2 (List.Forall₂.cons h1 .nil)
  have hb : a.buf ≠ m.next := by have := hv.1; omega
  refine ⟨m, f, ⟨.relaid false a, none⟩, ?_, ?_, ?_⟩
  · simp only [asLayout, hl, isLoaded, hc, Option.isSome_some, if_true, wrap, hp, if_false]
  · simp only [elem, dataOf, load, fromSrc, Bool.false_eq_true, if_false]
    rw [get_alloc _ _ _ hin]
    simp [write, hl, fetch, store]
  · have e : (load m (⟨.relaid false a, none⟩ : Fld α)) = ((alloc m (a.shape.tail ++ [a.shape.headD 0]) fun ix => fetch m a (ix.getLastD 0 :: ix.dropLast)).1,
        ⟨.relaid false a, some (alloc m (a.shape.tail ++ [a.shape.headD 0]) fun ix => fetch m a (ix.getLastD 0 :: ix.dropLast)).2⟩,
        (alloc m (a.shape.tail ++ [a.shape.headD 0]) fun ix => fetch m a (ix.getLastD 0 :: ix.dropLast)).2) := by
      simp only [load, fromSrc, Bool.false_eq_true, if_false]
    rw [e]
    simp only [elem, dataOf, load, hc, write]
    have := get_alloc m _ (fun ix => fetch m a (ix.getLastD 0 :: ix.dropLast)) hin
    rw [show fetch m a (c :: ix) = fetch m a ((ix ++ [c]).getLastD 0 :: (ix ++ [c]).dropLast) by simp]
    rw [← this]
    have hb' : ¬ m.next = a.buf := fun e => hb e.symm
    simp only [fetch, store, alloc, hb', false_and, if_false]

/-- A case: the transposed view of two rows of three, which is not in C order; it is copied. -/
example : Sound (⟨fun _ k => k, 1⟩ : Mem Int) ⟨.arr ⟨0, 0, [3, 2], [1, 3]⟩, none⟩ ∧ contiguous ⟨0, 0, [3, 2], [1, 3]⟩ = false ∧
    Inside [2, 1] [3, 2] := by
  refine ⟨⟨by simp, ?_, by simp⟩, by decide, ?_⟩
  · intro a e
    cases e
    exact ⟨by decide, rfl⟩
  · exact .cons (by decide) (.cons (by decide) .nil)

end Viscid.Props
