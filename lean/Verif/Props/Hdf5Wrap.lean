import Verif.Model.Hdf5Wrap
import Verif.Spec.Hdf5Wrap
import Verif.Lemmas.LazySlice
/-! # C200: arrays in HDF5 files, and components of them -/
namespace Viscid.Props
open Viscid.Layout (Arr)
open Viscid.LazySlice (Idx Err Sel full h5index sels subst shapeOf gather axisSel forward InRange)
open Viscid.Hdf5Wrap
open Viscid.Spec.Hdf5Wrap
open Viscid.Spec.LazySlice (Valid Same)

namespace HW

theorem insertAt_zero (l : List β) (x : β) : insertAt l 0 x = x :: l := by simp [insertAt]
theorem insertAt_succ (a : β) (l : List β) (k : Nat) (x : β) : insertAt (a :: l) (k + 1) x = a :: insertAt l k x := by simp [insertAt]
theorem insertAt_length (l : List β) (k : Nat) (x : β) : (insertAt l k x).length = l.length + 1 := by simp [insertAt]; omega

theorem insertAt_erase : ∀ (l : List β) (k : Nat) (x : β), l[k]? = some x → insertAt (l.eraseIdx k) k x = l
  | [], k, x, h => by simp at h
  | a :: l, 0, x, h => by simp at h; simp [insertAt, h]
  | a :: l, k + 1, x, h => by rw [List.eraseIdx_cons_succ, insertAt_succ, insertAt_erase l k x (by simpa using h)]

theorem erase_insertAt : ∀ (l : List β) (k : Nat) (x : β), k ≤ l.length → (insertAt l k x).eraseIdx k = l
  | l, 0, x, _ => by simp [insertAt]
  | [], k + 1, x, h => by simp at h
  | a :: l, k + 1, x, h => by rw [insertAt_succ, List.eraseIdx_cons_succ, erase_insertAt l k x (by simpa using h)]

theorem insertAt_get (l : List β) (k : Nat) (x : β) (h : k ≤ l.length) : (insertAt l k x)[k]? = some x := by
  unfold insertAt
  rw [List.getElem?_append_right (by simp), List.length_take, Nat.min_eq_left h]
  simp

theorem insertAt_valid : ∀ (S j : List Nat) (k m p : Nat), Valid S j → p < m → k ≤ S.length → Valid (insertAt S k m) (insertAt j k p)
  | S, j, 0, m, p, h, hp, _ => by rw [insertAt_zero, insertAt_zero]; exact ⟨hp, h⟩
  | [], _, k + 1, _, _, _, _, hk => by simp at hk
  | a :: S, [], k + 1, _, _, h, _, _ => by simp [Valid] at h
  | a :: S, i :: j, k + 1, m, p, h, hp, hk => by
    rw [insertAt_succ, insertAt_succ]
    exact ⟨h.1, insertAt_valid S j k m p h.2 hp (by simpa using hk)⟩

theorem sels_insert : ∀ (S : List Nat) (I : List Idx) (k m : Nat) (c : Idx) (s : Sel), k ≤ S.length → I.length = S.length → axisSel m c = .ok s →
    sels (insertAt S k m) (insertAt I k c) = (sels S I).map fun ss => insertAt ss k s
  | S, I, 0, m, c, s, _, _, hc => by
    rw [insertAt_zero, insertAt_zero, sels, hc]
    cases sels S I <;> simp [bind, Except.bind, Except.map, insertAt]
  | [], _, k + 1, _, _, _, hk, _, _ => by simp at hk
  | a :: S, [], k + 1, _, _, _, _, h, _ => by simp at h
  | a :: S, i :: I, k + 1, m, c, s, hk, hl, hc => by
    rw [insertAt_succ, insertAt_succ, sels, sels_insert S I k m c s (by simpa using hk) (by simpa using hl) hc, sels]
    cases axisSel a i with
    | error e => rfl
    | ok x => cases sels S I <;> simp [bind, Except.bind, Except.map, insertAt]

theorem sels_insert_err : ∀ (S : List Nat) (I : List Idx) (k m : Nat) (c : Idx) (e : Err), k ≤ S.length → I.length = S.length → axisSel m c = .error e →
    ∃ e, sels (insertAt S k m) (insertAt I k c) = .error e
  | S, I, 0, m, c, e, _, _, hc => by rw [insertAt_zero, insertAt_zero, sels, hc]; exact ⟨e, rfl⟩
  | [], _, k + 1, _, _, _, hk, _, _ => by simp at hk
  | a :: S, [], k + 1, _, _, _, _, h, _ => by simp at h
  | a :: S, i :: I, k + 1, m, c, e, hk, hl, hc => by
    obtain ⟨e', he⟩ := sels_insert_err S I k m c e (by simpa using hk) (by simpa using hl) hc
    rw [insertAt_succ, insertAt_succ, sels, he]
    cases axisSel a i with
    | error e => exact ⟨e, rfl⟩
    | ok x => exact ⟨e', rfl⟩

theorem sels_long : ∀ (S : List Nat) (I : List Idx), S.length < I.length → ∃ e, sels S I = .error e
  | [], [], h => by simp at h
  | [], i :: I, _ => ⟨_, rfl⟩
  | a :: S, [], h => by simp at h
  | a :: S, i :: I, h => by
    obtain ⟨e, he⟩ := sels_long S I (by simpa using h)
    rw [sels, he]
    cases axisSel a i with
    | error e => exact ⟨e, rfl⟩
    | ok x => exact ⟨e, rfl⟩

theorem subst_insert : ∀ (ss : List Sel) (k p : Nat) (j : List Nat), k ≤ ss.length → subst (insertAt ss k (.one p)) j = insertAt (subst ss j) k p
  | ss, 0, p, j, _ => by rw [insertAt_zero, insertAt_zero, subst]
  | [], k + 1, _, _, h => by simp at h
  | .one q :: ss, k + 1, p, j, h => by rw [insertAt_succ, subst, subst_insert ss k p j (by simpa using h), subst, insertAt_succ]
  | .many l :: ss, k + 1, p, j, h => by rw [insertAt_succ, subst, subst_insert ss k p _ (by simpa using h), subst, insertAt_succ]

theorem shapeOf_insert (ss : List Sel) (k p : Nat) : shapeOf (insertAt ss k (.one p)) = shapeOf ss := by
  unfold insertAt
  rw [LazySlice.shapeOf_append]
  show shapeOf (ss.take k) ++ shapeOf (ss.drop k) = _
  rw [← LazySlice.shapeOf_append, List.take_append_drop]

theorem sels_pad : ∀ (S : List Nat) (I : List Idx), I.length ≤ S.length → sels S (I ++ List.replicate (S.length - I.length) full) = sels S I
  | [], [], _ => rfl
  | [], _ :: _, h => by simp at h
  | a :: S, [], _ => by
    have := sels_pad S [] (by simp)
    simp only [List.nil_append, List.length_nil, Nat.sub_zero, List.length_cons] at this ⊢
    rw [List.replicate_succ, sels, sels]
    simp only [this]
  | a :: S, i :: I, h => by
    rw [List.cons_append, List.length_cons, List.length_cons, Nat.add_sub_add_right, sels, sels_pad S I (by simpa using h), sels]

theorem axisSel_full (L : Nat) : axisSel L full = .ok (.many (List.range L)) := by
  unfold axisSel full
  simp only [reduceCtorEq, if_false, Option.getD_none]
  rw [LazySlice.pyIndices_fwd L none (Or.inl rfl) none (Or.inl rfl), LazySlice.toNat_cast]

theorem sels_full : ∀ S : List Nat, sels S (List.replicate S.length full) = .ok (S.map fun L => .many (List.range L))
  | [] => rfl
  | a :: S => by rw [List.length_cons, List.replicate_succ, sels, axisSel_full, sels_full S]; rfl

theorem shapeOf_full (S : List Nat) : shapeOf (S.map fun L => Sel.many (List.range L)) = S := by
  induction S with
  | nil => rfl
  | cons a S ih => simp [shapeOf, ih]

theorem subst_full : ∀ S j : List Nat, Valid S j → subst (S.map fun L => .many (List.range L)) j = j
  | [], [], _ => rfl
  | [], _ :: _, h => by simp [Valid] at h
  | _ :: _, [], h => by simp [Valid] at h
  | a :: S, i :: j, h => by
    simp only [List.map_cons, subst, List.headD_cons, List.tail_cons, subst_full S j h.2]
    rw [List.getD_eq_getElem?_getD, List.getElem?_range h.1]; rfl

theorem expand_plain (n : Nat) : ∀ (l acc : List Idx), expand n (l.map Ent.idx) acc = .ok (acc ++ l)
  | [], acc => by simp [expand]
  | i :: l, acc => by rw [List.map_cons, expand, expand_plain n l]; simp


/-- a wrapper of the component axis `k`, after any use -/
structure Good (w : W α) (k : Nat) : Prop where
  dim : ∃ d, w.compDim = some d ∧ Counts w.dset.shape.length d k
  cache : w.cache = none ∨ w.cache = some (w.dset.shape.eraseIdx k)

theorem pop_counts (l : List Nat) (d : Int) (k : Nat) (h : Counts l.length d k) : pop l d = .ok (l.eraseIdx k) := by
  obtain ⟨hk, rfl | rfl⟩ := h
  · unfold pop; rw [if_pos (by omega)]; rfl
  · unfold pop; rw [if_neg (by omega), if_pos (by omega)]; congr 2; omega

theorem pop_bad (l : List Nat) (d : Int) (h : ∀ k, ¬ Counts l.length d k) : pop l d = .error .indexError := by
  unfold pop
  rw [if_neg, if_neg]
  · intro hh; exact h (d + l.length).toNat ⟨by omega, Or.inr (by omega)⟩
  · intro hh; exact h d.toNat ⟨by omega, Or.inl (by omega)⟩

/-- the wrapper after its shape was read -/
def read (w : W α) (k : Nat) : W α := { w with cache := some (w.dset.shape.eraseIdx k) }

theorem known_good (w : W α) (k : Nat) (h : Good w k) : known w = (.ok (w.dset.shape.eraseIdx k), read w k) := by
  obtain ⟨d, hd, hc⟩ := h.dim
  unfold known
  rcases h.cache with h1 | h1
  · rw [h1]; simp only [readInfo, hd, pop_counts _ _ _ hc, read]
  · rw [h1]; simp only [read]; rw [← h1]

theorem shape_good (w : W α) (k : Nat) (h : Good w k) :
    Hdf5Wrap.shape w = (.ok (if w.transpose then (w.dset.shape.eraseIdx k).reverse else w.dset.shape.eraseIdx k), read w k) := by
  unfold Hdf5Wrap.shape; rw [known_good w k h]; rfl

/-- the wrapper after data was read -/
def used (w : W α) (k : Nat) : W α := { w with cache := some (w.dset.shape.eraseIdx k), compDim := some k }

theorem read_good (w : W α) (k : Nat) (h : Good w k) : Good (read w k) k := ⟨h.dim, Or.inr rfl⟩
theorem used_good (w : W α) (k : Nat) (h : Good w k) : Good (used w k) k := by
  obtain ⟨d, hd, hc⟩ := h.dim
  exact ⟨⟨k, rfl, hc.1, Or.inl rfl⟩, Or.inr rfl⟩

/-- what is read, for a selection or all -/
def wanted (n : Nat) : Option Item → List Ent
  | some it => entries it ++ List.replicate (n - (entries it).length) whole
  | none => List.replicate n whole

theorem inject_good (w : W α) (k : Nat) (h : Good w k) (d : Int) (hd : w.compDim = some d) (slc : Option Item) :
    inject w d slc = (.ok (insertAt (wanted (w.dset.shape.length - 1) slc) k (.idx (.int w.compIdx))), used w k) := by
  obtain ⟨d', hd', hk, hc⟩ := h.dim
  rw [hd] at hd'; cases hd'
  have hl : (if w.transpose = true then (w.dset.shape.eraseIdx k).reverse else w.dset.shape.eraseIdx k).length = w.dset.shape.length - 1 := by
    split <;> simp [List.length_eraseIdx, hk]
  have e : (if d < 0 then d + ((w.dset.shape.length - 1 : Nat) : Int) + 1 else d) = k := by
    rcases hc with rfl | rfl
    · rw [if_neg (by omega)]
    · rw [if_pos (by omega)]; omega
  unfold inject
  rw [shape_good w k h]
  simp only [hl, e]
  rw [if_neg (by omega)]
  cases slc <;> simp [wanted, used, read]

theorem array_good (w : W α) (k : Nat) (h : Good w k) :
    array w = ((h5get w.dset (insertAt (List.replicate (w.dset.shape.length - 1) whole) k (.idx (.int w.compIdx)))).map (out w), used w k) := by
  obtain ⟨d, hd, hc⟩ := h.dim
  unfold array
  rw [shape_good w k h]
  simp only [show (read w k).compDim = some d from hd]
  rw [inject_good (read w k) k (read_good w k h) d hd]
  rfl

theorem item_good (w : W α) (k : Nat) (h : Good w k) (it : Item) :
    getItem w it = ((h5get w.dset (insertAt (wanted (w.dset.shape.length - 1) (some it)) k (.idx (.int w.compIdx)))).map (out w), used w k) := by
  obtain ⟨d, hd, hc⟩ := h.dim
  unfold getItem
  simp only [hd]
  rw [inject_good w k h d hd]
  rfl

theorem len_good (w : W α) (k : Nat) (h : Good w k) : (len w).2 = read w k := by
  unfold len; rw [shape_good w k h]

theorem after_good (w : W α) (k : Nat) (h : Good w k) (op : Op) : op.after w = read w k ∨ op.after w = used w k := by
  cases op with
  | shape => left; simp [Op.after, shape_good w k h]
  | len => left; simp [Op.after, len_good w k h]
  | array => right; simp [Op.after, array_good w k h]
  | item it => right; simp [Op.after, item_good w k h]

/-- nothing but what is known of the shape, and how the axis is counted, changes -/
theorem run_good (w : W α) (k : Nat) (h : Good w k) (ops : List Op) : Good (ops.foldl Op.after w) k ∧ (ops.foldl Op.after w).dset = w.dset ∧
    (ops.foldl Op.after w).compIdx = w.compIdx ∧ (ops.foldl Op.after w).transpose = w.transpose := by
  induction ops generalizing w with
  | nil => exact ⟨h, rfl, rfl, rfl⟩
  | cons op ops ih =>
    rw [List.foldl_cons]
    rcases after_good w k h op with e | e <;> rw [e]
    · exact ih (read w k) (read_good w k h)
    · exact ih (used w k) (used_good w k h)

theorem new_good (f : Arr α) (d i : Int) (k : Nat) (tr : Bool) (h : Counts f.shape.length d k) : Good (new f (some d) i tr) k :=
  ⟨⟨d, rfl, h⟩, Or.inl rfl⟩

theorem axisSel_counts (m c : Nat) (i : Int) (h : Counts m i c) : axisSel m (.int i) = .ok (.one c) := by
  obtain ⟨hc, rfl | rfl⟩ := h
  · unfold axisSel; simp only; rw [if_pos (by omega), if_neg (by omega)]; rfl
  · unfold axisSel; simp only; rw [if_pos (by omega)]; congr 2; rw [if_pos (by omega)]; omega

theorem axisSel_bad (m : Nat) (i : Int) (h : ∀ c, ¬ Counts m i c) : axisSel m (.int i) = .error .indexError := by
  unfold axisSel; simp only; rw [if_neg]
  intro hh
  rcases lt_or_ge i 0 with h1 | h1
  · exact h (i + m).toNat ⟨by omega, Or.inr (by omega)⟩
  · exact h i.toNat ⟨by omega, Or.inl (by omega)⟩

theorem map_insertAt (g : β → γ) (l : List β) (k : Nat) (x : β) : (insertAt l k x).map g = insertAt (l.map g) k (g x) := by
  simp [insertAt, List.map_take, List.map_drop]

/-- the part of an array that is read -/
theorem h5get_insert (f : Arr α) (k m c : Nat) (i : Int) (I : List Idx) (hm : f.shape[k]? = some m) (hi : Counts m i c)
    (hI : I.length + 1 = f.shape.length) (hf : I.all forward) :
    h5get f (insertAt (I.map .idx) k (.idx (.int i))) =
      (sels (f.shape.eraseIdx k) I).map fun ss => gather f (insertAt ss k (.one c)) := by
  have hk : k < f.shape.length := (List.getElem?_eq_some_iff.1 hm).1
  unfold h5get
  rw [← map_insertAt Ent.idx, expand_plain, List.nil_append]
  simp only [bind, Except.bind]
  unfold h5index LazySlice.index
  have ha : (insertAt I k (.int i)).all forward = true := by
    rw [List.all_eq_true] at hf ⊢
    intro x hx
    unfold insertAt at hx
    rw [List.mem_append, List.mem_cons] at hx
    rcases hx with h | rfl | h
    · exact hf x (List.mem_of_mem_take h)
    · rfl
    · exact hf x (List.mem_of_mem_drop h)
  rw [if_pos ha]
  have := sels_insert (f.shape.eraseIdx k) I k m (.int i) (.one c) (by rw [List.length_eraseIdx, if_pos hk]; omega)
    (by rw [List.length_eraseIdx, if_pos hk]; omega) (axisSel_counts m c i hi)
  rw [insertAt_erase _ _ _ hm] at this
  rw [this]
  cases sels (f.shape.eraseIdx k) I <;> rfl

theorem whole_map (n : Nat) : List.replicate n whole = (List.replicate n full).map Ent.idx := by simp [whole]
theorem full_forward (n : Nat) : (List.replicate n full).all forward = true := by
  rw [List.all_eq_true]; intro x hx; rw [(List.mem_replicate.1 hx).2]; rfl

/-- the component, as it is read -/
def compOf (f : Arr α) (k c : Nat) : Arr α :=
  gather f (insertAt ((f.shape.eraseIdx k).map fun L => .many (List.range L)) k (.one c))

theorem comp_get (f : Arr α) (k c : Nat) (j : List Nat) (hj : Valid (f.shape.eraseIdx k) j) (hk : k < f.shape.length) :
    (compOf f k c).get j = f.get (insertAt j k c) := by
  unfold compOf
  simp only [gather]
  rw [subst_insert _ _ _ _ (by rw [List.length_map, List.length_eraseIdx, if_pos hk]; omega), subst_full _ _ hj]

theorem comp_shape (f : Arr α) (k c : Nat) : (compOf f k c).shape = f.shape.eraseIdx k := by
  simp only [compOf, gather, shapeOf_insert, shapeOf_full]

theorem valid_erase : ∀ (S j : List Nat) (k : Nat), Valid S j → Valid (S.eraseIdx k) (j.eraseIdx k)
  | [], [], _, _ => by simp [Valid]
  | [], _ :: _, _, h => by simp [Valid] at h
  | _ :: _, [], _, h => by simp [Valid] at h
  | a :: S, i :: j, 0, h => h.2
  | a :: S, i :: j, k + 1, h => ⟨h.1, valid_erase S j k h.2⟩

theorem comp_is (f : Arr α) (k c : Nat) (hk : k < f.shape.length) : IsComponent f k c (compOf f k c) := by
  refine ⟨comp_shape f k c, fun j hj hc => ?_⟩
  rw [comp_get f k c _ (valid_erase _ _ _ hj) hk, insertAt_erase _ _ _ hc]

/-- the axis is counted right, and the component is there -/
theorem array_ok (w : W α) (k m c : Nat) (h : Good w k) (hm : w.dset.shape[k]? = some m) (hi : Counts m w.compIdx c) :
    (array w).1 = .ok (out w (compOf w.dset k c)) := by
  have hk : k < w.dset.shape.length := (List.getElem?_eq_some_iff.1 hm).1
  rw [array_good w k h, whole_map, h5get_insert w.dset k m c w.compIdx _ hm hi (by rw [List.length_replicate]; omega) (full_forward _)]
  have : List.replicate (w.dset.shape.length - 1) full = List.replicate (w.dset.shape.eraseIdx k).length full := by
    rw [List.length_eraseIdx, if_pos hk]
  rw [this, sels_full]
  rfl

end HW

/-- C200: one component of an array in a file: after any use of the wrapper its shape is that of the array without the axis of
components, and its values are those of the component; the axis and the component may be counted from the end -/
theorem C200_component (f : Arr α) (d i : Int) (k m c : Nat) (ops : List Op) (hd : Counts f.shape.length d k) (hm : f.shape[k]? = some m)
    (hi : Counts m i c) :
    let w := ops.foldl Op.after (new f (some d) i false)
    (Hdf5Wrap.shape w).1 = .ok (f.shape.eraseIdx k) ∧ ∃ a, (array w).1 = .ok a ∧ IsComponent f k c a := by
  intro w
  obtain ⟨g, h1, h2, h3⟩ := HW.run_good _ k (HW.new_good f d i k false hd) ops
  change w.dset = f at h1
  change w.compIdx = i at h2
  change w.transpose = false at h3
  refine ⟨?_, _, HW.array_ok w k m c g (by rw [h1]; exact hm) (by rw [h2]; exact hi), ?_⟩
  · rw [HW.shape_good w k g, h3, h1]; rfl
  · unfold out; rw [h3, h1]; exact HW.comp_is f k c hd.1

/-- C200: the same with `transpose`: the axes are in the other order -/
theorem C200_transposed (f : Arr α) (d i : Int) (k m c : Nat) (ops : List Op) (hd : Counts f.shape.length d k) (hm : f.shape[k]? = some m)
    (hi : Counts m i c) :
    let w := ops.foldl Op.after (new f (some d) i true)
    ∃ a b, IsComponent f k c a ∧ IsTransposed a b ∧ (Hdf5Wrap.shape w).1 = .ok b.shape ∧ (array w).1 = .ok b := by
  intro w
  obtain ⟨g, h1, h2, h3⟩ := HW.run_good _ k (HW.new_good f d i k true hd) ops
  change w.dset = f at h1
  change w.compIdx = i at h2
  change w.transpose = true at h3
  refine ⟨HW.compOf f k c, Hdf5.T (HW.compOf f k c), HW.comp_is f k c hd.1, ?_, ?_, ?_⟩
  · exact ⟨rfl, fun j _ => by simp [Hdf5.T]⟩
  · rw [HW.shape_good w k g, h3, h1]; simp [Hdf5.T, HW.comp_shape]
  · rw [HW.array_ok w k m c g (by rw [h1]; exact hm) (by rw [h2]; exact hi)]; unfold out; rw [h3, h1]; rfl

namespace HW

theorem npGet_plain (a : Arr α) (it : Item) (I : List Idx) (h : it = .tuple (I.map .idx) ∨ ∃ i, I = [i] ∧ it = .one (.idx i)) :
    npGet a it = LazySlice.index a I ∧ entries it = I.map .idx := by
  rcases h with rfl | ⟨i, rfl, rfl⟩
  · refine ⟨?_, rfl⟩
    show (expand a.shape.length (I.map .idx) [] >>= fun l => LazySlice.index a l) = _
    rw [expand_plain]; rfl
  · refine ⟨?_, rfl⟩
    show (expand a.shape.length ([i].map .idx) [] >>= fun l => LazySlice.index a l) = _
    rw [expand_plain]; rfl

theorem index_comp (f : Arr α) (k c : Nat) (hk : k < f.shape.length) (I : List Idx) (hl : I.length ≤ f.shape.length - 1) :
    LazySlice.index (compOf f k c) I = (sels (f.shape.eraseIdx k) (I ++ List.replicate (f.shape.length - 1 - I.length) full)).map fun ss =>
      gather (compOf f k c) ss := by
  have hn : (f.shape.eraseIdx k).length = f.shape.length - 1 := by rw [List.length_eraseIdx, if_pos hk]
  unfold LazySlice.index
  rw [comp_shape, ← hn, sels_pad _ _ (by omega)]
  cases sels (f.shape.eraseIdx k) I <;> rfl

theorem same_comp (f : Arr α) (k c : Nat) (hk : k < f.shape.length) (ss : List Sel) (hs : InRange (f.shape.eraseIdx k) ss)
    (hl : k ≤ ss.length) : Same (gather f (insertAt ss k (.one c))) (gather (compOf f k c) ss) := by
  refine ⟨shapeOf_insert ss k c, fun j hj => ?_⟩
  simp only [gather] at hj ⊢
  rw [shapeOf_insert] at hj
  rw [comp_get f k c _ (LazySlice.subst_valid _ ss j hs hj) hk, subst_insert _ _ _ _ hl]

theorem inRange_length : ∀ (S : List Nat) (ss : List Sel), InRange S ss → ss.length = S.length
  | [], [], _ => rfl
  | [], _ :: _, h => by simp [InRange] at h
  | _ :: _, [], h => by simp [InRange] at h
  | a :: S, .one p :: ss, h => by simp [inRange_length S ss h.2]
  | a :: S, .many l :: ss, h => by simp [inRange_length S ss h.2]

end HW

/-- C200: what `[...]` of a component gives, for an integer or a slice forward, or a tuple of them, is what it gives for the array of
that component -/
theorem C200_item_partial (f : Arr α) (d i : Int) (k m c : Nat) (ops : List Op) (hd : Counts f.shape.length d k) (hm : f.shape[k]? = some m)
    (hi : Counts m i c) (it : Item) (I : List Idx) (hit : it = .tuple (I.map .idx) ∨ ∃ i, I = [i] ∧ it = .one (.idx i)) (hI : I.all forward) :
    let w := ops.foldl Op.after (new f (some d) i false)
    ∃ a, (array w).1 = .ok a ∧ (∀ r, npGet a it = .ok r → ∃ r', (getItem w it).1 = .ok r' ∧ Same r' r) ∧
      ∀ r', (getItem w it).1 = .ok r' → ∃ r, npGet a it = .ok r ∧ Same r' r := by
  intro w
  obtain ⟨g, h1, h2, h3⟩ := HW.run_good _ k (HW.new_good f d i k false hd) ops
  change w.dset = f at h1
  change w.compIdx = i at h2
  change w.transpose = false at h3
  have ho : out w = id := by funext a; unfold out; rw [h3]; rfl
  refine ⟨HW.compOf f k c, ?_, ?_⟩
  · rw [HW.array_ok w k m c g (by rw [h1]; exact hm) (by rw [h2]; exact hi), ho, h1]; rfl
  obtain ⟨hnp, hent⟩ := HW.npGet_plain (HW.compOf f k c) it I hit
  rw [hnp, HW.item_good w k g it, h1, h2, ho]
  simp only [HW.wanted, hent, List.length_map, HW.whole_map]
  rw [← List.map_append]
  by_cases hl : I.length ≤ f.shape.length - 1
  · have hk := hd.1
    rw [HW.index_comp f k c hd.1 I hl, HW.h5get_insert f k m c i _ hm hi (by rw [List.length_append, List.length_replicate]; omega)
      (by rw [List.all_append, hI, HW.full_forward]; rfl)]
    cases hs : sels (f.shape.eraseIdx k) (I ++ List.replicate (f.shape.length - 1 - I.length) full) with
    | error e => simp [Except.map]
    | ok ss =>
      have hr := LazySlice.sels_range _ _ _ hs
      have hsame := HW.same_comp f k c hd.1 ss hr (by rw [HW.inRange_length _ _ hr, List.length_eraseIdx, if_pos hd.1]; omega)
      simp only [Except.map, Except.ok.injEq, id]
      exact ⟨fun r h => ⟨_, rfl, h ▸ hsame⟩, fun r h => ⟨_, rfl, h ▸ hsame⟩⟩
  · have hk := hd.1
    have hn : (f.shape.eraseIdx k).length = f.shape.length - 1 := by rw [List.length_eraseIdx, if_pos hd.1]
    obtain ⟨e1, he1⟩ := HW.sels_long (f.shape.eraseIdx k) I (by omega)
    obtain ⟨e2, he2⟩ := HW.sels_long f.shape (insertAt I k (.int i)) (by rw [HW.insertAt_length]; omega)
    have e0 : f.shape.length - 1 - I.length = 0 := by omega
    have hx : ∃ e, h5get f (insertAt ((I ++ List.replicate (f.shape.length - 1 - I.length) full).map Ent.idx) k (.idx (.int i))) = .error e := by
      rw [e0, List.replicate_zero, List.append_nil, ← HW.map_insertAt Ent.idx]
      unfold h5get
      rw [HW.expand_plain, List.nil_append]
      simp only [bind, Except.bind]
      unfold h5index
      split
      · unfold LazySlice.index; rw [he2]; exact ⟨_, rfl⟩
      · exact ⟨_, rfl⟩
    obtain ⟨e3, he3⟩ := hx
    rw [he3]
    unfold LazySlice.index
    rw [HW.comp_shape, he1]
    simp [Except.map, bind, Except.bind]

/-- C200: `[...]` with three dots is the whole component -/
theorem C200_dots (f : Arr α) (d i : Int) (k : Nat) (ops : List Op) (hd : Counts f.shape.length d k) :
    let w := ops.foldl Op.after (new f (some d) i false)
    (getItem w (.one .dots)).1 = (array w).1 := by
  intro w
  obtain ⟨g, h1, h2, h3⟩ := HW.run_good _ k (HW.new_good f d i k false hd) ops
  change w.dset = f at h1
  rw [HW.item_good w k g, HW.array_good w k g]
  simp only
  congr 1
  unfold h5get
  have hk := hd.1
  rw [h1] at *
  have : expand f.shape.length (insertAt (HW.wanted (f.shape.length - 1) (some (.one .dots))) k (.idx (.int w.compIdx))) [] =
      expand f.shape.length (insertAt (List.replicate (f.shape.length - 1) whole) k (.idx (.int w.compIdx))) [] := by
    have hpl : ∀ l : List Idx, plain (l.map Ent.idx) = some l := by
      intro l
      induction l with
      | nil => rfl
      | cons a l ih => simp [plain, ih]
    rw [HW.whole_map, ← HW.map_insertAt Ent.idx, HW.expand_plain, List.nil_append]
    simp only [HW.wanted, entries, List.length_singleton, HW.whole_map]
    cases k with
    | zero =>
      rw [HW.insertAt_zero, HW.insertAt_zero]
      simp only [List.cons_append, List.nil_append, expand, hpl, List.length_cons, List.length_nil, List.length_replicate]
      rw [List.replicate_append_replicate]
      congr 3
      omega
    | succ k =>
      rw [List.singleton_append, HW.insertAt_succ, ← HW.map_insertAt Ent.idx]
      simp only [expand, hpl, List.length_nil, List.nil_append, HW.insertAt_length, List.length_replicate]
      rw [show f.shape.length - 0 - (f.shape.length - 1 - 1 + 1) = 1 by omega, show List.replicate (f.shape.length - 1) full = full :: List.replicate (f.shape.length - 1 - 1) full by
        rw [← List.replicate_succ]; congr 1; omega, HW.insertAt_succ]
      rfl
  rw [this]

namespace HW

theorem none_run (w : W α) (ops : List Op) (hc : w.compDim = none) (hk : w.cache = none ∨ w.cache = some w.dset.shape) :
    let v := ops.foldl Op.after w
    v.compDim = none ∧ v.dset = w.dset ∧ v.transpose = w.transpose ∧ (v.cache = none ∨ v.cache = some v.dset.shape) := by
  induction ops generalizing w with
  | nil => exact ⟨hc, rfl, rfl, hk⟩
  | cons op ops ih =>
    have hkn : known w = (.ok w.dset.shape, { w with cache := some w.dset.shape }) := by
      unfold known
      rcases hk with h | h
      · rw [h]; simp [readInfo, hc]
      · rw [h]; simp only; rw [← h]
    have hstep : op.after w = w ∨ op.after w = { w with cache := some w.dset.shape } := by
      cases op with
      | shape => right; simp [Op.after, Hdf5Wrap.shape, hkn]
      | len => right; simp [Op.after, Hdf5Wrap.len, Hdf5Wrap.shape, hkn]
      | array => right; simp [Op.after, Hdf5Wrap.array, Hdf5Wrap.shape, hkn, hc]
      | item it => left; simp [Op.after, getItem, hc]
    simp only [List.foldl_cons]
    rcases hstep with e | e <;> rw [e]
    · exact ih w hc hk
    · exact ih { w with cache := some w.dset.shape } hc (Or.inr rfl)

theorem none_shape (w : W α) (hc : w.compDim = none) (hk : w.cache = none ∨ w.cache = some w.dset.shape) :
    (Hdf5Wrap.shape w).1 = .ok (if w.transpose then w.dset.shape.reverse else w.dset.shape) := by
  have hkn : known w = (.ok w.dset.shape, { w with cache := some w.dset.shape }) := by
    unfold known
    rcases hk with h | h
    · rw [h]; simp [readInfo, hc]
    · rw [h]; simp only; rw [← h]
  simp [Hdf5Wrap.shape, hkn]

end HW

/-- C200: all of an array in a file: its shape and its values, after any use; the items are those of the array -/
theorem C200_whole (f : Arr α) (i : Int) (ops : List Op) :
    let w := ops.foldl Op.after (new f none i false)
    (Hdf5Wrap.shape w).1 = .ok f.shape ∧ (array w).1 = .ok f ∧ ∀ it I, (it = .tuple (I.map .idx) ∨ ∃ i, I = [i] ∧ it = .one (.idx i)) →
      I.all forward → (getItem w it).1 = npGet f it := by
  intro w
  obtain ⟨h1, h2, h3, h4⟩ := HW.none_run (new f none i false) ops rfl (Or.inl rfl)
  change w.compDim = none at h1
  change w.dset = f at h2
  change w.transpose = false at h3
  change w.cache = none ∨ w.cache = some w.dset.shape at h4
  have ho : out w = id := by funext a; unfold out; rw [h3]; rfl
  have hs := HW.none_shape w h1 h4
  rw [h3, h2] at hs
  have harr : (array w).1 = .ok f := by
    unfold array Hdf5Wrap.shape known
    rcases h4 with h | h
    · rw [h]; simp only [readInfo, h1, out, h3, h2]; rfl
    · rw [h]; simp only [h1, out, h3, h2]; rfl
  refine ⟨hs, harr, ?_⟩
  intro it I hit hI
  obtain ⟨hnp, hent⟩ := HW.npGet_plain f it I hit
  rw [hnp]
  have hit' : (getItem w it).1 = (h5get w.dset (entries it)).map (out w) := by
    unfold getItem
    rw [h1]
    rcases hit with rfl | ⟨_, _, rfl⟩ <;> rfl
  rw [hit', hent, h2, ho]
  unfold h5get
  rw [HW.expand_plain]
  simp only [bind, Except.bind, List.nil_append]
  unfold h5index
  rw [if_pos hI]
  cases LazySlice.index f I <;> rfl

/-- C200: an axis of components that is not there: nothing can be read, and no shape is told -/
theorem C200_bad_axis (f : Arr α) (d i : Int) (tr : Bool) (ops : List Op) (hd : ∀ k, ¬ Counts f.shape.length d k) (it : Item) :
    let w := ops.foldl Op.after (new f (some d) i tr)
    (Hdf5Wrap.shape w).1 = .error .indexError ∧ (len w).1 = .error .indexError ∧ (array w).1 = .error .indexError ∧
      (getItem w it).1 = .error .indexError := by
  have hs : Hdf5Wrap.shape (new f (some d) i tr) = (.error .indexError, new f (some d) i tr) := by
    unfold Hdf5Wrap.shape known
    simp only [new, readInfo]
    rw [HW.pop_bad f.shape d hd]
  have hall : ∀ op : Op, op.after (new f (some d) i tr) = new f (some d) i tr := by
    intro op
    cases op with
    | shape => simp [Op.after, hs]
    | len => simp [Op.after, Hdf5Wrap.len, hs]
    | array => simp [Op.after, Hdf5Wrap.array, hs]
    | item it => simp only [Op.after, getItem, show (new f (some d) i tr).compDim = some d from rfl, inject, hs]
  have hrun : ops.foldl Op.after (new f (some d) i tr) = new f (some d) i tr := by
    induction ops with
    | nil => rfl
    | cons op ops ih => rw [List.foldl_cons, hall, ih]
  intro w
  have hw : w = new f (some d) i tr := hrun
  rw [hw]
  refine ⟨by rw [hs], by simp [Hdf5Wrap.len, hs], by simp [Hdf5Wrap.array, hs], ?_⟩
  simp only [getItem, show (new f (some d) i tr).compDim = some d from rfl, inject, hs]

/-- C200: a component that is not there: its data is an error -/
theorem C200_bad_component (f : Arr α) (d i : Int) (k m : Nat) (tr : Bool) (ops : List Op) (hd : Counts f.shape.length d k)
    (hm : f.shape[k]? = some m) (hi : ∀ c, ¬ Counts m i c) :
    ∃ e, (array (ops.foldl Op.after (new f (some d) i tr))).1 = .error e := by
  obtain ⟨g, h1, h2, h3⟩ := HW.run_good _ k (HW.new_good f d i k tr hd) ops
  rw [HW.array_good _ k g, h1, h2]
  have hk := hd.1
  show ∃ e, Except.map _ (h5get f (insertAt (List.replicate (f.shape.length - 1) whole) k (.idx (.int i)))) = .error e
  rw [HW.whole_map, ← HW.map_insertAt Ent.idx]
  unfold h5get
  rw [HW.expand_plain, List.nil_append]
  simp only [bind, Except.bind]
  unfold h5index
  split
  · obtain ⟨e, he⟩ := HW.sels_insert_err (f.shape.eraseIdx k) (List.replicate (f.shape.length - 1) full) k m (.int i) _
      (by rw [List.length_eraseIdx, if_pos hk]; omega) (by rw [List.length_eraseIdx, if_pos hk, List.length_replicate]) (HW.axisSel_bad m i hi)
    rw [HW.insertAt_erase _ _ _ hm] at he
    unfold LazySlice.index
    rw [he]
    exact ⟨e, rfl⟩
  · exact ⟨_, rfl⟩

/-- C200: `len` is the length of the first axis, without `transpose` -/
theorem C200_len_partial (f : Arr α) (cd : Option Int) (i : Int) (ops : List Op) (s : List Nat) (n : Nat)
    (hs : (Hdf5Wrap.shape (ops.foldl Op.after (new f cd i false))).1 = .ok (n :: s)) : (len (ops.foldl Op.after (new f cd i false))).1 = .ok n := by
  have htr : (ops.foldl Op.after (new f cd i false)).transpose = false := by
    cases cd with
    | none => exact (HW.none_run (new f none i false) ops rfl (Or.inl rfl)).2.2.1
    | some d =>
      by_cases h : ∃ k, Counts f.shape.length d k
      · obtain ⟨k, hk⟩ := h
        exact (HW.run_good _ k (HW.new_good f d i k false hk) ops).2.2.2
      · have := (C200_bad_axis f d i false ops (fun k hk => h ⟨k, hk⟩) (.tuple [])).1
        rw [this] at hs; cases hs
  generalize ops.foldl Op.after (new f cd i false) = w at hs htr ⊢
  unfold len
  cases h : Hdf5Wrap.shape w with
  | mk r v =>
    have hv : v.transpose = w.transpose := by
      unfold Hdf5Wrap.shape known at h
      split at h
      · rename_i h1
        split at h1
        · simp only [Prod.mk.injEq] at h1 h; rw [← h.2, ← h1.2]
        · split at h1
          · simp only [Prod.mk.injEq] at h1 h; rw [← h.2, ← h1.2]
          · simp at h1
      · rename_i h1
        split at h1
        · simp at h1
        · split at h1
          · simp at h1
          · simp only [Prod.mk.injEq] at h1 h; rw [← h.2, ← h1.2]
    rw [h] at hs
    simp only at hs
    subst hs
    simp only [hv, htr]
    rfl

/-- C200 is violated: with `transpose`, `len` is the length of the last axis -/
theorem C200_len_violated (f : Arr α) (i : Int) (m n : Nat) (hf : f.shape = [m, n]) :
    (Hdf5Wrap.shape (new f none i true)).1 = .ok [n, m] ∧ (len (new f none i true)).1 = .ok m := by
  constructor <;> simp [Hdf5Wrap.shape, len, known, readInfo, new, hf]

/-- C200 is violated: with `transpose`, an index is applied to the axes of the file: `w[p]` is row `p` of the file, not of the array -/
theorem C200_transposed_item_violated (f : Arr α) (i : Int) (m n p : Nat) (hf : f.shape = [m, n]) (hp : p < m) (hn : p < n) :
    ∃ a r r', (array (new f none i true)).1 = .ok a ∧ npGet a (.one (.idx (.int p))) = .ok r ∧ r.shape = [m] ∧ (∀ j < m, r.get [j] = f.get [j, p]) ∧
      (getItem (new f none i true) (.one (.idx (.int p)))).1 = .ok r' ∧ r'.shape = [n] ∧ ∀ j < n, r'.get [j] = f.get [p, j] := by
  have ha : ∀ k, p < k → axisSel k (.int p) = .ok (.one p) := fun k h => HW.axisSel_counts k p p ⟨h, Or.inl rfl⟩
  refine ⟨Hdf5.T f, gather (Hdf5.T f) [.one p, .many (List.range m)], Hdf5.T (gather f [.one p, .many (List.range n)]), ?_, ?_, ?_, ?_, ?_, ?_, ?_⟩
  · simp [array, Hdf5Wrap.shape, known, readInfo, new, out]
  · simp [npGet, expand, LazySlice.index, Hdf5.T, hf, sels, ha n hn, HW.axisSel_full, bind, Except.bind]
  · simp [gather, shapeOf]
  · intro j hj
    simp [gather, subst, Hdf5.T, hj]
  · simp [getItem, new, out, h5get, entries, expand, h5index, forward, LazySlice.index, hf, sels, ha m hp, HW.axisSel_full, bind, Except.bind, Except.map]
  · simp [gather, shapeOf, Hdf5.T]
  · intro j hj
    simp [gather, subst, Hdf5.T, hj]

/-- C200 is violated: a list of integers is taken as a tuple: `w[[p, q]]` is one value, not rows `p` and `q` -/
theorem C200_list_violated (f : Arr α) (l m n p q c : Nat) (hf : f.shape = [m, n, l]) (hp : p < m) (hq : q < m) (hq' : q < n) (hc : c < l) :
    ∃ a r r', (array (new f (some (-1)) c false)).1 = .ok a ∧ npGet a (.list [p, q]) = .ok r ∧ r.shape = [2, n] ∧
      (getItem (new f (some (-1)) c false) (.list [p, q])).1 = .ok r' ∧ r'.shape = [] ∧ r'.get [] = f.get [p, q, c] := by
  have ha : ∀ p k : Nat, p < k → axisSel k (.int p) = .ok (.one p) := fun p k h => HW.axisSel_counts k p p ⟨h, Or.inl rfl⟩
  have hd : Counts f.shape.length (-1) 2 := by rw [hf]; exact ⟨by simp, Or.inr rfl⟩
  have harr := HW.array_ok (new f (some (-1)) c false) 2 l c (HW.new_good f (-1) c 2 false hd) (by simp [new, hf]) ⟨hc, Or.inl rfl⟩
  refine ⟨HW.compOf f 2 c, gather (HW.compOf f 2 c) [.many [p, q], .many (List.range n)], gather f [.one p, .one q, .one c], harr, ?_, ?_, ?_, ?_, ?_⟩
  · unfold npGet
    rw [HW.comp_shape, hf]
    simp [ha p m hp, ha q m hq, bind, Except.bind, List.mapM_cons, pure, Except.pure]
  · simp [gather, shapeOf]
  · rw [HW.item_good _ 2 (HW.new_good f (-1) c 2 false hd)]
    simp [new, hf, HW.wanted, entries, insertAt, out, h5get, expand, h5index, forward, LazySlice.index, sels, ha p m hp, ha q n hq', ha c l hc, bind,
      Except.bind, Except.map]
  · rfl
  · rfl

/-- C200 is violated: whole axes are added behind the indices, also after dots: `w[..., p]` of three axes picks from the second -/
theorem C200_dots_violated (f : Arr α) (l m n o p c : Nat) (hf : f.shape = [m, n, o, l]) (hp : p < n) (hp' : p < o) (hc : c < l) :
    ∃ a r r', (array (new f (some (-1)) c false)).1 = .ok a ∧ npGet a (.tuple [.dots, .idx (.int p)]) = .ok r ∧ r.shape = [m, n] ∧
      (getItem (new f (some (-1)) c false) (.tuple [.dots, .idx (.int p)])).1 = .ok r' ∧ r'.shape = [m, o] ∧
      ∀ x < m, ∀ z < o, r'.get [x, z] = f.get [x, p, z, c] := by
  have ha : ∀ p k : Nat, p < k → axisSel k (.int p) = .ok (.one p) := fun p k h => HW.axisSel_counts k p p ⟨h, Or.inl rfl⟩
  have hd : Counts f.shape.length (-1) 3 := by rw [hf]; exact ⟨by simp, Or.inr rfl⟩
  have harr := HW.array_ok (new f (some (-1)) c false) 3 l c (HW.new_good f (-1) c 3 false hd) (by simp [new, hf]) ⟨hc, Or.inl rfl⟩
  refine ⟨HW.compOf f 3 c, gather (HW.compOf f 3 c) [.many (List.range m), .many (List.range n), .one p],
    gather f [.many (List.range m), .one p, .many (List.range o), .one c], harr, ?_, ?_, ?_, ?_, ?_⟩
  · simp [npGet, expand, plain, HW.comp_shape, hf, LazySlice.index, sels, HW.axisSel_full, ha p o hp', bind, Except.bind]
  · simp [gather, shapeOf]
  · rw [HW.item_good _ 3 (HW.new_good f (-1) c 3 false hd)]
    simp [new, hf, HW.wanted, entries, insertAt, out, h5get, expand, plain, whole, h5index, forward, LazySlice.index, HW.axisSel_full, sels, ha p n hp, ha c l hc, bind,
      Except.bind, Except.map]
    rfl
  · simp [gather, shapeOf]
  · intro x hx z hz
    simp [gather, subst, hx, hz]

/-! ### examples -/

/-- 2 cells by 3 cells with 4 components, the values tell the index -/
def exWrap : Arr (List Nat) := ⟨[2, 3, 4], id⟩

example : ∃ a, (array ([Op.len, .item (.one (.idx (.int 0)))].foldl Op.after (new exWrap (some (-1)) 3 false))).1 = .ok a ∧ IsComponent exWrap 2 3 a :=
  (C200_component exWrap (-1) 3 2 4 3 _ ⟨by decide, Or.inr rfl⟩ rfl ⟨by decide, Or.inl rfl⟩).2
example : ∃ r, (getItem (new exWrap (some (-1)) 3 false) (.tuple [.idx (.int 1), .idx (.slc ⟨some 1, none, none⟩)])).1 = .ok r ∧ r.shape = [2] ∧ r.get [1] = [1, 2, 3] :=
  ⟨_, rfl, by decide, by decide⟩

end Viscid.Props
