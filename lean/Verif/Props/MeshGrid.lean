import Verif.Spec.MeshGrid
import Verif.Props.SeedGrid
import Verif.Props.Hdf5
/-!
# C231 meshgrids of fields, C232 meshes of coordinates
-/
namespace Viscid.Props
open Viscid.MeshGrid Viscid.Spec.MeshGrid
open Viscid.Layout (Arr prod ravel unravel)

namespace MG
variable {α : Type}

/-! ### Open arrays -/

theorem insert0_getD (l : List Nat) (p k : Nat) (h : k ≠ p) : (l.take p ++ 0 :: l.drop p).getD k 0 = l.getD (if k < p then k else k - 1) 0 := by
  induction l generalizing p k with
  | nil =>
    cases k with
    | zero => simp
    | succ k => simp
  | cons a l ih =>
    cases p with
    | zero =>
      cases k with
      | zero => exact absurd rfl h
      | succ k => simp
    | succ p =>
      cases k with
      | zero => simp
      | succ k =>
        have := ih p k (by omega)
        simp only [List.take_succ_cons, List.drop_succ_cons, List.cons_append, List.getD_cons_succ, this]
        by_cases hk : k < p
        · simp [hk]
        · have : k ≠ 0 := by omega
          obtain ⟨j, rfl⟩ := Nat.exists_eq_succ_of_ne_zero this
          simp [hk]

theorem ones_erase (d i p n : Nat) (h : i ≠ p) (hp : p < d) (hi : i < d) : ((List.replicate d 1).set i n).eraseIdx p = (List.replicate (d - 1) 1).set (if i < p then i else i - 1) n := by
  apply List.ext_getElem?
  intro k
  rw [List.getElem?_eraseIdx]
  simp only [List.getElem?_set, List.getElem?_replicate, List.length_replicate]
  grind

theorem take0_open [Inhabited α] (d i p : Nat) (c : List α) (h : i ≠ p) (hp : p < d) (hi : i < d) : take0 p (openArr d i c) = .ok (openArr (d - 1) (if i < p then i else i - 1) c) := by
  have : (openArr d i c).shape[p]? = some (0 + 1) := by
    simp only [openArr, List.getElem?_set, List.length_replicate, List.getElem?_replicate]
    rw [if_neg h, if_pos hp]
  simp only [take0, this]
  congr 1
  simp only [openArr, ones_erase d i p c.length h hp hi, Arr.mk.injEq, true_and]
  funext idx
  rw [insert0_getD idx p i h]

/-! ### Pruning -/

/-- The elements at places where `P` is false -/
def keep {β : Type} (P : Nat → Bool) (l : List β) (k : Nat) : List β := ((List.range k).filter fun i => !P i).filterMap fun i => l[i]?

theorem popLoop_ok {β : Type} (shape : List Nat) (P : Nat → Bool) (hP : ∀ i, P i = decide (shape.getD i 0 ≤ 1)) (l : List β) (k : Nat) (hk : k ≤ l.length) (r : List β) (pops : List Nat) :
    popLoop shape k (l.take k ++ r) pops = .ok (keep P l k ++ r, pops ++ ((List.range k).filter P).reverse) := by
  induction k generalizing r pops with
  | zero => simp [popLoop, keep]
  | succ k ih =>
    have hlt : k < l.length := hk
    have e : l.take (k + 1) ++ r = l.take k ++ (l[k] :: r) := by rw [List.take_succ_eq_append_getElem hlt, List.append_assoc]; rfl
    rw [popLoop, e]
    have hf : (List.range (k + 1)).filter P = (List.range k).filter P ++ (if P k then [k] else []) := by
      rw [List.range_succ, List.filter_append]; simp [List.filter_cons]
    have hg : keep P l (k + 1) = keep P l k ++ (if P k then [] else [l[k]]) := by
      unfold keep
      rw [List.range_succ, List.filter_append, List.filterMap_append]
      cases hpk : P k <;> simp [hpk, hlt]
    by_cases hp : shape.getD k 0 ≤ 1
    · have hpk : P k = true := by rw [hP]; simpa using hp
      rw [if_pos hp, if_pos (by simp; omega)]
      have : (l.take k ++ (l[k] :: r)).eraseIdx k = l.take k ++ r := by
        rw [List.eraseIdx_append_of_length_le (by simp)]
        simp [Nat.min_eq_left (by omega : k ≤ l.length)]
      rw [this, ih (by omega), hf, hg, hpk]
      simp
    · have hpk : P k = false := by rw [hP]; simpa using hp
      rw [if_neg hp, ih (by omega), hf, hg, hpk]
      simp

/-- From lengths beyond the coordinates -/
theorem popLoop_skip {β : Type} (shape : List Nat) (l : List β) (d k : Nat) (h : ∀ i, d ≤ i → i < d + k → 1 < shape.getD i 0) (pops : List Nat) :
    popLoop shape (d + k) l pops = popLoop shape d l pops := by
  induction k with
  | zero => rfl
  | succ k ih =>
    rw [← Nat.add_assoc, popLoop, if_neg (by have := h (d + k) (by omega) (by omega); omega)]
    exact ih fun i h1 h2 => h i h1 (by omega)

theorem mapM_ok {β γ : Type} (f : β → Except Err γ) (g : β → γ) (l : List β) (h : ∀ x ∈ l, f x = .ok (g x)) : l.mapM f = .ok (l.map g) := by
  induction l with
  | nil => rfl
  | cons a l ih =>
    rw [List.mapM_cons, h a List.mem_cons_self, ih fun x hx => h x (List.mem_cons_of_mem _ hx)]
    rfl

theorem idxOf_erase (A : List Nat) (k i : Nat) (hk : k < A.length) (hn : A.Nodup) (hi : i ∈ A) (hne : A[k] ≠ i) :
    (A.eraseIdx k).idxOf i = if A.idxOf i < k then A.idxOf i else A.idxOf i - 1 := by
  induction A generalizing k with
  | nil => simp at hk
  | cons a A ih =>
    cases k with
    | zero =>
      have ha : a ≠ i := by simpa using hne
      simp [List.idxOf_cons_ne _ ha]
    | succ k =>
      rw [List.eraseIdx_cons_succ]
      by_cases ha : a = i
      · subst ha; simp
      · have hi' : i ∈ A := by simpa [Ne.symm ha] using hi
        have hk' : k < A.length := by simpa using hk
        have := ih k hk' (List.nodup_cons.1 hn).2 hi' (by simpa using hne)
        rw [List.idxOf_cons_ne _ ha, List.idxOf_cons_ne _ ha, this]
        have hne2 : A.idxOf i ≠ k := by
          intro h
          apply hne
          subst h
          simp
        simp only [Nat.succ_eq_add_one, Nat.add_lt_add_iff_right]
        split <;> omega

/-- The arrays of the axes `B` of the axes `A` -/
def opens [Inhabited α] (c : Nat → List α) (A B : List Nat) : List (Arr α) := B.map fun i => openArr A.length (A.idxOf i) (c i)

theorem sliceLoop_ok [Inhabited α] (c : Nat → List α) (P : Nat → Bool) (k : Nat) (r B : List Nat) (hn : (List.range k ++ r).Nodup) (hB : ∀ i ∈ B, i ∈ List.range k ++ r ∧ (i < k → P i = false)) :
    sliceLoop (((List.range k).filter P).reverse) (opens c (List.range k ++ r) B) = .ok (opens c ((List.range k).filter (fun i => !P i) ++ r) B) := by
  induction k generalizing r with
  | zero => simp [sliceLoop]
  | succ k ih =>
    rw [List.range_succ, List.filter_append, List.filter_append]
    cases hpk : P k with
    | false =>
      have e : List.range k ++ [k] ++ r = List.range k ++ (k :: r) := by simp
      rw [List.range_succ, e] at hn hB
      have := ih (k :: r) hn (fun i hi => ⟨(hB i hi).1, fun h => (hB i hi).2 (by omega)⟩)
      rw [e]
      simpa [List.filter_cons, hpk] using this
    | true =>
      simp only [List.filter_cons, hpk, if_true, List.filter_nil, List.reverse_append, List.reverse_cons, List.reverse_nil, List.nil_append, List.cons_append, sliceLoop, Bool.not_true, Bool.false_eq_true, if_false, List.append_nil]
      have hlen : k < (List.range k ++ [k] ++ r).length := by simp
      have hat : (List.range k ++ [k] ++ r)[k]'hlen = k := by simp
      have hnA : (List.range k ++ [k] ++ r).Nodup := by rw [List.range_succ] at hn; exact hn
      have her : (List.range k ++ [k] ++ r).eraseIdx k = List.range k ++ r := by
        rw [List.append_assoc, List.eraseIdx_append_of_length_le (by simp)]
        simp
      have hstep : (opens c (List.range k ++ [k] ++ r) B).mapM (take0 k) = .ok (opens c (List.range k ++ r) B) := by
        unfold opens
        rw [List.mapM_map]
        apply mapM_ok
        intro i hi
        obtain ⟨h1, h2⟩ := hB i hi
        rw [List.range_succ] at h1
        have hik : i ≠ k := by
          rintro rfl
          rw [h2 (by omega)] at hpk
          cases hpk
        have hlt : (List.range k ++ [k] ++ r).idxOf i < (List.range k ++ [k] ++ r).length := List.idxOf_lt_length_iff.2 h1
        have hne : (List.range k ++ [k] ++ r).idxOf i ≠ k := by
          intro h
          have := List.getElem_idxOf hlt
          simp only [h] at this
          rw [hat] at this
          exact hik this.symm
        show take0 k (openArr _ _ _) = _
        rw [take0_open _ _ _ _ hne hlen hlt, ← her, idxOf_erase _ k i hlen hnA h1 (by rw [hat]; exact Ne.symm hik), List.length_eraseIdx, if_pos hlen]
      rw [hstep]
      refine ih r ?_ fun i hi => ?_
      · rw [← her]; exact hnA.sublist (List.eraseIdx_sublist _ _)
      · obtain ⟨h1, h2⟩ := hB i hi
        rw [List.range_succ] at h1
        have hik : i ≠ k := by
          rintro rfl
          rw [h2 (by omega)] at hpk
          cases hpk
        refine ⟨?_, fun h => h2 (by omega)⟩
        simp only [List.mem_append, List.mem_singleton] at h1 ⊢
        rcases h1 with (h1 | h1) | h1
        · exact .inl h1
        · exact absurd h1 hik
        · exact .inr h1

/-! ### Broadcasting -/

theorem bzip_set (s : List Nat) (k n : Nat) (hk : s[k]? = some 1) : bzip s ((List.replicate s.length 1).set k n) = .ok (s.set k n) := by
  have h1 : ∀ s : List Nat, bzip s (List.replicate s.length 1) = .ok s := by
    intro s
    induction s with
    | nil => rfl
    | cons a s ih =>
      simp only [List.length_cons, List.replicate_succ, bzip, ih, bdim]
      by_cases h : a = 1
      · subst h; rfl
      · simp [h]; rfl
  induction s generalizing k with
  | nil => simp at hk
  | cons a s ih =>
    cases k with
    | zero =>
      have : a = 1 := by simpa using hk
      subst this
      simp only [List.length_cons, List.replicate_succ, List.set_cons_zero, bzip, h1, bdim]
      by_cases h : 1 = n
      · subst h; rfl
      · simp [h]; rfl
    | succ k =>
      have := ih k (by simpa using hk)
      simp only [List.length_cons, List.replicate_succ, List.set_cons_succ, bzip, this, bdim]
      by_cases h : a = 1
      · subst h; rfl
      · simp [h]; rfl

/-- The lengths of axes with numbers, and 1 for the others -/
def lens (s : List Nat) (l : List (Nat × List α)) : List Nat := l.foldl (fun s p => s.set p.1 p.2.length) s

theorem lens_length (s : List Nat) (l : List (Nat × List α)) : (lens s l).length = s.length := by
  induction l generalizing s with
  | nil => rfl
  | cons a l ih => rw [lens, List.foldl_cons]; exact (ih _).trans List.length_set

theorem lens_get (s : List Nat) (l : List (Nat × List α)) (hn : (l.map Prod.fst).Nodup) (k : Nat) (hk : k < s.length) :
    (∀ c, (k, c) ∈ l → (lens s l)[k]? = some c.length) ∧ (k ∉ l.map Prod.fst → (lens s l)[k]? = s[k]?) := by
  induction l generalizing s with
  | nil => simp [lens]
  | cons a l ih =>
    obtain ⟨ha, hn⟩ := List.nodup_cons.1 (by simpa using hn : (a.1 :: l.map Prod.fst).Nodup)
    obtain ⟨i1, i2⟩ := ih (s.set a.1 a.2.length) hn (by simpa using hk)
    constructor
    · intro c hc
      rcases List.mem_cons.1 hc with rfl | hc
      · refine (i2 ha).trans ?_
        simp [hk]
      · exact i1 c hc
    · intro h
      rw [List.map_cons, List.mem_cons, not_or] at h
      refine (i2 h.2).trans ?_
      rw [List.getElem?_set]
      simp [Ne.symm h.1]

theorem foldlM_bzip [Inhabited α] (m : Nat) (l : List (Nat × List α)) (s : List Nat) (hs : s.length = m) (hm : ∀ p ∈ l, s[p.1]? = some 1) (hn : (l.map Prod.fst).Nodup) :
    (l.map fun p => openArr m p.1 p.2).foldlM (fun s a => bzip s (List.replicate (m - a.shape.length) 1 ++ a.shape)) s = .ok (lens s l) := by
  induction l generalizing s with
  | nil => rfl
  | cons a l ih =>
    obtain ⟨ha, hn⟩ := List.nodup_cons.1 (by simpa using hn : (a.1 :: l.map Prod.fst).Nodup)
    have h0 := hm a List.mem_cons_self
    rw [List.map_cons, List.foldlM_cons]
    have e : bzip s (List.replicate (m - (openArr m a.1 a.2).shape.length) 1 ++ (openArr m a.1 a.2).shape) = .ok (s.set a.1 a.2.length) := by
      have : (openArr m a.1 a.2).shape.length = m := by simp [openArr]
      rw [this, Nat.sub_self, List.replicate_zero, List.nil_append]
      have := bzip_set s a.1 a.2.length h0
      rw [hs] at this
      exact this
    rw [e]
    refine ih _ (by simpa using hs) (fun p hp => ?_) hn
    have hne : a.1 ≠ p.1 := fun h => ha (h ▸ List.mem_map_of_mem hp)
    rw [List.getElem?_set, if_neg hne]
    exact hm p (List.mem_cons_of_mem _ hp)

theorem foldl_max_const (l : List Nat) (m : Nat) (h : ∀ x ∈ l, x = m) (a : Nat) (ha : a ≤ m) : l.foldl max a = if l = [] then a else m := by
  induction l generalizing a with
  | nil => simp
  | cons x l ih =>
    have hx := h x List.mem_cons_self
    subst hx
    rw [List.foldl_cons, ih (fun y hy => h y (List.mem_cons_of_mem _ hy)) _ (by omega)]
    split
    · simp; omega
    · simp

theorem within_get {s idx : List Nat} (h : Within s idx) (k n : Nat) (hk : s[k]? = some n) : ∃ i, idx[k]? = some i ∧ i < n := by
  induction h generalizing k with
  | nil => simp at hk
  | cons h _ ih =>
    cases k with
    | zero =>
      simp only [List.getElem?_cons_zero, Option.some.injEq] at hk
      subst hk
      exact ⟨_, rfl, h⟩
    | succ k => simpa using ih k (by simpa using hk)

/-- Open arrays of distinct axes are broadcast to arrays with all of their lengths -/
theorem broadcast_ok [Inhabited α] (m : Nat) (l : List (Nat × List α)) (hm : ∀ p ∈ l, p.1 < m) (hn : (l.map Prod.fst).Nodup) :
    ∃ r, broadcast (l.map fun p => openArr m p.1 p.2) = .ok r ∧ List.Forall₂ (fun p a => Along (lens (List.replicate m 1) l) p.1 p.2 a) l r := by
  have hlen : ∀ x ∈ (l.map fun p => openArr m p.1 p.2).map (fun a => a.shape.length), x = m := by
    intro x hx
    simp only [List.map_map, List.mem_map, Function.comp] at hx
    obtain ⟨p, -, rfl⟩ := hx
    simp [openArr]
  cases hl : l with
  | nil => exact ⟨[], rfl, .nil⟩
  | cons a t =>
    rw [← hl]
    have hmax : ((l.map fun p => openArr m p.1 p.2).map fun a => a.shape.length).foldl max 0 = m := by
      rw [foldl_max_const _ m hlen 0 (Nat.zero_le _), if_neg (by simp [hl])]
    have hfold := foldlM_bzip m l (List.replicate m 1) (by simp) (fun p hp => by simp [hm p hp]) hn
    refine ⟨_, by simp only [broadcast, hmax, hfold]; rfl, ?_⟩
    rw [List.map_map, List.forall₂_map_right_iff, List.forall₂_same]
    rintro ⟨k, c⟩ hp
    refine ⟨rfl, fun idx hidx => ?_⟩
    have hk : k < m := hm _ hp
    have hs := (lens_get (List.replicate m 1) l hn k (by simpa using hk)).1 c hp
    obtain ⟨i, h1, h2⟩ := within_get hidx k c.length hs
    refine ⟨i, h1, ?_⟩
    have hsl : (openArr m k c).shape.length = m := by simp [openArr]
    simp only [Function.comp, hsl, Nat.sub_self, List.drop_zero]
    simp only [openArr, List.getD_eq_getElem?_getD, List.getElem?_zipWith, List.getElem?_set_self (show k < (List.replicate m 1).length by simpa using hk), h1, Option.getD_some]
    by_cases h : c.length = 1
    · have : i = 0 := by omega
      subst this
      rw [if_pos h, List.getElem?_eq_getElem h2]; rfl
    · rw [if_neg h, List.getElem?_eq_getElem h2]; rfl

theorem forall2_get {β γ : Type} {R : β → γ → Prop} {l : List β} {r : List γ} (h : List.Forall₂ R l r) (k : Nat) (x : β) (y : γ) (hx : l[k]? = some x) (hy : r[k]? = some y) : R x y := by
  induction h generalizing k with
  | nil => simp at hx
  | cons h _ ih =>
    cases k with
    | zero =>
      simp only [List.getElem?_cons_zero, Option.some.injEq] at hx hy
      subst hx hy
      exact h
    | succ k => exact ih k (by simpa using hx) (by simpa using hy)

/-- Open arrays of the axes in order -/
theorem broadcast_mesh [Inhabited α] (crds : List (List α)) (K : List Nat) (hn : K.Nodup) :
    ∃ r, broadcast (opens (fun i => crds.getD i []) K K) = .ok r ∧ Mesh crds K r := by
  let l : List (Nat × List α) := K.map fun i => (K.idxOf i, crds.getD i [])
  have hfst : l.map Prod.fst = List.range K.length := by
    apply List.ext_getElem
    · simp [l]
    · intro k h1 h2
      simp only [l, List.map_map, List.getElem_map, Function.comp, List.getElem_range]
      exact hn.idxOf_getElem k (by simpa [l] using h1)
  obtain ⟨r, h1, h2⟩ := broadcast_ok K.length l (by
    intro p hp
    obtain ⟨i, hi, rfl⟩ := List.mem_map.1 hp
    exact List.idxOf_lt_length_iff.2 hi) (by rw [hfst]; exact List.nodup_range)
  have hshape : lens (List.replicate K.length 1) l = K.map fun j => (crds.getD j []).length := by
    apply List.ext_getElem?
    intro k
    by_cases hk : k < K.length
    · have hm : (k, crds.getD K[k] []) ∈ l := List.mem_map.2 ⟨K[k], List.getElem_mem hk, by rw [hn.idxOf_getElem k hk]⟩
      rw [(lens_get (List.replicate K.length 1) l (by rw [hfst]; exact List.nodup_range) k (by simpa using hk)).1 _ hm]
      simp [hk]
    · rw [List.getElem?_eq_none (by rw [lens_length]; simpa using hk), List.getElem?_eq_none (by simpa using hk)]
  have hb : opens (fun i => crds.getD i []) K K = l.map fun p => openArr K.length p.1 p.2 := by
    simp only [opens, l, List.map_map]; rfl
  rw [hb]
  refine ⟨r, h1, by rw [← h2.length_eq]; simp [l], fun k i a hk ha => ?_⟩
  have hlt : k < K.length := (List.getElem?_eq_some_iff.1 hk).1
  have hki : K[k] = i := (List.getElem?_eq_some_iff.1 hk).2
  have := forall2_get h2 k (k, crds.getD i []) a (by
    simp only [l, List.getElem?_map, hk, Option.map_some, Option.some.injEq, Prod.mk.injEq, and_true]
    rw [← hki]; exact hn.idxOf_getElem k hlt) ha
  rw [hshape] at this
  exact this

theorem getCrds_ok [Inhabited α] (f : Fld α) (axes : List Nat) (h : ∀ i ∈ axes, i < f.crds.length) :
    getCrds f axes = .ok (axes.map fun i => openArr f.crds.length i (f.crds.getD i [])) := by
  apply mapM_ok
  intro i hi
  have := h i hi
  simp [this]

theorem getCrds_all [Inhabited α] (f : Fld α) :
    getCrds f (List.range f.crds.length) = .ok (opens (fun i => f.crds.getD i []) (List.range f.crds.length) (List.range f.crds.length)) := by
  rw [getCrds_ok f _ fun i hi => List.mem_range.1 hi]
  congr 1
  apply List.map_congr_left
  intro i hi
  have hi := List.mem_range.1 hi
  have := (List.nodup_range (n := f.crds.length)).idxOf_getElem i (by simpa using hi)
  simp only [List.getElem_range] at this
  rw [this, List.length_range]

/-- Pruning of the axes where the shape of the field is at most 1, if these are axes -/
theorem prune_ok [Inhabited α] (f : Fld α) (P : Nat → Bool) (hP : ∀ i, P i = decide (f.shape.getD i 0 ≤ 1)) (hd : f.crds.length ≤ f.shape.length)
    (h : ∀ i, f.crds.length ≤ i → i < f.shape.length → 1 < f.shape.getD i 0) :
    ∃ r, meshgrid f none true = .ok r ∧ Mesh f.crds ((List.range f.crds.length).filter fun i => !P i) r := by
  let d := f.crds.length
  let c := fun i => f.crds.getD i []
  let K := (List.range d).filter fun i => !P i
  have hK : K.Nodup := List.nodup_range.filter _
  have hpop : popLoop f.shape f.shape.length (opens c (List.range d) (List.range d)) [] = .ok (opens c (List.range d) K, ((List.range d).filter P).reverse) := by
    obtain ⟨k, hk⟩ := Nat.exists_eq_add_of_le hd
    rw [hk, popLoop_skip _ _ _ _ (fun i h1 h2 => h i h1 (by omega))]
    have := popLoop_ok f.shape P hP (opens c (List.range d) (List.range d)) d (by simp [opens]) [] []
    rw [List.take_of_length_le (by simp [opens]), List.append_nil, List.append_nil, List.nil_append] at this
    rw [this]
    congr 2
    simp only [keep, opens, K]
    rw [← List.filterMap_eq_map]
    apply List.filterMap_congr
    intro i hi
    have hi := List.mem_range.1 (List.mem_filter.1 hi).1
    simp [hi]
  have hsl := sliceLoop_ok c P d [] K (by simpa using List.nodup_range) (by
    intro i hi
    obtain ⟨h1, h2⟩ := List.mem_filter.1 hi
    exact ⟨by simpa using h1, fun _ => by simpa using h2⟩)
  rw [List.append_nil, List.append_nil] at hsl
  obtain ⟨r, h1, h2⟩ := broadcast_mesh f.crds K hK
  refine ⟨r, ?_, h2⟩
  simp only [meshgrid, Option.getD_none, getCrds_all, if_true]
  show (popLoop f.shape f.shape.length (opens c (List.range d) (List.range d)) [] >>= _) = _
  rw [hpop]
  show (sliceLoop _ _ >>= _) = _
  rw [hsl]
  exact h1

end MG

/-! ### C231 -/

/-- C231: `meshgrid()` gives an array for each axis, all of the shape of the grid, with the coordinates of the axis -/
theorem C231_all {α : Type} [Inhabited α] (f : Fld α) : ∃ r, meshgrid f none false = .ok r ∧ Mesh f.crds (List.range f.crds.length) r := by
  obtain ⟨r, h1, h2⟩ := MG.broadcast_mesh f.crds (List.range f.crds.length) List.nodup_range
  refine ⟨r, ?_, h2⟩
  simp only [meshgrid, Option.getD_none, MG.getCrds_all, Bool.false_eq_true, if_false]
  exact h1

/-- C231: with axes asked for (each once, in any order), the arrays are those of the axes, and have one point along the others -/
theorem C231_axes {α : Type} [Inhabited α] (f : Fld α) (axes : List Nat) (hn : axes.Nodup) (h : ∀ i ∈ axes, i < f.crds.length) :
    ∃ r, meshgrid f (some axes) false = .ok r ∧ r.length = axes.length ∧ ∀ (k i : Nat) (a : Arr α), axes[k]? = some i → r[k]? = some a → Along (thin f.crds axes) i (f.crds.getD i []) a := by
  let l : List (Nat × List α) := axes.map fun i => (i, f.crds.getD i [])
  have hfst : l.map Prod.fst = axes := by simp [l, Function.comp_def]
  obtain ⟨r, h1, h2⟩ := MG.broadcast_ok f.crds.length l (by
    intro p hp
    obtain ⟨i, hi, rfl⟩ := List.mem_map.1 hp
    exact h i hi) (by rw [hfst]; exact hn)
  have hshape : MG.lens (List.replicate f.crds.length 1) l = thin f.crds axes := by
    apply List.ext_getElem?
    intro k
    by_cases hk : k < f.crds.length
    · have hl := MG.lens_get (List.replicate f.crds.length 1) l (by rw [hfst]; exact hn) k (by simpa using hk)
      rw [hfst] at hl
      by_cases hm : k ∈ axes
      · rw [hl.1 _ (List.mem_map.2 ⟨k, hm, rfl⟩)]
        simp [thin, hk, hm]
      · rw [hl.2 hm]
        simp [thin, hk, hm]
    · rw [List.getElem?_eq_none (by rw [MG.lens_length]; simpa using hk), List.getElem?_eq_none (by simpa [thin] using hk)]
  refine ⟨r, ?_, by rw [← h2.length_eq]; simp [l], fun k i a hk ha => ?_⟩
  · simp only [meshgrid, Option.getD_some, MG.getCrds_ok f axes h, Bool.false_eq_true, if_false]
    have : axes.map (fun i => openArr f.crds.length i (f.crds.getD i [])) = l.map fun p => openArr f.crds.length p.1 p.2 := by
      simp only [l, List.map_map]; rfl
    rw [this]
    exact h1
  · have := MG.forall2_get h2 k (i, f.crds.getD i []) a (by simp [l, hk]) ha
    rw [hshape] at this
    exact this

/-- C231: with `prune=True`, the arrays of a scalar field, or of a vector field with its components along the last axis, are those of the axes with more than one point, and have only these axes -/
theorem C231_prune_partial {α : Type} [Inhabited α] (f : Fld α) (h : f.comps = .scalar ∨ ∃ n, 1 < n ∧ f.comps = .last n) :
    ∃ r, meshgrid f none true = .ok r ∧ Mesh f.crds (extended f.crds) r := by
  have hlt : ∀ i, i < f.crds.length → f.shape.getD i 0 = (f.crds.getD i []).length := by
    intro i hi
    rcases h with h | ⟨n, hn, h⟩
    · simp [Fld.shape, h, hi]
    · simp [Fld.shape, h, hi, List.getElem?_append_left]
  obtain ⟨r, h1, h2⟩ := MG.prune_ok f (fun i => decide (f.shape.getD i 0 ≤ 1)) (fun _ => rfl) (by
    rcases h with h | ⟨n, hn, h⟩ <;> simp [Fld.shape, h]) (by
    intro i h1 h2
    rcases h with h | ⟨n, hn, h⟩
    · simp [Fld.shape, h] at h2; omega
    · have : i = f.crds.length := by simp [Fld.shape, h] at h2; omega
      subst this
      simpa [Fld.shape, h] using hn)
  refine ⟨r, h1, ?_⟩
  have : extended f.crds = (List.range f.crds.length).filter fun i => !decide (f.shape.getD i 0 ≤ 1) := by
    apply List.filter_congr
    intro i hi
    rw [hlt i (List.mem_range.1 hi), ← decide_not]
    exact decide_eq_decide.2 Nat.not_le.symm
  rw [this]
  exact h2

namespace MG
variable {α : Type}

theorem place_ravel (s idx : List Nat) : Spec.MeshGrid.place s idx = ravel s idx := by
  induction s generalizing idx with
  | nil => cases idx <;> rfl
  | cons n s ih =>
    cases idx with
    | nil => rfl
    | cons i idx => rw [Spec.MeshGrid.place, ravel, ih]; rfl

/-- The indices along some axes -/
def squeeze (K idx : List Nat) : List Nat := K.map fun i => idx.getD i 0

theorem filter_shift (P : Nat → Bool) (n : Nat) : (List.range (n + 1)).filter P = (if P 0 then [0] else []) ++ ((List.range n).filter fun i => P (i + 1)).map (· + 1) := by
  rw [List.range_succ_eq_map, List.filter_cons, List.filter_map]
  split <;> simp [Function.comp_def]

/-- Axes with one point do not change the position -/
theorem ravel_squeeze (crds : List (List α)) (idx : List Nat) (h : Within (crds.map List.length) idx) :
    ravel (crds.map List.length) idx = ravel ((extended crds).map fun j => (crds.getD j []).length) (squeeze (extended crds) idx) ∧
    prod (crds.map List.length) = prod ((extended crds).map fun j => (crds.getD j []).length) ∧
    Within ((extended crds).map fun j => (crds.getD j []).length) (squeeze (extended crds) idx) := by
  induction crds generalizing idx with
  | nil => cases h; exact ⟨rfl, rfl, .nil⟩
  | cons c crds ih =>
    cases h with
    | @cons n i s t hi ht =>
      obtain ⟨h1, h2, h3⟩ := ih t ht
      have e : extended (c :: crds) = (if 1 < c.length then [0] else []) ++ (extended crds).map (· + 1) := by
        have := filter_shift (fun i => decide (1 < ((c :: crds).getD i []).length)) crds.length
        simpa [extended] using this
      have e1 : ((extended (c :: crds)).map fun j => ((c :: crds).getD j []).length) = (if 1 < c.length then [c.length] else []) ++ (extended crds).map fun j => (crds.getD j []).length := by
        rw [e]; split <;> simp [Function.comp_def]
      have e2 : squeeze (extended (c :: crds)) (i :: t) = (if 1 < c.length then [i] else []) ++ squeeze (extended crds) t := by
        rw [e]; split <;> simp [squeeze, Function.comp_def]
      rw [e1, e2]
      by_cases hc : 1 < c.length
      · simp only [hc, if_true, List.map_cons, List.cons_append, List.nil_append, ravel, h1, h2]
        refine ⟨trivial, ?_, .cons hi h3⟩
        show c.length * prod (crds.map List.length) = _
        rw [h2]; rfl
      · have hl : c.length = 1 := by omega
        have : i = 0 := by omega
        subst this
        simp only [hc, if_false, List.map_cons, List.nil_append, ravel, h1, Nat.zero_mul, Nat.zero_add]
        refine ⟨trivial, ?_, h3⟩
        show c.length * prod (crds.map List.length) = _
        rw [hl, Nat.one_mul, h2]

theorem range_squeeze (n : Nat) (idx : List Nat) (h : idx.length = n) : squeeze (List.range n) idx = idx := by
  apply List.ext_getElem
  · simp [squeeze, h]
  · intro k h1 h2
    simp [squeeze, h2]

theorem map_range_getD (crds : List (List α)) : (List.range crds.length).map (fun j => (crds.getD j []).length) = crds.map List.length := by
  apply List.ext_getElem
  · simp
  · intro k h1 h2
    have : k < crds.length := by simpa using h2
    simp [this]

end MG

/-- C231: the arrays of `meshgrid_flat()` of a scalar field, with or without `prune`, are in the order of `data.reshape(-1)`: where that has the value at a point, they have its coordinates -/
theorem C231_flat {α : Type} [Inhabited α] (f : Fld α) (h : f.comps = .scalar) (prune : Bool) :
    ∃ r, meshgridFlat f none prune = .ok r ∧ r.length = (if prune then extended f.crds else List.range f.crds.length).length ∧
      ∀ (k i : Nat) (l : List α), (if prune then extended f.crds else List.range f.crds.length)[k]? = some i → r[k]? = some l → ∀ idx, Within (f.crds.map List.length) idx →
        l.length = (f.crds.map List.length).foldr (· * ·) 1 ∧ ∃ j v, idx[i]? = some j ∧ (f.crds.getD i [])[j]? = some v ∧ l[place (f.crds.map List.length) idx]? = some v := by
  obtain ⟨r, h1, h2, h3⟩ : ∃ r, meshgrid f none prune = .ok r ∧ Mesh f.crds (if prune then extended f.crds else List.range f.crds.length) r := by
    cases prune with
    | true => exact C231_prune_partial f (.inl h)
    | false => exact C231_all f
  refine ⟨_, by simp only [meshgridFlat, h1]; rfl, by simpa using h2, ?_⟩
  intro k i l hk hl idx hidx
  rw [List.getElem?_map] at hl
  obtain ⟨a, ha, rfl⟩ : ∃ a, r[k]? = some a ∧ l = (List.range (prod a.shape)).map (fun k => a.get (unravel a.shape k)) := by
    cases hr : r[k]? with
    | none => rw [hr] at hl; cases hl
    | some a => rw [hr] at hl; exact ⟨a, rfl, (Option.some.inj hl).symm⟩
  obtain ⟨ha1, ha2⟩ := h3 k i a hk ha
  have key : ∃ idx', Within a.shape idx' ∧ ravel a.shape idx' = ravel (f.crds.map List.length) idx ∧ prod a.shape = prod (f.crds.map List.length) ∧
      idx'[k]? = some (idx.getD i 0) := by
    cases prune with
    | true =>
      simp only [if_true] at ha1 hk
      obtain ⟨e1, e2, e3⟩ := MG.ravel_squeeze f.crds idx hidx
      exact ⟨MG.squeeze (extended f.crds) idx, ha1 ▸ e3, by rw [ha1, ← e1], by rw [ha1, ← e2], by simp [MG.squeeze, hk]⟩
    | false =>
      simp only [Bool.false_eq_true, if_false] at ha1 hk
      rw [MG.map_range_getD] at ha1
      have hlen : idx.length = f.crds.length := by rw [← hidx.length_eq]; simp
      refine ⟨idx, ha1 ▸ hidx, by rw [ha1], by rw [ha1], ?_⟩
      have h4 := List.getElem?_eq_some_iff.1 hk
      have h5 : k < f.crds.length := by simpa using h4.1
      have h6 : k = i := by simpa using h4.2
      subst h6
      simp [hlen, h5]
  obtain ⟨idx', k1, k2, k3, k4⟩ := key
  obtain ⟨j, hj1, hj2⟩ := ha2 idx' (ha1 ▸ k1)
  have hins : Spec.Hdf5.Inside idx' a.shape := k1.flip
  rw [k4] at hj1
  obtain rfl := Option.some.inj hj1
  have hlen : idx.length = f.crds.length := by rw [← hidx.length_eq]; simp
  have hi : i < f.crds.length := by
    cases prune with
    | true => exact List.mem_range.1 (List.mem_filter.1 (List.mem_of_getElem? hk)).1
    | false => exact List.mem_range.1 (List.mem_of_getElem? hk)
  refine ⟨by simp only [List.length_map, List.length_range, k3]; rfl, idx.getD i 0, _, by simp [hlen, hi], hj2, ?_⟩
  rw [MG.place_ravel, ← k2, List.getElem?_map, List.getElem?_range (Hdf5.ravel_lt _ _ hins), Option.map_some, Hdf5.unravel_ravel _ _ hins]

/-- C231, false of the code: of a vector field with its components along the first axis (the layout "flat"), `prune` removes the axes that come after those with one point, and
    keeps those with one point; if the last axis has one point, there is an IndexError -/
theorem C231_first_violated {α : Type} [Inhabited α] (crds : List (List α)) (n : Nat) (hn : 1 < n) (c : List α) :
    (1 < c.length → ∃ r, meshgrid ⟨crds ++ [c], .first n⟩ none true = .ok r ∧
      Mesh (crds ++ [c]) ((List.range (crds.length + 1)).filter fun i => i = 0 ∨ 1 < ((crds ++ [c]).getD (i - 1) []).length) r) ∧
    (c.length ≤ 1 → meshgrid ⟨crds ++ [c], .first n⟩ none true = .error .indexError) := by
  let f : Fld α := ⟨crds ++ [c], .first n⟩
  have hd : f.crds.length = crds.length + 1 := by simp [f]
  have hs : f.shape.length = crds.length + 2 := by simp [f, Fld.shape]
  have hsh : ∀ i, f.shape.getD (i + 1) 0 = if i < crds.length + 1 then ((crds ++ [c]).getD i []).length else 0 := by
    intro i
    by_cases hi : i < crds.length + 1
    · have : i < (crds ++ [c]).length := by simpa using hi
      simp only [f, Fld.shape, List.getD_cons_succ, hi, if_true]
      rw [List.getD_eq_getElem?_getD, List.getElem?_map, List.getD_eq_getElem?_getD, List.getElem?_eq_getElem this]
      rfl
    · have : ¬ i < (crds ++ [c]).length := by simpa using hi
      simp only [f, Fld.shape, List.getD_cons_succ, hi, if_false]
      rw [List.getD_eq_getElem?_getD, List.getElem?_map, List.getElem?_eq_none (by omega)]
      rfl
  constructor
  · intro hc
    obtain ⟨r, h1, h2⟩ := MG.prune_ok f (fun i => decide (f.shape.getD i 0 ≤ 1)) (fun _ => rfl) (by omega) (by
      intro i h1 h2
      have : i = crds.length + 1 := by omega
      subst this
      rw [hsh, if_pos (by omega)]
      simpa using hc)
    refine ⟨r, h1, ?_⟩
    rw [hd] at h2
    have : ((List.range (crds.length + 1)).filter fun i => i = 0 ∨ 1 < ((crds ++ [c]).getD (i - 1) []).length) =
        (List.range (crds.length + 1)).filter fun i => !decide (f.shape.getD i 0 ≤ 1) := by
      apply List.filter_congr
      intro i hi
      have hi := List.mem_range.1 hi
      rw [← decide_not]
      apply decide_eq_decide.2
      cases i with
      | zero => simp [f, Fld.shape]; omega
      | succ i => rw [hsh, if_pos (by omega)]; simp
    rw [this]
    exact h2
  · intro hc
    show meshgrid f none true = _
    simp only [meshgrid, Option.getD_none, MG.getCrds_all, if_true]
    show (popLoop f.shape f.shape.length _ [] >>= _) = _
    rw [hs, popLoop, if_pos (by rw [hsh, if_pos (by omega)]; simpa using hc), if_neg (by simp [MG.opens, hd])]
    rfl

/-- C231, false of the code: `prune` of a vector field with one component (along the last axis) is an IndexError -/
theorem C231_one_violated {α : Type} [Inhabited α] (crds : List (List α)) : meshgrid ⟨crds, .last 1⟩ none true = .error .indexError := by
  let f : Fld α := ⟨crds, .last 1⟩
  show meshgrid f none true = _
  simp only [meshgrid, Option.getD_none, MG.getCrds_all, if_true]
  show (popLoop f.shape f.shape.length _ [] >>= _) = _
  have hs : f.shape.length = crds.length + 1 := by simp [f, Fld.shape]
  rw [hs, popLoop, if_pos (by simp [f, Fld.shape]), if_neg (by simp [MG.opens, f])]
  rfl

/-- C231, false of the code: with `prune`, if the last axis has one point and not as many axes are asked for as there are, there is an IndexError, though the last axis may not be asked for -/
theorem C231_axes_prune_violated {α : Type} [Inhabited α] (crds : List (List α)) (c : List α) (hc : c.length ≤ 1) (axes : List Nat) (h : ∀ i ∈ axes, i ≤ crds.length) (hl : axes.length ≤ crds.length) :
    meshgrid ⟨crds ++ [c], .scalar⟩ (some axes) true = .error .indexError := by
  let f : Fld α := ⟨crds ++ [c], .scalar⟩
  show meshgrid f (some axes) true = _
  have hd : f.crds.length = crds.length + 1 := by simp [f]
  simp only [meshgrid, Option.getD_some, MG.getCrds_ok f axes (fun i hi => by have := h i hi; omega), if_true]
  show (popLoop f.shape f.shape.length _ [] >>= _) = _
  have hs : f.shape.length = crds.length + 1 := by simp [f, Fld.shape]
  rw [hs, popLoop, if_pos (by simpa [f, Fld.shape] using hc), if_neg (by simpa using hl)]
  rfl

/-- A box of 3, 1 and 2 points -/
def MG.box : List (List Nat) := [[10, 20, 30], [7], [1, 2]]

example := C231_prune_partial ⟨MG.box, .scalar⟩ (.inl rfl)
example := C231_prune_partial ⟨MG.box, .last 3⟩ (.inr ⟨3, by decide, rfl⟩)
example := C231_axes ⟨MG.box, .scalar⟩ [2, 0] (by decide) (by decide)
example : extended MG.box = [0, 2] := by decide
example : (meshgridFlat ⟨MG.box, .scalar⟩ none true).toOption = some [[10, 10, 20, 20, 30, 30], [1, 2, 1, 2, 1, 2]] := by decide
example : (meshgridFlat ⟨MG.box, .scalar⟩ none false).toOption = some [[10, 10, 20, 20, 30, 30], [7, 7, 7, 7, 7, 7], [1, 2, 1, 2, 1, 2]] := by decide
/-- The same box with a vector in the layout "flat": the axis with one point is kept, and the last one is gone -/
example : (meshgridFlat ⟨MG.box, .first 3⟩ none true).toOption = some [[10, 20, 30], [7, 7, 7]] := by decide
example : (meshgridFlat ⟨MG.box, .scalar⟩ (some [2]) true).toOption = none := by decide
example := (C231_first_violated [[10, 20, 30], [7]] 3 (by decide) [1, 2]).1 (by decide)
example := (C231_first_violated [[10, 20, 30], [7, 8]] 3 (by decide) [1]).2 (by decide)
example := C231_axes_prune_violated [[10, 20, 30], [7, 8]] [1] (by decide) [0, 1] (by decide) (by decide)

/-! ### C232 -/

namespace MG

theorem rows_pts {α : Type} (crds : List (List α)) : ((Seed.gridRows crds).flatten).length = crds.length * prod (crds.map List.length) := by
  obtain ⟨-, h1, h2, -⟩ := C51_get_points_iter_points crds
  have : Seed.nrPoints crds = prod (crds.map List.length) := by
    unfold Seed.nrPoints; rw [Seed.nprod_eq]; rfl
  rw [this] at h1
  rw [← h2]
  generalize Seed.gridRows crds = rows at h1
  induction rows with
  | nil => simp
  | cons r rows ih =>
    rw [List.flatten_cons, List.length_append, ih fun r hr => h1 r (List.mem_cons_of_mem _ hr), h1 r List.mem_cons_self, List.length_cons]
    rw [Nat.add_mul, Nat.one_mul, Nat.add_comm]

theorem flatten_get {α : Type} (rows : List (List α)) (n c k : Nat) (h : ∀ r ∈ rows, r.length = n) (hk : k < n) : (rows.flatten)[c * n + k]? = (rows[c]?).bind fun r => r[k]? := by
  induction rows generalizing c with
  | nil => simp
  | cons r rows ih =>
    have hr := h r List.mem_cons_self
    cases c with
    | zero =>
      rw [List.flatten_cons, Nat.zero_mul, Nat.zero_add, List.getElem?_append_left (by omega)]
      rfl
    | succ c =>
      rw [List.flatten_cons, List.getElem?_append_right (by rw [hr, Nat.succ_mul]; omega)]
      have : (c + 1) * n + k - r.length = c * n + k := by rw [hr, Nat.succ_mul]; omega
      rw [this, ih c fun r hr => h r (List.mem_cons_of_mem _ hr)]
      rfl

theorem pick_get {α : Type} (crds : List (List α)) (idx : List Nat) (h : idx.length = crds.length) (c : Nat) (hc : c < crds.length) :
    (Spec.SeedGrid.pick crds idx)[c]? = some ((crds.getD c [])[idx.getD c 0]?) := by
  induction crds generalizing idx c with
  | nil => simp at hc
  | cons a crds ih =>
    cases idx with
    | nil => simp at h
    | cons i idx =>
      cases c with
      | zero => rfl
      | succ c => simpa [Spec.SeedGrid.pick] using ih idx (by simpa using h) c (by simpa using hc)

theorem within_iff (s idx : List Nat) : Spec.SeedGrid.Within s idx ↔ Within s idx := by
  induction s generalizing idx with
  | nil => cases idx <;> simp [Spec.SeedGrid.Within, Within]
  | cons n s ih =>
    cases idx with
    | nil => simp [Spec.SeedGrid.Within, Within]
    | cons i idx => simp only [Spec.SeedGrid.Within, Within, List.forall₂_cons] ; rw [ih]; rfl

theorem flat_ravel (s idx : List Nat) : Spec.SeedGrid.flat s idx = ravel s idx := by
  induction s generalizing idx with
  | nil => cases idx <;> rfl
  | cons n s ih =>
    cases idx with
    | nil => rfl
    | cons i idx => rw [Spec.SeedGrid.flat, ravel, ih]; rfl

end MG

/-- C232: `as_mesh` of three axes, (at least) one of them with one point, is an array of three rows of the shape of the other two axes: at the place of a point are its coordinates -/
theorem C232_three_partial {α : Type} [Inhabited α] (x y z : List α) (h : 1 ∈ [x, y, z].map List.length) :
    ∃ m d, asMesh [x, y, z] = .ok m ∧ ([x, y, z].map List.length)[d]? = some 1 ∧ m.shape = 3 :: ([x, y, z].map List.length).eraseIdx d ∧
      ∀ idx, Within ([x, y, z].map List.length) idx → ∀ c, c < 3 → ([x, y, z].getD c [])[idx.getD c 0]? = some (m.get (c :: idx.eraseIdx d)) := by
  let s := [x, y, z].map List.length
  let d := s.idxOf 1
  have hd : d < s.length := List.idxOf_lt_length_iff.2 h
  have hd1 : s[d]? = some 1 := by rw [List.getElem?_eq_getElem hd, List.getElem_idxOf]
  have her : s.erase 1 = s.eraseIdx d := List.erase_eq_eraseIdx_of_idxOf rfl
  have hm : meaningful [x, y, z].length s = .ok (s.eraseIdx d) := by
    show meaningful 3 s = _
    have h2 : (s.eraseIdx d).length = 2 := by rw [List.length_eraseIdx, if_pos hd]; rfl
    rw [meaningful, if_pos (by simp [s]), if_pos h, her, meaningful, if_neg (by omega)]
  have hp : prod s = prod (s.eraseIdx d) := by
    have : ∀ (s : List Nat) (d : Nat), s[d]? = some 1 → prod s = prod (s.eraseIdx d) := by
      intro s
      induction s with
      | nil => intro d h; simp at h
      | cons a s ih =>
        intro d h
        cases d with
        | zero =>
          have : a = 1 := by simpa using h
          subst this
          show 1 * prod s = prod s
          omega
        | succ d =>
          show a * prod s = a * prod (s.eraseIdx d)
          rw [ih d (by simpa using h)]
    exact this s d hd1
  have hl := MG.rows_pts [x, y, z]
  have hl' : ((Seed.gridRows [x, y, z]).flatten).length = 3 * prod (s.eraseIdx d) := by rw [hl, ← hp]; rfl
  refine ⟨_, d, by simp only [asMesh, s] at hm hl' ⊢; rw [hm]; simp only [hl', if_true]; rfl, hd1, rfl, ?_⟩
  intro idx hidx c hc
  have hin : Spec.SeedGrid.Within s idx := (MG.within_iff s idx).2 hidx
  have hlen : idx.length = 3 := by rw [← hidx.length_eq]; rfl
  obtain ⟨e1, e2, e3⟩ := flat_erase s idx d hin hd1
  have hrows : ∀ r ∈ Seed.gridRows [x, y, z], r.length = prod s := by
    have := (C51_get_points_iter_points [x, y, z]).2.1
    have e : Seed.nrPoints [x, y, z] = prod s := by unfold Seed.nrPoints; rw [Seed.nprod_eq]; rfl
    rw [e] at this
    exact this
  have hlt : ravel s idx < prod s := Hdf5.ravel_lt _ _ hidx.flip
  have hcol := C51_c_order [x, y, z] idx hin
  have hg : ((Seed.gridRows [x, y, z]).flatten)[c * prod s + ravel s idx]? = ([x, y, z].getD c [])[idx.getD c 0]? := by
    rw [MG.flatten_get _ _ _ _ hrows hlt]
    have := congrArg (fun l => l[c]?) hcol
    simp only [Spec.SeedGrid.column, List.getElem?_map, MG.pick_get [x, y, z] idx hlen c hc] at this
    rw [show Spec.SeedGrid.flat ([x, y, z].map List.length) idx = ravel s idx from MG.flat_ravel s idx] at this
    cases hr : (Seed.gridRows [x, y, z])[c]? with
    | none => rw [hr] at this; cases this
    | some r => rw [hr] at this; exact Option.some.inj this
  have hpos : ravel (3 :: s.eraseIdx d) (c :: idx.eraseIdx d) = c * prod s + ravel s idx := by
    rw [ravel, ← hp, ← MG.flat_ravel (s.eraseIdx d), ← e1, MG.flat_ravel]
  show _ = some (((Seed.gridRows [x, y, z]).flatten).getD (ravel (3 :: s.eraseIdx d) (c :: idx.eraseIdx d)) default)
  rw [hpos, List.getD_eq_getElem?_getD (l := (Seed.gridRows [x, y, z]).flatten), hg]
  obtain ⟨i, hi1, hi2⟩ := MG.within_get hidx c ([x, y, z].getD c []).length (by
    rcases c with _ | _ | _ | c <;> first | rfl | omega)
  have : idx.getD c 0 = i := by simp [hi1]
  rw [this, List.getElem?_eq_getElem hi2]
  rfl

/-- C232: three axes with more than one point each are a ValueError -/
theorem C232_thick {α : Type} [Inhabited α] (x y z : List α) (h : 1 ∉ [x, y, z].map List.length) : asMesh [x, y, z] = .error .valueError := by
  have : meaningful [x, y, z].length ([x, y, z].map List.length) = .error .valueError := by
    show meaningful 3 _ = _
    rw [meaningful, if_pos (by simp), if_neg h]
  simp only [asMesh, this]

/-- C232, false of the code: coordinates with two axes, with any points, are a ValueError: there are no three rows -/
theorem C232_two_violated {α : Type} [Inhabited α] (x y : List α) (hx : x ≠ []) (hy : y ≠ []) : asMesh [x, y] = .error .valueError := by
  have hm : meaningful [x, y].length ([x, y].map List.length) = .ok ([x, y].map List.length) := by
    show meaningful 2 _ = _
    rw [meaningful, if_neg (by simp)]
  have hl := MG.rows_pts [x, y]
  have hp : 0 < prod ([x, y].map List.length) := by
    show 0 < x.length * (y.length * 1)
    rw [Nat.mul_one]
    exact Nat.mul_pos (List.length_pos_iff.2 hx) (List.length_pos_iff.2 hy)
  have hne : ¬ ((Seed.gridRows [x, y]).flatten).length = 3 * prod ([x, y].map List.length) := by
    rw [hl]; show ¬ 2 * _ = _; omega
  simp only [asMesh, hm, hne, if_false]

/-- C232, false of the code: so are coordinates with four axes, two of them with one point -/
theorem C232_four_violated {α : Type} [Inhabited α] (x y : List α) (a b : α) (hx : x ≠ []) (hy : y ≠ []) : asMesh [x, y, [a], [b]] = .error .valueError := by
  cases hm : meaningful [x, y, [a], [b]].length ([x, y, [a], [b]].map List.length) with
  | error e =>
    simp only [asMesh, hm]
    have : ∀ fuel s e, meaningful fuel s = .error e → e = .valueError := by
      intro fuel
      induction fuel with
      | zero => intro s e h; cases h
      | succ fuel ih =>
        intro s e h
        rw [meaningful] at h
        split at h
        · split at h
          · exact ih _ _ h
          · exact (Except.error.inj h).symm
        · cases h
    rw [this _ _ _ hm]
  | ok s =>
    have hl := MG.rows_pts [x, y, [a], [b]]
    have hprod : ∀ fuel s s', meaningful fuel s = .ok s' → prod s' = prod s := by
      intro fuel
      induction fuel with
      | zero => intro s s' h; cases h; rfl
      | succ fuel ih =>
        intro s s' h
        rw [meaningful] at h
        split at h
        · split at h
          · rename_i h1
            rw [ih _ _ h]
            have hperm := (List.perm_cons_erase h1)
            have hp : prod s = prod (1 :: s.erase 1) := by
              have : LeftCommutative (fun a b : Nat => a * b) := ⟨fun a b c => Nat.mul_left_comm a b c⟩
              exact List.Perm.foldr_eq (f := fun a b : Nat => a * b) hperm 1
            rw [hp]
            show _ = 1 * _
            rw [Nat.one_mul]; rfl
          · cases h
        · cases h; rfl
    have hs := hprod _ _ _ hm
    have hp : 0 < prod ([x, y, [a], [b]].map List.length) := by
      show 0 < x.length * (y.length * 1)
      rw [Nat.mul_one]
      exact Nat.mul_pos (List.length_pos_iff.2 hx) (List.length_pos_iff.2 hy)
    have hne : ¬ ((Seed.gridRows [x, y, [a], [b]]).flatten).length = 3 * prod s := by
      rw [hl, hs]; show ¬ 4 * _ = _; omega
    simp only [asMesh, hm, hne, if_false]

example := C232_three_partial [10, 20, 30] [7] [1, 2] (by decide)
example : (asMesh [[10, 20, 30], [7], [1, 2]]).toOption.map (fun m => (m.shape, m.get [0, 1, 0], m.get [1, 1, 0], m.get [2, 1, 1])) = some ([3, 3, 2], 20, 7, 2) := by decide
example := C232_two_violated [10, 20, 30] [1, 2] (by decide) (by decide)


end Viscid.Props
