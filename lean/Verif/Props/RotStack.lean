import Verif.Model.RotStack
import Verif.Spec.RotStack
import Verif.Props.Rotation
import Mathlib.Data.List.Forall2
/-! # C201: stacks of rotations are handled entry by entry -/
namespace Viscid.Props
open Viscid.Rotation (M3 V3 Quat qmul)
open Viscid.RotStack
open Viscid.Spec.RotStack

namespace RSt

/-- `Entry` of the list -/
def Has (l : List α) (k : Nat) (x : α) : Prop := l = [x] ∨ (1 < l.length ∧ l[k]? = some x)

theorem entry_has (s : Stk α) (k : Nat) (x : α) : Entry s k x → Has s.list k x := by
  intro h
  cases h with
  | one => left; rfl
  | only => left; rfl
  | many l k x h1 h2 => right; exact ⟨h1, h2⟩

theorem has_entry (s : Stk α) (k : Nat) (x : α) (h : Has s.list k x) : Entry s k x := by
  cases s with
  | one y =>
    rcases h with h | h
    · simp only [Stk.list, List.cons.injEq, and_true] at h; subst h; exact .one _ _
    · simp [Stk.list] at h
  | many l =>
    rcases h with h | h
    · simp only [Stk.list] at h; subst h; exact .only _ _
    · exact .many _ _ _ h.1 h.2

def FitsL (n : Nat) (l : List α) : Prop := l.length = 1 ∨ l.length = n

theorem fits_list (n : Nat) (s : Stk α) (h : Fits n s) : FitsL n s.list := by
  rcases h with ⟨x, rfl⟩ | ⟨l, rfl, h⟩ | ⟨l, rfl, h⟩
  · left; rfl
  · left; exact h
  · right; exact h

theorem bcast_right (g : α → β → γ) (a : List α) (z : β) (hne : ∀ w, a ≠ [w]) :
    (match (generalizing := false) a, [z] with
      | [x], b => .ok (b.map (g x))
      | a, [y] => .ok (a.map fun x => g x y)
      | _, _ => .error .value) = Except.ok (ε := Err) (a.map fun x => g x z) := by
  match a, hne with
  | [], _ => rfl
  | [w], hne => exact absurd rfl (hne w)
  | x :: y :: l, _ => rfl

theorem bcast_spec (g : α → β → γ) (n : Nat) (a : List α) (b : List β) (ha : FitsL n a) (hb : FitsL n b) :
    ∃ c, bcast g a b = .ok c ∧ (a.length = n ∨ b.length = n → c.length = n) ∧ (a.length = 1 → b.length = 1 → c.length = 1) ∧
      ∀ k < n, ∀ x y, Has a k x → Has b k y → Has c k (g x y) := by
  unfold bcast
  by_cases h : a.length = b.length
  · rw [if_pos h]
    refine ⟨_, rfl, ?_, ?_, ?_⟩
    · intro; simp; omega
    · intro; simp; omega
    · intro k hk x y hx hy
      rcases hx with rfl | ⟨h1, h2⟩
      · rcases hy with rfl | ⟨h3, h4⟩
        · left; rfl
        · simp at h; omega
      · rcases hy with rfl | ⟨h3, h4⟩
        · simp at h; omega
        · right
          refine ⟨by simp; omega, ?_⟩
          rw [List.getElem?_zipWith, h2, h4]
  · rw [if_neg h]
    rcases ha with ha | ha
    · obtain ⟨z, rfl⟩ := List.length_eq_one_iff.1 ha
      refine ⟨b.map (g z), rfl, ?_, ?_, ?_⟩
      · intro h'
        rcases h' with h' | h'
        · rcases hb with hb | hb
          · simp at h; omega
          · simp [hb]
        · simp [h']
      · intro _ h1; simp [h1]
      · intro k hk x y hx hy
        rcases hx with hx | hx
        · simp only [List.cons.injEq, and_true] at hx; subst hx
          rcases hy with rfl | ⟨h3, h4⟩
          · left; rfl
          · right; refine ⟨by simpa using h3, by rw [List.getElem?_map, h4]; rfl⟩
        · simp at hx
    · rcases hb with hb | hb
      · obtain ⟨z, rfl⟩ := List.length_eq_one_iff.1 hb
        have hne : ∀ w, a ≠ [w] := by rintro w rfl; simp at h
        have e := bcast_right g a z hne
        refine ⟨a.map fun x => g x z, e, ?_, ?_, ?_⟩
        · intro _; simp [ha]
        · intro h1; simp [h1]
        · intro k hk x y hx hy
          rcases hy with hy | hy
          · simp only [List.cons.injEq, and_true] at hy; subst hy
            rcases hx with rfl | ⟨h3, h4⟩
            · exact absurd rfl (hne x)
            · right; refine ⟨by simpa using h3, by rw [List.getElem?_map, h4]; rfl⟩
          · simp at hy
      · omega

theorem bcast_len (g : α → β → γ) (a : List α) (b : List β) (c : List γ) (h : bcast g a b = .ok c) :
    (1 < a.length → c.length = a.length) ∧ (1 < b.length → c.length = b.length) := by
  unfold bcast at h
  split at h
  · cases h; simp; omega
  · split at h
    · cases h; simp
    · cases h; simp
    · cases h

/-- a product of stacks -/
theorem fold_spec (g : α → α → α) (n : Nat) (hn : 0 < n) (st : List α → Stk α → Except Err (List α))
    (hst : ∀ a s, FitsL n a → Fits n s → st a s = bcast g a s.list) : ∀ (ss : List (Stk α)) (a : List α), FitsL n a → (∀ s ∈ ss, Fits n s) →
    ∃ c, ss.foldlM st a = .ok c ∧ FitsL n c ∧ (a.length = n → c.length = n) ∧ ((∃ s ∈ ss, Size n s) → c.length = n) ∧
      (a.length = 1 → (∀ s ∈ ss, IsOne s ∨ Size 1 s) → c.length = 1) ∧
      ∀ k < n, ∀ x ms, Has a k x → List.Forall₂ (fun s m => Entry s k m) ss ms → Has c k (ms.foldl g x)
  | [], a, ha, _ => ⟨a, rfl, ha, id, by simp, fun h _ => h, fun k hk x ms hx hf => by cases hf; exact hx⟩
  | s :: ss, a, ha, hs => by
    obtain ⟨c, h1, h2, h3, h4⟩ := bcast_spec g n a s.list ha (fits_list n s (hs s (by simp)))
    have hc : FitsL n c := by
      rcases ha with ha | ha
      · rcases fits_list n s (hs s (by simp)) with h | h
        · exact Or.inl (h3 ha h)
        · exact Or.inr (h2 (Or.inr h))
      · exact Or.inr (h2 (Or.inl ha))
    obtain ⟨d, g1, g2, g3, g4, g5, g6⟩ := fold_spec g n hn st hst ss c hc fun s hs' => hs s (by simp [hs'])
    refine ⟨d, ?_, g2, ?_, ?_, ?_, ?_⟩
    · rw [List.foldlM_cons, hst a s ha (hs s (by simp)), h1]; exact g1
    · intro h; exact g3 (h2 (Or.inl h))
    · rintro ⟨t, ht, hsz⟩
      rw [List.mem_cons] at ht
      rcases ht with rfl | ht
      · obtain ⟨l, rfl, hl⟩ := hsz; exact g3 (h2 (Or.inr hl))
      · exact g4 ⟨t, ht, hsz⟩
    · intro h5 h6
      refine g5 (h3 h5 ?_) fun s hs' => h6 s (by simp [hs'])
      rcases h6 s (by simp) with ⟨x, rfl⟩ | ⟨l, rfl, hl⟩
      · rfl
      · exact hl
    · intro k hk x ms hx hf
      cases hf with
      | cons hm hf => rw [List.foldl_cons]; exact g6 k hk _ _ (h4 k hk _ _ hx (entry_has _ _ _ hm)) hf

theorem fold_refused (g : α → α → α) (st : List α → Stk α → Except Err (List α))
    (hst : ∀ a s c, st a s = .ok c → (1 < a.length → c.length = a.length) ∧ (1 < s.list.length → c.length = s.list.length)) :
    ∀ (ss : List (Stk α)) (a c : List α), ss.foldlM st a = .ok c → (1 < a.length → c.length = a.length) ∧
      ∀ s ∈ ss, ∀ m, 1 < m → Size m s → c.length = m
  | [], a, c, h => by cases h; simp
  | s :: ss, a, c, h => by
    rw [List.foldlM_cons] at h
    cases hb : st a s with
    | error e => rw [hb] at h; cases h
    | ok b =>
      rw [hb] at h
      obtain ⟨h1, h2⟩ := fold_refused g st hst ss b c h
      obtain ⟨h3, h4⟩ := hst a s b hb
      refine ⟨fun h5 => ?_, ?_⟩
      · rw [h1 (by rw [h3 h5]; exact h5), h3 h5]
      · intro t ht m hm hsz
        rw [List.mem_cons] at ht
        rcases ht with rfl | ht
        · obtain ⟨l, rfl, rfl⟩ := hsz
          have := h4 hm
          rw [h1 (by rw [this]; exact hm), this]; rfl
        · exact h2 t ht m hm hsz

theorem close_ok (b : Bool) (l : List α) (h : l ≠ []) : ∃ r, close b l = .ok r ∧ (b = true → ∃ x, l.head? = some x ∧ r = .one x) ∧ (b = false → r = .many l) := by
  cases l with
  | nil => simp at h
  | cons x l => cases b <;> simp [close]

/-- what is given out -/
theorem close_spec (b : Bool) (n : Nat) (l : List α) (hl : FitsL n l) (hb : b = true → l.length = 1) :
    ∃ r, close b l = .ok r ∧ (IsOne r ↔ b = true) ∧ Fits n r ∧ (b = false → ∀ m, l.length = m → Size m r) ∧
      ∀ k x, Has l k x → Entry r k x := by
  cases b with
  | true =>
    obtain ⟨z, rfl⟩ := List.length_eq_one_iff.1 (hb rfl)
    refine ⟨.one z, rfl, ⟨fun _ => rfl, fun _ => ⟨z, rfl⟩⟩, Or.inl ⟨z, rfl⟩, by simp, ?_⟩
    intro k x hx
    rcases hx with hx | hx
    · simp only [List.cons.injEq, and_true] at hx; subst hx; exact .one _ _
    · simp at hx
  | false =>
    refine ⟨.many l, rfl, ⟨(by rintro ⟨x, hx⟩; cases hx), (by simp)⟩, ?_, fun _ m hm => ⟨l, rfl, hm⟩, ?_⟩
    · rcases hl with h | h
      · exact Or.inr (Or.inl ⟨l, rfl, h⟩)
      · exact Or.inr (Or.inr ⟨l, rfl, h⟩)
    · intro k x hx
      exact has_entry (.many l) k x hx

theorem all_single (ss : List (Stk α)) : ss.all Stk.single = true ↔ ∀ s ∈ ss, IsOne s := by
  rw [List.all_eq_true]
  constructor
  · intro h s hs; have := h s hs; cases s with | one x => exact ⟨x, rfl⟩ | many l => simp [Stk.single] at this
  · intro h s hs; obtain ⟨x, rfl⟩ := h s hs; rfl

theorem single_iff (s : Stk α) : s.single = true ↔ IsOne s := by
  cases s with
  | one x => exact ⟨fun _ => ⟨x, rfl⟩, fun _ => rfl⟩
  | many l => exact ⟨fun h => by simp [Stk.single] at h, fun ⟨x, h⟩ => by cases h⟩

theorem foldl_mul (ms : List M3) (x : M3) : ms.foldl (fun a b => a * b) x = x * ms.prod := by
  induction ms generalizing x with
  | nil => simp
  | cons m ms ih => rw [List.foldl_cons, ih, List.prod_cons, Matrix.mul_assoc]

end RSt

/-- C201: the product of matrices and stacks of `n` matrices: its entry `k` is the product of entries `k`, in their order; it is one
matrix exactly if all are -/
theorem C201_rotmul (rs : List (Stk M3)) (n : Nat) (hn : 0 < n) (h : ∀ s ∈ rs, Fits n s) :
    ∃ r, rotmul rs = .ok r ∧ (IsOne r ↔ ∀ s ∈ rs, IsOne s) ∧ Fits n r ∧ ((∃ s ∈ rs, Size n s) → Size n r) ∧
      ∀ k < n, ∀ ms, List.Forall₂ (fun s m => Entry s k m) rs ms → Entry r k ms.prod := by
  obtain ⟨c, h1, h2, _, h4, h5, h6⟩ := RSt.fold_spec (fun a b : M3 => a * b) n hn _ (fun _ _ _ _ => rfl) rs [1] (Or.inl rfl) h
  obtain ⟨r, g1, g2, g3, g4, g5⟩ := RSt.close_spec (rs.all Stk.single) n c h2 fun hb =>
    h5 rfl fun s hs => Or.inl ((RSt.all_single rs).1 hb s hs)
  refine ⟨r, ?_, by rw [g2, RSt.all_single], g3, ?_, ?_⟩
  · unfold rotmul; rw [h1]; exact g1
  · rintro ⟨s, hs, hsz⟩
    refine g4 ?_ n (h4 ⟨s, hs, hsz⟩)
    rw [Bool.eq_false_iff, Ne, RSt.all_single]
    intro hall
    obtain ⟨x, rfl⟩ := hall s hs
    obtain ⟨l, hl, _⟩ := hsz
    cases hl
  · intro k hk ms hf
    have := g5 k _ (h6 k hk 1 ms (Or.inl rfl) hf)
    rwa [RSt.foldl_mul, Matrix.one_mul] at this

/-- C201: the same for quaternions -/
theorem C201_quatmul (qs : List (Stk Quat)) (n : Nat) (hn : 0 < n) (h : ∀ s ∈ qs, Fits n s) :
    ∃ r, RotStack.quatmul qs = .ok r ∧ (IsOne r ↔ ∀ s ∈ qs, IsOne s) ∧ Fits n r ∧ ((∃ s ∈ qs, Size n s) → Size n r) ∧
      ∀ k < n, ∀ ms, List.Forall₂ (fun s m => Entry s k m) qs ms → ∃ q, Entry r k q ∧ Spec.Rotation.toH q = (ms.map Spec.Rotation.toH).prod := by
  have hst : ∀ a s, RSt.FitsL n a → Fits n s → quatStep a s = bcast qmul a s.list := by
    intro a s ha hs
    obtain ⟨c, h1, h2, h3, _⟩ := RSt.bcast_spec qmul n a s.list ha (RSt.fits_list n s hs)
    unfold quatStep
    rw [h1]
    have hs' := RSt.fits_list n s hs
    have : c.length = if s.list.length > a.length then s.list.length else a.length := by
      rcases ha with ha | ha <;> rcases hs' with hs' | hs'
      · rw [h3 ha hs']; split <;> omega
      · rw [h2 (Or.inr hs')]; split <;> omega
      · rw [h2 (Or.inl ha)]; split <;> omega
      · rw [h2 (Or.inl ha)]; split <;> omega
    simp only [bind, Except.bind]
    rw [if_pos this]
  obtain ⟨c, h1, h2, _, h4, h5, h6⟩ := RSt.fold_spec qmul n hn quatStep hst qs [⟨1, 0, 0, 0⟩] (Or.inl rfl) h
  obtain ⟨r, g1, g2, g3, g4, g5⟩ := RSt.close_spec (qs.all Stk.single) n c h2 fun hb =>
    h5 rfl fun s hs => Or.inl ((RSt.all_single qs).1 hb s hs)
  refine ⟨r, ?_, by rw [g2, RSt.all_single], g3, ?_, ?_⟩
  · unfold RotStack.quatmul; rw [h1]; exact g1
  · rintro ⟨s, hs, hsz⟩
    refine g4 ?_ n (h4 ⟨s, hs, hsz⟩)
    rw [Bool.eq_false_iff, Ne, RSt.all_single]
    intro hall
    obtain ⟨x, rfl⟩ := hall s hs
    obtain ⟨l, hl, _⟩ := hsz
    cases hl
  · intro k hk ms hf
    exact ⟨_, g5 k _ (h6 k hk _ ms (Or.inl rfl) hf), C43_quatmul ms⟩

/-- C201: stacks of different sizes are refused -/
theorem C201_refused (rs : List (Stk M3)) (qs : List (Stk Quat)) (m n : Nat) (hm : 1 < m) (hn : 1 < n) (hne : m ≠ n) :
    ((∃ s ∈ rs, Size m s) → (∃ s ∈ rs, Size n s) → rotmul rs = .error .value) ∧
    ((∃ s ∈ qs, Size m s) → (∃ s ∈ qs, Size n s) → RotStack.quatmul qs = .error .value) := by
  constructor
  · rintro ⟨s, hs, hsz⟩ ⟨t, ht, htz⟩
    unfold rotmul
    cases hf : rs.foldlM (fun acc r => bcast (fun a b : M3 => a * b) acc r.list) [(1 : M3)] with
    | error e => cases e; rfl
    | ok c =>
      have := (RSt.fold_refused (fun a b : M3 => a * b) _ (fun a s c h => RSt.bcast_len _ a s.list c h) rs [(1 : M3)] c hf).2
      have h1 := this s hs m hm hsz
      have h2 := this t ht n hn htz
      omega
  · rintro ⟨s, hs, hsz⟩ ⟨t, ht, htz⟩
    unfold RotStack.quatmul
    cases hf : qs.foldlM quatStep [⟨1, 0, 0, 0⟩] with
    | error e => cases e; rfl
    | ok c =>
      have hst : ∀ a (s : Stk Quat) c, quatStep a s = .ok c → (1 < a.length → c.length = a.length) ∧ (1 < s.list.length → c.length = s.list.length) := by
        intro a s c h
        unfold quatStep at h
        cases hb : bcast qmul a s.list with
        | error e => rw [hb] at h; cases h
        | ok p =>
          rw [hb] at h
          obtain ⟨h1, h2⟩ := RSt.bcast_len _ a s.list p hb
          simp only [bind, Except.bind] at h
          by_cases hp : p.length = if s.list.length > a.length then s.list.length else a.length
          · rw [if_pos hp] at h; cases h; exact ⟨h1, h2⟩
          · rw [if_neg hp] at h
            split at h
            · rename_i x
              cases h
              constructor
              · intro h3; have := h1 h3; simp at this; omega
              · intro h3; have := h2 h3; simp at this; omega
            · cases h
      have := (RSt.fold_refused qmul _ hst qs [⟨1, 0, 0, 0⟩] c hf).2
      have h1 := this s hs m hm hsz
      have h2 := this t ht n hn htz
      omega

/-- C201: vectors are turned entry by entry, by the product of the matrices -/
theorem C201_rotate (v : Stk V3) (rs : List (Stk M3)) (n : Nat) (hn : 0 < n) (hv : Fits n v) (h : ∀ s ∈ rs, Fits n s) :
    ∃ r, rotate v rs = .ok r ∧ (IsOne r ↔ IsOne v ∧ ∀ s ∈ rs, IsOne s) ∧ (Size n v ∨ (∃ s ∈ rs, Size n s) → Size n r) ∧
      ∀ k < n, ∀ x ms, Entry v k x → List.Forall₂ (fun s m => Entry s k m) rs ms → Entry r k (ms.prod.mulVec x) := by
  obtain ⟨R, h1, h2, h3, h4, h5⟩ := C201_rotmul rs n hn h
  obtain ⟨c, g1, g2, g3, g4⟩ := RSt.bcast_spec (fun (a : M3) (x : V3) => a.mulVec x) n R.list v.list (RSt.fits_list n R h3) (RSt.fits_list n v hv)
  have hc : RSt.FitsL n c := by
    rcases RSt.fits_list n R h3 with ha | ha
    · rcases RSt.fits_list n v hv with hb | hb
      · exact Or.inl (g3 ha hb)
      · exact Or.inr (g2 (Or.inr hb))
    · exact Or.inr (g2 (Or.inl ha))
  obtain ⟨r, f1, f2, f3, f4, f5⟩ := RSt.close_spec (v.single && R.single) n c hc (by
    intro hb
    rw [Bool.and_eq_true, RSt.single_iff, RSt.single_iff] at hb
    obtain ⟨⟨x, rfl⟩, ⟨y, rfl⟩⟩ := hb
    exact g3 rfl rfl)
  refine ⟨r, ?_, ?_, ?_, ?_⟩
  · unfold rotate; rw [h1]; simp only [bind, Except.bind]; rw [g1]; exact f1
  · rw [f2, Bool.and_eq_true, RSt.single_iff, RSt.single_iff, h2]
  · intro hsz
    have hb : (v.single && R.single) = false := by
      rw [Bool.eq_false_iff, Ne, Bool.and_eq_true, RSt.single_iff, RSt.single_iff]
      rintro ⟨⟨x, rfl⟩, ⟨y, rfl⟩⟩
      rcases hsz with ⟨l, hl, _⟩ | hsz
      · cases hl
      · obtain ⟨l, hl, _⟩ := h4 hsz; cases hl
    refine f4 hb n (g2 ?_)
    rcases hsz with ⟨l, rfl, hl⟩ | hsz
    · exact Or.inr hl
    · obtain ⟨l, rfl, hl⟩ := h4 hsz; exact Or.inl hl
  · intro k hk x ms hx hf
    exact f5 k _ (g4 k hk _ _ (RSt.entry_has _ _ _ (h5 k hk ms hf)) (RSt.entry_has _ _ _ hx))

namespace RSt

theorem assign_spec (n : Nat) (hn : 0 < n) (l : List α) (h : FitsL n l) : ∃ c, assign n l = .ok c ∧ c.length = n ∧ ∀ k < n, ∀ x, Has l k x → Has c k x := by
  unfold assign
  by_cases hl : l.length = n
  · rw [if_pos hl]; exact ⟨l, rfl, hl, fun k _ x h => h⟩
  · rw [if_neg hl]
    rcases h with h | h
    · obtain ⟨z, rfl⟩ := List.length_eq_one_iff.1 h
      refine ⟨List.replicate n z, rfl, by simp, ?_⟩
      intro k hk x hx
      rcases hx with hx | hx
      · simp only [List.cons.injEq, and_true] at hx; subst hx
        right
        refine ⟨?_, by simp [hk]⟩
        simp at hl ⊢; omega
      · simp at hx
    · exact absurd h hl

end RSt

/-- C201: angles and axes: entry `k` is the rotation by angle `k` around axis `k` (nan for an axis 0) -/
theorem C201_wxyz2rot (θ : Stk ℝ) (v : Stk V3) (n : Nat) (hn : 0 < n) (hθ : Fits n θ) (hv : Fits n v) :
    ∃ r, RotStack.wxyz2rot θ v = .ok r ∧ (IsOne r ↔ IsOne θ ∧ IsOne v) ∧ (Size n θ ∨ Size n v → Size n r) ∧
      ∀ k < n, ∀ t x, Entry θ k t → Entry v k x → Entry r k (Rotation.wxyz2rot t x) := by
  have fθ := RSt.fits_list n θ hθ
  have fv := RSt.fits_list n v hv
  have hfit : RSt.FitsL (max θ.list.length v.list.length) v.list ∧ RSt.FitsL (max θ.list.length v.list.length) θ.list ∧
      0 < max θ.list.length v.list.length := by
    unfold RSt.FitsL at *; omega
  obtain ⟨ks, h1, h2, h3⟩ := RSt.assign_spec _ hfit.2.2 v.list hfit.1
  obtain ⟨c, g1, g2, g3, g4⟩ := RSt.bcast_spec (fun t k => Rotation.wxyz2rot t k) (max θ.list.length v.list.length) θ.list ks hfit.2.1 (Or.inr h2)
  have hc := g2 (Or.inr h2)
  obtain ⟨r, f1, f2, f3, f4, f5⟩ := RSt.close_spec (θ.single && v.single) (max θ.list.length v.list.length) c (Or.inr hc) (by
    intro hb
    rw [Bool.and_eq_true, RSt.single_iff, RSt.single_iff] at hb
    obtain ⟨⟨x, rfl⟩, ⟨y, rfl⟩⟩ := hb
    exact hc)
  refine ⟨r, ?_, by rw [f2, Bool.and_eq_true, RSt.single_iff, RSt.single_iff], ?_, ?_⟩
  · unfold RotStack.wxyz2rot; simp only [bind, Except.bind]; rw [h1]; simp only; rw [g1]; exact f1
  · intro hsz
    refine f4 ?_ n ?_
    · rw [Bool.eq_false_iff, Ne, Bool.and_eq_true, RSt.single_iff, RSt.single_iff]
      rintro ⟨⟨x, rfl⟩, ⟨y, rfl⟩⟩
      rcases hsz with ⟨l, hl, _⟩ | ⟨l, hl, _⟩ <;> cases hl
    · rw [hc]
      unfold RSt.FitsL at *
      rcases hsz with ⟨l, rfl, hl⟩ | ⟨l, rfl, hl⟩ <;> simp only [Stk.list] at * <;> omega
  · intro k hk t x ht hx
    by_cases hk' : k < max θ.list.length v.list.length
    · exact f5 k _ (g4 k hk' _ _ (RSt.entry_has _ _ _ ht) (h3 k hk' _ (RSt.entry_has _ _ _ hx)))
    · have h1θ : θ.list.length = 1 := by unfold RSt.FitsL at *; omega
      have h1v : v.list.length = 1 := by unfold RSt.FitsL at *; omega
      have e0 : (0 : Nat) < max θ.list.length v.list.length := hfit.2.2
      have sh : ∀ {β : Type} (s : Stk β) (x : β), s.list.length = 1 → Entry s k x → ∀ j, Entry s j x := by
        intro β s x hs he j
        cases he with
        | one => exact .one _ _
        | only => exact .only _ _
        | many l k x h1 h2 => simp only [Stk.list] at hs; omega
      have key := f5 0 _ (g4 0 e0 _ _ (RSt.entry_has _ _ _ (sh θ t h1θ ht 0)) (h3 0 e0 _ (RSt.entry_has _ _ _ (sh v x h1v hx 0))))
      have hr : r.list.length = 1 := by
        cases hb : (θ.single && v.single) with
        | true => obtain ⟨x, rfl⟩ := f2.2 hb; rfl
        | false => obtain ⟨l, rfl, hl⟩ := f4 hb _ hc; simp only [Stk.list]; omega
      cases key with
      | one => exact .one _ _
      | only => exact .only _ _
      | many l _ x h1 h2 => simp only [Stk.list] at hr; omega

/-- C201: the same for quaternions, for as many angles as axes, or one axis -/
theorem C201_wxyz2quat_partial (θ : Stk ℝ) (v : Stk V3) (n : Nat) (hn : 0 < n) (hθ : n = 1 ∧ IsOne θ ∨ Size n θ) (hv : Fits n v) :
    ∃ r, RotStack.wxyz2quat θ v = .ok r ∧ (IsOne r ↔ IsOne θ ∧ IsOne v) ∧ (Size n θ ∨ Size n v → Size n r) ∧
      ∀ k < n, ∀ t x, Entry θ k t → Entry v k x → Entry r k (Rotation.wxyz2quat t x) := by
  have fθ : θ.list.length = n := by
    rcases hθ with ⟨rfl, x, rfl⟩ | ⟨l, rfl, h⟩
    · rfl
    · exact h
  obtain ⟨c, g1, g2, g3, g4⟩ := RSt.bcast_spec (fun t k => Rotation.wxyz2quat t k) n θ.list v.list (Or.inr fθ) (RSt.fits_list n v hv)
  have hc := g2 (Or.inl fθ)
  obtain ⟨r, f1, f2, f3, f4, f5⟩ := RSt.close_spec (θ.single && v.single) n c (Or.inr hc) (by
    intro hb
    rw [Bool.and_eq_true, RSt.single_iff, RSt.single_iff] at hb
    obtain ⟨⟨x, rfl⟩, ⟨y, rfl⟩⟩ := hb
    exact g3 rfl rfl)
  refine ⟨r, ?_, by rw [f2, Bool.and_eq_true, RSt.single_iff, RSt.single_iff], ?_, ?_⟩
  · unfold RotStack.wxyz2quat; rw [g1]; simp only [bind, Except.bind]
    unfold assign
    rw [if_pos (by rw [hc, fθ])]; exact f1
  · intro hsz
    refine f4 ?_ n hc
    rw [Bool.eq_false_iff, Ne, Bool.and_eq_true, RSt.single_iff, RSt.single_iff]
    rintro ⟨⟨x, rfl⟩, ⟨y, rfl⟩⟩
    rcases hsz with ⟨l, hl, _⟩ | ⟨l, hl, _⟩ <;> cases hl
  · intro k hk t x ht hx
    exact f5 k _ (g4 k hk _ _ (RSt.entry_has _ _ _ ht) (RSt.entry_has _ _ _ hx))

/-- C201 is violated: one angle for several axes is a ValueError for quaternions -/
theorem C201_wxyz2quat_violated (t : ℝ) (vs : List V3) (h : 1 < vs.length) : RotStack.wxyz2quat (.one t) (.many vs) = .error .value := by
  unfold RotStack.wxyz2quat
  have : bcast (fun t k => Rotation.wxyz2quat t k) (Stk.one t).list (Stk.many vs).list = .ok (vs.map (Rotation.wxyz2quat t)) := by
    unfold bcast
    rw [if_neg (by simp [Stk.list]; omega)]
    rfl
  rw [this]
  simp only [bind, Except.bind, assign, Stk.list, List.length_map, List.length_singleton]
  rw [if_neg (by omega)]
  match vs, h with
  | x :: y :: l, _ => rfl

/-- C201: axes and angles in one array -/
theorem C201_axang (l : List (V3 × ℝ)) (x : V3 × ℝ) :
    axang2rot (.one x) = .ok (.one (Rotation.wxyz2rot x.2 x.1)) ∧ axang2quat (.one x) = .ok (.one (Rotation.wxyz2quat x.2 x.1)) ∧
    axang2rot (.many l) = .ok (.many (l.map fun x => Rotation.wxyz2rot x.2 x.1)) ∧
    axang2quat (.many l) = .ok (.many (l.map fun x => Rotation.wxyz2quat x.2 x.1)) := by
  refine ⟨rfl, rfl, ?_, ?_⟩
  · simp [axang2rot, RotStack.wxyz2rot, assign, bcast, Stk.list, close, Stk.single, bind, Except.bind, List.zipWith_map, List.zipWith_self]
  · simp [axang2quat, RotStack.wxyz2quat, assign, bcast, Stk.list, close, Stk.single, bind, Except.bind, List.zipWith_map, List.zipWith_self]

/-- C201: axes and angles of a stack of quaternions with the same norm: those of each of them -/
theorem C201_quat2wxyz_partial (q : Stk Quat) (m : ℝ) (h : q.list ≠ []) (hm : ∀ p ∈ q.list, p.norm = m) :
    ∃ r, RotStack.quat2wxyz q = .ok r ∧ (IsOne r ↔ IsOne q) ∧ r.list = q.list.map Rotation.quat2wxyz := by
  unfold RotStack.quat2wxyz
  rw [List.getLast?_eq_some_getLast h]
  have e : q.list.map (wxyzOf (q.list.getLast h).norm) = q.list.map Rotation.quat2wxyz := by
    apply List.map_congr_left
    intro p hp
    rw [hm _ (List.getLast_mem h), ← hm p hp]
    rfl
  simp only [e]
  obtain ⟨r, h1, h2, h3⟩ := RSt.close_ok q.single (q.list.map Rotation.quat2wxyz) (by simpa using h)
  refine ⟨r, h1, ?_, ?_⟩
  · rw [← RSt.single_iff, ← RSt.single_iff]
    cases hq : q.single with
    | true => obtain ⟨x, _, rfl⟩ := h2 hq; simp [Stk.single]
    | false => rw [h3 hq]; simp [Stk.single]
  · cases q with
    | one x => obtain ⟨y, hy, rfl⟩ := h2 rfl; simp only [Stk.list, List.map_cons, List.map_nil, List.head?_cons, Option.some.injEq] at hy ⊢; rw [hy]
    | many l => rw [h3 rfl]; rfl

/-- C201 is violated: if the last quaternion is 0, all results are nan -/
theorem C201_last_zero_violated (l : List Quat) : RotStack.quat2wxyz (.many (l ++ [⟨0, 0, 0, 0⟩])) = .ok (.many ((l ++ [(⟨0, 0, 0, 0⟩ : Quat)]).map fun _ => none)) := by
  unfold RotStack.quat2wxyz
  simp only [Stk.list, List.getLast?_append, List.getLast?_singleton, Option.some_or, close, Stk.single]
  have hz : (⟨0, 0, 0, 0⟩ : Quat).norm = 0 := by simp [Quat.norm]
  have : wxyzOf (⟨0, 0, 0, 0⟩ : Quat).norm = fun _ => none := by
    funext q; unfold wxyzOf; rw [if_pos hz]
  rw [this]
  rfl

namespace RSt

theorem wxyz_near (m : ℝ) (q : Quat) (hm : m ≠ 0) (v : ℝ) (hv : Rotation.len ![(q.scale (1 / m)).x, (q.scale (1 / m)).y, (q.scale (1 / m)).z] = v)
    (h : Rotation.isClose v 0) : wxyzOf m q = some (2 * Rotation.arctan2 v (q.scale (1 / m)).w, ![0, 0, 1]) := by
  subst hv
  unfold wxyzOf
  rw [if_neg hm]
  simp only
  rw [if_pos h]

theorem wxyz_far (m : ℝ) (q : Quat) (hm : m ≠ 0) (v : ℝ) (hv : Rotation.len ![(q.scale (1 / m)).x, (q.scale (1 / m)).y, (q.scale (1 / m)).z] = v)
    (h : ¬ Rotation.isClose v 0) : wxyzOf m q = some (2 * Rotation.arctan2 v (q.scale (1 / m)).w,
      ![(q.scale (1 / m)).x / v, (q.scale (1 / m)).y / v, (q.scale (1 / m)).z / v]) := by
  subst hv
  unfold wxyzOf
  rw [if_neg hm]
  simp only
  rw [if_neg h]

end RSt

/-- C201 is violated: if the last quaternion is large, the axes of the others are lost: half a turn around x is one around z -/
theorem C201_last_large_violated : ∃ r, RotStack.quat2wxyz (.many [⟨0, 1, 0, 0⟩, ⟨10 ^ 9, 0, 0, 0⟩]) = .ok (.many [some (Real.pi, ![0, 0, 1]), r]) ∧
    RotStack.quat2wxyz (.many [⟨0, 1, 0, 0⟩]) = .ok (.many [some (Real.pi, ![1, 0, 0])]) := by
  have ha : ∀ r : ℝ, 0 < r → 2 * Rotation.arctan2 r 0 = Real.pi := by
    intro r hr
    unfold Rotation.arctan2
    have : (⟨0, r⟩ : ℂ) = (r : ℂ) * Complex.I := by apply Complex.ext <;> simp
    rw [this, Complex.arg_real_mul _ hr, Complex.arg_I]
    ring
  have hl : ∀ r : ℝ, 0 ≤ r → Rotation.len ![r, 0, 0] = r := by
    intro r hr
    unfold Rotation.len
    simp [Real.sqrt_sq hr]
  have hn1 : (⟨0, 1, 0, 0⟩ : Quat).norm = 1 := by simp [Quat.norm]
  have hn2 : (⟨10 ^ 9, 0, 0, 0⟩ : Quat).norm = 10 ^ 9 := by
    unfold Quat.norm
    simp only
    rw [show ((10 : ℝ) ^ 9) ^ 2 + 0 ^ 2 + 0 ^ 2 + 0 ^ 2 = (10 ^ 9) ^ 2 by ring]
    exact Real.sqrt_sq (by positivity)
  refine ⟨wxyzOf (10 ^ 9) ⟨10 ^ 9, 0, 0, 0⟩, ?_, ?_⟩
  · unfold RotStack.quat2wxyz
    simp only [Stk.list, List.getLast?_cons_cons, List.getLast?_singleton, close, Stk.single, List.map_cons, List.map_nil, hn2]
    have : wxyzOf (10 ^ 9) ⟨0, 1, 0, 0⟩ = some (Real.pi, ![0, 0, 1]) := by
      rw [RSt.wxyz_near _ _ (by positivity) (1 / 10 ^ 9) (by simp only [Quat.scale, zero_mul, one_mul]; exact hl _ (by positivity))
        (by unfold Rotation.isClose; rw [sub_zero, abs_of_pos (by positivity)]; norm_num)]
      simp only [Quat.scale, zero_mul]
      rw [ha _ (by positivity)]
    rw [this]
    rfl
  · unfold RotStack.quat2wxyz
    simp only [Stk.list, List.getLast?_singleton, close, Stk.single, List.map_cons, List.map_nil, hn1]
    have : wxyzOf 1 ⟨0, 1, 0, 0⟩ = some (Real.pi, ![1, 0, 0]) := by
      rw [RSt.wxyz_far _ _ one_ne_zero 1 (by simp only [Quat.scale, zero_mul, one_mul, div_one]; exact hl _ (by norm_num))
        (by unfold Rotation.isClose; norm_num)]
      simp only [Quat.scale, zero_mul, one_mul, div_one]
      rw [ha _ (by norm_num)]
    rw [this]
    rfl

/-! ### examples -/

example (a b c : M3) : ∃ r, rotmul [.one a, .many [b, c]] = .ok r ∧ Size 2 r ∧ Entry r 1 (a * c) := by
  obtain ⟨r, h1, _, _, h4, h5⟩ := C201_rotmul [.one a, .many [b, c]] 2 (by decide) (by
    intro s hs
    simp only [List.mem_cons, List.not_mem_nil, or_false] at hs
    rcases hs with rfl | rfl
    · exact Or.inl ⟨_, rfl⟩
    · exact Or.inr (Or.inr ⟨_, rfl, rfl⟩))
  refine ⟨r, h1, h4 ⟨.many [b, c], by simp, ⟨_, rfl, rfl⟩⟩, ?_⟩
  have := h5 1 (by decide) [a, c] (.cons (.one _ _) (.cons (.many _ _ _ (by simp) rfl) .nil))
  simpa using this

example (a b : Quat) : ∃ r, RotStack.quatmul [.many [a], .one b] = .ok r ∧ ¬ IsOne r := by
  obtain ⟨r, h1, h2, _⟩ := C201_quatmul [.many [a], .one b] 1 (by decide) (by
    intro s hs
    simp only [List.mem_cons, List.not_mem_nil, or_false] at hs
    rcases hs with rfl | rfl
    · exact Or.inr (Or.inl ⟨_, rfl, rfl⟩)
    · exact Or.inl ⟨_, rfl⟩)
  refine ⟨r, h1, fun h => ?_⟩
  obtain ⟨x, hx⟩ := h2.1 h (.many [a]) (by simp)
  cases hx

end Viscid.Props
