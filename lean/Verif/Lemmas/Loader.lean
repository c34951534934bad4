import Verif.Spec.Loader
import Verif.Lemmas.Bucket
import Verif.Lemmas.Dict
/-!
# Lemmas about loading of files
-/
namespace Viscid.Loader
open Viscid.Bucket (Inv effHandles)

theorem setFile_ok (w : World) (n : String) (f : Option Nat) (ix ar : Bool) (hi : Inv id w.bucket) :
    ∃ b, setFile w n f ix ar = ({ w with bucket := b }, none) ∧ Inv id b ∧
      (∀ m, b.items.get? (.name m) = if m = n then some f else w.bucket.items.get? (.name m)) ∧
      (∀ a, b.items.get? a = some f ∨ b.items.get? a = w.bucket.items.get? a) ∧
      (∀ a j, b.items.get? a = some j → j ≠ f → b.refCount.get? j = w.bucket.refCount.get? j) ∧
      b.refCount.get? f = some (match w.bucket.refCount.get? f with
        | some c => if ar then c + 1 else c
        | none => 1) := by
  obtain ⟨b, e, hb, g, r1, r2, r3⟩ := Bucket.setItem_ok Handle.num hi [some (.name n)] f ix ar
  have hg : ∀ m, b.items.get? (.name m) = if m = n then some f else w.bucket.items.get? (.name m) := by
    intro m
    rw [g]
    have : (some (Handle.name m) ∈ effHandles id Handle.num w.bucket [some (.name n)] f ix) ↔ m = n := by
      unfold effHandles
      split <;> simp
    simp only [this]
  have hal : (b.handles.get? f).isSome := by
    obtain ⟨hs, h1, _⟩ := hb.items_handles (.name n) f (by rw [hg, if_pos rfl])
    have h1 : b.handles.get? f = some hs := h1
    rw [h1]; rfl
  refine ⟨b, by unfold setFile; rw [e], hb, hg, ?_, ?_, ?_⟩
  · intro a
    rw [g]
    split
    · exact .inl rfl
    · exact .inr rfl
  · intro a j ha hj
    obtain ⟨hs, h1, _⟩ := hb.items_handles a j ha
    have h1 : b.handles.get? j = some hs := h1
    exact r1 j hj (by rw [h1]; rfl)
  · cases hc : w.bucket.refCount.get? f with
    | none => exact r3 hc hal
    | some c => exact r2 (fun j h => h) c hc

theorem unloadOwn_ok (w : World) (i : Nat) (n c : Int) (hi : Inv id w.bucket) (hc : w.bucket.refCount.get? (some i) = some c) :
    ∃ b, unloadOwn w i n = ({ bucket := b, objs := w.objs.modify i fun o => { o with full := false } }, none) ∧ Inv id b ∧
      (∀ a, b.items.get? a = if c - n ≤ 0 ∧ w.bucket.items.get? a = some (some i) then none else w.bucket.items.get? a) ∧
      (∀ j, b.refCount.get? j = if j = some i then (if c - n ≤ 0 then none else some (c - n)) else w.bucket.refCount.get? j) := by
  have hlen : Bucket.len w.bucket ≠ 0 := by
    intro h
    have h1 : w.bucket.hashLookup = [] := List.eq_nil_of_length_eq_zero h
    have h2 := hi.lookup (some i)
    rw [← hi.refs (some i), hc, h1] at h2
    simp [Dict.get?] at h2
  have key := Bucket.removeReference_cases hi (some i) (some (Handle.obj (some i))) n
  simp only [id] at key
  rcases key with ⟨j, c', hj, hc', hji, hrest⟩ | ⟨hn, _⟩
  · have hj : j = some i := Classical.byContradiction fun h => by
      have := hji h
      rw [hc] at this
      cases this
    subst hj
    rw [hc] at hc'
    cases hc'
    rcases hrest with ⟨hpos, b, e, hb, hit, hr⟩ | ⟨hle, b, e, hb, hit, hr⟩
    · refine ⟨b, ?_, hb, ?_, ?_⟩
      · unfold unloadOwn
        dsimp only
        rw [if_neg hlen]
        have e' : Bucket.removeReference id w.bucket (some i) (some (Handle.obj (some i))) n = .ok b := e
        rw [e']
      · intro a
        rw [hit, if_neg (by rintro ⟨h, _⟩; omega)]
      · intro j
        rw [hr, if_neg (show ¬ c - n ≤ 0 by omega)]
    · have hle : c - n ≤ 0 := by
        rcases hle with h | h
        · exact h
        · exact absurd rfl h.1
      refine ⟨b, ?_, hb, ?_, ?_⟩
      · unfold unloadOwn
        dsimp only
        rw [if_neg hlen]
        have e' : Bucket.removeReference id w.bucket (some i) (some (Handle.obj (some i))) n = .ok b := e
        rw [e']
      · intro a
        rw [hit]
        cases h : w.bucket.items.get? a with
        | none => simp
        | some k => by_cases hk : k = some i <;> simp [hk, hle]
      · intro j
        rw [hr, if_pos hle]
  · rw [hc] at hn; cases hn

/-- objects, but for their contents -/
def Same (l l' : List Obj) : Prop :=
  ∀ (k : Nat) o, l[k]? = some o → ∃ o', l'[k]? = some o' ∧ o'.group = o.group ∧ o'.handle = o.handle ∧ o'.kids = o.kids ∧ o'.container = o.container

theorem Same.refl (l : List Obj) : Same l l := fun _ o h => ⟨o, h, rfl, rfl, rfl, rfl⟩

theorem Same.trans {a b c : List Obj} (h : Same a b) (h' : Same b c) : Same a c := by
  intro k o ho
  obtain ⟨o', h1, h2, h3, h4, h5⟩ := h k o ho
  obtain ⟨o'', g1, g2, g3, g4, g5⟩ := h' k o' h1
  exact ⟨o'', g1, g2.trans h2, g3.trans h3, g4.trans h4, g5.trans h5⟩

theorem Same.modify (l : List Obj) (i : Nat) : Same l (l.modify i fun o => { o with full := false }) := by
  intro k o ho
  rw [List.getElem?_modify, ho]
  by_cases h : i = k
  · simp only [h, if_true]; exact ⟨_, rfl, rfl, rfl, rfl, rfl⟩
  · simp only [h, if_false]; exact ⟨_, rfl, rfl, rfl, rfl, rfl⟩

theorem Same.append (l r : List Obj) : Same l (l ++ r) := by
  intro k o ho
  exact ⟨o, by rw [List.getElem?_append_left (List.getElem?_eq_some_iff.mp ho).1]; exact ho, rfl, rfl, rfl, rfl⟩

end Viscid.Loader
