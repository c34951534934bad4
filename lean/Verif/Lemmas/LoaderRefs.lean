import Verif.Lemmas.Loader
/-!
# References to files
-/
namespace Viscid.Loader
open Viscid.Bucket (Inv)
open Viscid.Spec.Loader

/-- what the bucket should have under each name: children, whether it is a container, and references -/
abbrev Abs := String → Option (List (String × Int) × Bool × Int)

def upd (A : Abs) (n : String) (v : Option (List (String × Int) × Bool × Int)) : Abs := fun m => if m = n then v else A m

/-- a name is in the bucket as it should be -/
def Entry (w : World) (n : String) (v : List (String × Int) × Bool × Int) : Prop :=
  ∃ i o, lookup w n = some (some i) ∧ w.objs[i]? = some o ∧ o.handle = n ∧ o.kids = v.1 ∧ o.container = v.2.1 ∧
    w.bucket.refCount.get? (some i) = some v.2.2

structure Rep (w : World) (A : Abs) : Prop where
  inv : Inv id w.bucket
  none : ∀ n, A n = none → lookup w n = none
  some : ∀ n v, A n = some v → Entry w n v
  named : ∀ j, (w.bucket.refCount.get? j).isSome → ∃ (i : Nat) (n : String), j = Option.some i ∧ lookup w n = Option.some (Option.some i)

theorem Rep.name {w : World} {A : Abs} (h : Rep w A) {n : String} {i : Nat} (hl : lookup w n = Option.some (Option.some i)) :
    ∃ v o, A n = Option.some v ∧ w.objs[i]? = Option.some o ∧ o.handle = n ∧ o.kids = v.1 ∧ o.container = v.2.1 ∧
      w.bucket.refCount.get? (Option.some i) = Option.some v.2.2 := by
  cases ha : A n with
  | none => rw [h.none n ha] at hl; cases hl
  | some v =>
    obtain ⟨j, o, h1, h2, h3⟩ := h.some n v ha
    rw [h1] at hl
    cases hl
    exact ⟨v, o, rfl, h2, h3⟩

theorem Rep.old {w : World} {A : Abs} (h : Rep w A) (i : Nat) (hi : (w.bucket.refCount.get? (Option.some i)).isSome) : i < w.objs.length := by
  obtain ⟨i', n, e, hl⟩ := h.named _ hi
  cases e
  obtain ⟨_, o, _, ho, _⟩ := h.name hl
  exact (List.getElem?_eq_some_iff.mp ho).1

/-- names of the same file are the same -/
theorem Rep.inj {w : World} {A : Abs} (h : Rep w A) {n m : String} {i : Nat} (hn : lookup w n = Option.some (Option.some i))
    (hm : lookup w m = Option.some (Option.some i)) : n = m := by
  obtain ⟨_, o, _, h1, h2, _⟩ := h.name hn
  obtain ⟨_, o', _, h1', h2', _⟩ := h.name hm
  rw [h1] at h1'
  cases h1'
  exact h2.symm.trans h2'

theorem named_set {w : World} (b : Bucket.State Handle (Option Nat) (Option Nat)) (hi : Inv id w.bucket) (hb : Inv id b) (n : String) (f : Nat)
    (hg : ∀ a, b.items.get? a = some (some f) ∨ b.items.get? a = w.bucket.items.get? a)
    (hn : ∀ m, b.items.get? (.name m) = if m = n then some (some f) else w.bucket.items.get? (.name m))
    (hfree : lookup w n = none ∨ lookup w n = some (some f))
    (hold : ∀ j, (w.bucket.refCount.get? j).isSome → ∃ (i : Nat) (m : String), j = some i ∧ lookup w m = some (some i)) :
    ∀ j, (b.refCount.get? j).isSome → ∃ (i : Nat) (m : String), j = some i ∧ b.items.get? (.name m) = some (some i) := by
  intro j h
  rw [hb.refs] at h
  obtain ⟨a, j', h1, h2⟩ := (hb.live_iff _).mpr h
  have h2 : j' = j := h2
  subst h2
  by_cases hj : j' = some f
  · exact ⟨f, n, hj, by rw [hn, if_pos rfl]⟩
  · rcases hg a with h3 | h3
    · rw [h1] at h3
      cases h3
      exact absurd rfl hj
    · rw [h1] at h3
      obtain ⟨i, m, e, hl⟩ := hold j' (by rw [hi.refs]; exact (hi.live_iff _).mp ⟨a, _, h3.symm, rfl⟩)
      refine ⟨i, m, e, ?_⟩
      rw [hn, if_neg]
      · exact hl
      · intro hm
        subst hm
        rcases hfree with h | h
        · rw [h] at hl; cases hl
        · rw [h] at hl; cases hl; exact hj e

/-- a file that is there is set again -/
theorem rep_again {w : World} {A : Abs} (h : Rep w A) {n : String} {i : Nat} {ks : List (String × Int)} {c : Bool} {r : Int}
    (hl : lookup w n = some (some i)) (ha : A n = some (ks, c, r)) (ix ar : Bool) :
    ∃ b, setFile w n (some i) ix ar = ({ w with bucket := b }, none) ∧
      Rep { w with bucket := b } (upd A n (some (ks, c, if ar then r + 1 else r))) := by
  obtain ⟨b, e, hb, h1, h2, h3, h4⟩ := setFile_ok w n (some i) ix ar h.inv
  obtain ⟨v, o, ha', ho, hh, hk, hc, hr⟩ := h.name hl
  rw [ha] at ha'
  cases ha'
  refine ⟨b, e, hb, ?_, ?_, ?_⟩
  · intro m hm
    unfold upd at hm
    split at hm
    · cases hm
    · rename_i hne
      show b.items.get? (.name m) = none
      rw [h1, if_neg hne]
      exact h.none m hm
  · intro m v hm
    unfold upd at hm
    split at hm
    · rename_i hm'
      subst hm'
      cases hm
      refine ⟨i, o, ?_, ho, hh, hk, hc, ?_⟩
      · show b.items.get? (.name m) = _
        rw [h1, if_pos rfl]
      · show b.refCount.get? (some i) = _
        rw [h4, hr]
    · rename_i hne
      obtain ⟨j, o', g1, g2, g3, g4, g5, g6⟩ := h.some m v hm
      have hj : b.items.get? (.name m) = some (some j) := by rw [h1, if_neg hne]; exact g1
      refine ⟨j, o', hj, g2, g3, g4, g5, ?_⟩
      show b.refCount.get? (some j) = _
      rw [h3 _ _ hj, g6]
      intro hji
      cases hji
      exact hne (h.inj g1 hl)
  · exact named_set b h.inv hb n i h2 h1 (.inr hl) h.named

/-- a new file is set -/
theorem rep_new {w : World} {A : Abs} (h : Rep w A) {n : String} (ha : A n = none) (o : Obj) (ho : o.handle = n) (ix ar : Bool) :
    ∃ b, setFile { w with objs := w.objs ++ [o] } n (some w.objs.length) ix ar = ({ bucket := b, objs := w.objs ++ [o] }, none) ∧
      Rep { bucket := b, objs := w.objs ++ [o] } (upd A n (some (o.kids, o.container, 1))) := by
  obtain ⟨b, e, hb, h1, h2, h3, h4⟩ := setFile_ok { w with objs := w.objs ++ [o] } n (some w.objs.length) ix ar h.inv
  have hnew : w.bucket.refCount.get? (some w.objs.length) = none := by
    cases hc : w.bucket.refCount.get? (some w.objs.length) with
    | none => rfl
    | some c => exact absurd (h.old _ (by rw [hc]; rfl)) (by omega)
  have happ : ∀ (j : Nat) o', w.objs[j]? = some o' → (w.objs ++ [o])[j]? = some o' := fun j o' hj => by
    rw [List.getElem?_append_left (List.getElem?_eq_some_iff.mp hj).1]; exact hj
  refine ⟨b, e, hb, ?_, ?_, ?_⟩
  · intro m hm
    unfold upd at hm
    split at hm
    · cases hm
    · rename_i hne
      show b.items.get? (.name m) = none
      rw [h1, if_neg hne]
      exact h.none m hm
  · intro m v hm
    unfold upd at hm
    split at hm
    · rename_i hm'
      subst hm'
      cases hm
      refine ⟨w.objs.length, o, ?_, by simp, ho, rfl, rfl, ?_⟩
      · show b.items.get? (.name m) = _
        rw [h1, if_pos rfl]
      · show b.refCount.get? (some w.objs.length) = _
        rw [h4]
        show some (match w.bucket.refCount.get? (some w.objs.length) with
          | some c => if ar then c + 1 else c
          | none => 1) = _
        rw [hnew]
    · rename_i hne
      obtain ⟨j, o', g1, g2, g3, g4, g5, g6⟩ := h.some m v hm
      have hj : b.items.get? (.name m) = some (some j) := by rw [h1, if_neg hne]; exact g1
      refine ⟨j, o', hj, happ j o' g2, g3, g4, g5, ?_⟩
      show b.refCount.get? (some j) = _
      rw [h3 _ _ hj]
      · exact g6
      · intro hji
        cases hji
        have := (List.getElem?_eq_some_iff.mp g2).1
        omega
  · exact named_set (w := w) b h.inv hb n _ h2 h1 (.inl (h.none n ha)) h.named

/-- references to a file go -/
theorem rep_unloadOwn {w : World} {A : Abs} (h : Rep w A) {n : String} {i : Nat} {ks : List (String × Int)} {c : Bool} {r : Int}
    (hl : lookup w n = some (some i)) (ha : A n = some (ks, c, r)) (k : Int) :
    ∃ w', unloadOwn w i k = (w', none) ∧ Same w.objs w'.objs ∧ Rep w' (upd A n (if r - k ≤ 0 then none else some (ks, c, r - k))) ∧
      (∀ m j, m ≠ n → lookup w m = some (some j) → lookup w' m = some (some j)) := by
  obtain ⟨v, o, ha', ho, hh, hk, hc, hr⟩ := h.name hl
  rw [ha] at ha'
  cases ha'
  obtain ⟨b, e, hb, h1, h2⟩ := unloadOwn_ok w i k r h.inv hr
  have hsame := Same.modify w.objs i
  have hother : ∀ m, m ≠ n → b.items.get? (.name m) = w.bucket.items.get? (.name m) := by
    intro m hm
    rw [h1, if_neg]
    rintro ⟨_, h'⟩
    exact hm (h.inj h' hl)
  refine ⟨_, e, hsame, ⟨hb, ?_, ?_, ?_⟩, ?_⟩
  · intro m hm
    unfold upd at hm
    show b.items.get? (.name m) = none
    split at hm
    · rename_i hmn
      subst hmn
      split at hm
      · rename_i hle
        rw [h1, if_pos ⟨hle, hl⟩]
      · cases hm
    · rename_i hne
      rw [hother m hne]
      exact h.none m hm
  · intro m v hm
    unfold upd at hm
    split at hm
    · rename_i hmn
      subst hmn
      split at hm
      · cases hm
      · rename_i hle
        cases hm
        obtain ⟨o', k1, k2, k3, k4, k5⟩ := hsame i o ho
        refine ⟨i, o', ?_, k1, k3.trans hh, k4.trans hk, k5.trans hc, ?_⟩
        · show b.items.get? (.name m) = _
          rw [h1, if_neg (by rintro ⟨h, _⟩; exact hle h)]
          exact hl
        · show b.refCount.get? (some i) = _
          rw [h2, if_pos rfl, if_neg hle]
    · rename_i hne
      obtain ⟨j, o', g1, g2, g3, g4, g5, g6⟩ := h.some m v hm
      obtain ⟨o'', k1, k2, k3, k4, k5⟩ := hsame j o' g2
      refine ⟨j, o'', ?_, k1, k3.trans g3, k4.trans g4, k5.trans g5, ?_⟩
      · show b.items.get? (.name m) = _
        rw [hother m hne]; exact g1
      · show b.refCount.get? (some j) = _
        rw [h2, if_neg]
        · exact g6
        · intro hji
          cases hji
          exact hne (h.inj g1 hl)
  · intro j hj
    have hj : (b.refCount.get? j).isSome := hj
    rw [h2] at hj
    split at hj
    · rename_i hji
      split at hj
      · cases hj
      · rename_i hle
        refine ⟨i, n, hji, ?_⟩
        show b.items.get? (.name n) = _
        rw [h1, if_neg (by rintro ⟨h, _⟩; exact hle h)]
        exact hl
    · rename_i hji
      obtain ⟨i', m, e, hm⟩ := h.named j hj
      refine ⟨i', m, e, ?_⟩
      show b.items.get? (.name m) = _
      rw [hother m]
      · exact hm
      · intro hmn
        subst hmn
        rw [hl] at hm
        cases hm
        exact hji e
  · intro m j hm hj
    show b.items.get? (.name m) = _
    rw [hother m hm]
    exact hj

/-- references of a leaf -/
def refs (A : Abs) (n : String) : Int := match A n with
  | none => 0
  | some v => v.2.2

/-- a leaf, or nothing -/
def LeafAt (A : Abs) (n : String) : Prop := ∀ v, A n = some v → v.1 = [] ∧ v.2.1 = false ∧ 0 < v.2.2

/-- one more reference to a leaf -/
def addKid (A : Abs) (n : String) : Abs := upd A n (some ([], false, refs A n + 1))

theorem refs_nonneg {A : Abs} {n : String} (h : LeafAt A n) : 0 ≤ refs A n := by
  unfold refs
  cases ha : A n with
  | none => simp
  | some v => have := (h v ha).2.2; simp only; omega

theorem addKid_leaf {A : Abs} {n m : String} (h : LeafAt A n) (hm : LeafAt A m) : LeafAt (addKid A m) n := by
  intro v hv
  unfold addKid upd at hv
  split at hv
  · cases hv
    have := refs_nonneg hm
    exact ⟨rfl, rfl, by simp only; omega⟩
  · exact h v hv

theorem rep_loadKids (ks0 : List String) (ks : List String) : ∀ {w : World} {A : Abs} (d : List (String × Int)), Rep w A → (∀ k ∈ ks, LeafAt A k) →
    ∃ w', loadKids (Spec.Loader.envOf ks0) w d ks = (w', .ok (ks.foldl count d)) ∧ Rep w' (ks.foldl addKid A) := by
  induction ks with
  | nil => intro w A d h _; exact ⟨w, rfl, h⟩
  | cons k ks ih =>
    intro w A d h hleaf
    have hk := hleaf k (by simp)
    have : ∃ w' i, loadChild (Spec.Loader.envOf ks0) w k = (w', .ok (some i)) ∧ Rep w' (addKid A k) := by
      cases ha : A k with
      | none =>
        obtain ⟨b, e, hr⟩ := rep_new h ha ⟨[k], k, [], false, true⟩ rfl false true
        refine ⟨{ bucket := b, objs := w.objs ++ [⟨[k], k, [], false, true⟩] }, w.objs.length, ?_, ?_⟩
        rotate_left
        · have : addKid A k = upd A k (some ([], false, 1)) := by unfold addKid refs; rw [ha]; rfl
          rw [this]; exact hr
        · unfold loadChild
          rw [if_pos (by rfl), h.none k ha]
          simp only [Spec.Loader.envOf]
          rw [show (decide (([k] : List String).length ≠ 1)) = false by simp, e]
      | some v =>
        obtain ⟨vk, vc, vr⟩ := v
        obtain ⟨hk1, hk2, hk3⟩ := hk _ ha
        simp only at hk1 hk2 hk3
        subst hk1 hk2
        obtain ⟨i, o, h1, _⟩ := h.some k _ ha
        obtain ⟨b, e, hr⟩ := rep_again h h1 ha false true
        refine ⟨{ w with bucket := b }, i, ?_, ?_⟩
        rotate_left
        · have : addKid A k = upd A k (some ([], false, vr + 1)) := by unfold addKid refs; rw [ha]
          rw [this]; exact hr
        · unfold loadChild
          rw [if_pos (by rfl), h1]
          simp only [e]
    obtain ⟨w', i, e, hr⟩ := this
    obtain ⟨w'', e', hr'⟩ := ih (count d k) hr fun k' hk' => addKid_leaf (hleaf k' (by simp [hk'])) hk
    exact ⟨w'', by unfold loadKids; rw [e]; exact e', hr'⟩

/-- references to a leaf go -/
def subKid (A : Abs) (p : String × Int) : Abs := upd A p.1 (if refs A p.1 - p.2 ≤ 0 then none else some ([], false, refs A p.1 - p.2))

theorem subKid_leaf {A : Abs} {n : String} {p : String × Int} (h : LeafAt A n) : LeafAt (subKid A p) n := by
  intro v hv
  unfold subKid upd at hv
  split at hv
  · split at hv
    · cases hv
    · cases hv
      exact ⟨rfl, rfl, by simp only; omega⟩
  · exact h v hv

theorem rep_unloadKids (d : List (String × Int)) : ∀ {w : World} {A : Abs}, Rep w A → Dict.WF d → (∀ p ∈ d, LeafAt A p.1 ∧ (A p.1).isSome) →
    ∃ w', unloadKids w d = (w', none) ∧ Same w.objs w'.objs ∧ Rep w' (d.foldl subKid A) ∧
      (∀ m j, m ∉ d.map Prod.fst → lookup w m = some (some j) → lookup w' m = some (some j)) := by
  induction d with
  | nil => intro w A h _ _; exact ⟨w, rfl, Same.refl _, h, fun m j _ h => h⟩
  | cons p d ih =>
    intro w A h hwf hleaf
    obtain ⟨n, k⟩ := p
    obtain ⟨hn, hs⟩ := hleaf (n, k) (by simp)
    simp only at hn hs
    obtain ⟨⟨vk, vc, vr⟩, ha⟩ := Option.isSome_iff_exists.mp hs
    obtain ⟨hk1, hk2, hk3⟩ := hn _ ha
    simp only at hk1 hk2 hk3
    subst hk1 hk2
    obtain ⟨i, o, h1, h2, h3, h4, h5, h6⟩ := h.some n _ ha
    simp only at h4 h5 h6
    obtain ⟨w', e, hsame, hr, hl⟩ := rep_unloadOwn h h1 ha k
    have hA : upd A n (if vr - k ≤ 0 then none else some ([], false, vr - k)) = subKid A (n, k) := by
      unfold subKid refs
      rw [ha]
    rw [hA] at hr
    have hwf' : n ∉ d.map Prod.fst ∧ Dict.WF d := by
      unfold Dict.WF Dict.keys at hwf ⊢
      rw [List.map_cons, List.nodup_cons] at hwf
      exact hwf
    have hleaf' : ∀ p ∈ d, LeafAt (subKid A (n, k)) p.1 ∧ (subKid A (n, k) p.1).isSome := by
      intro p hp
      obtain ⟨g1, g2⟩ := hleaf p (by simp [hp])
      refine ⟨subKid_leaf g1, ?_⟩
      unfold subKid upd
      rw [if_neg (fun hpn => hwf'.1 (List.mem_map.mpr ⟨p, hp, hpn⟩))]
      exact g2
    obtain ⟨w'', e', hsame', hr', hl'⟩ := ih hr hwf'.2 hleaf'
    refine ⟨w'', ?_, hsame.trans hsame', hr', ?_⟩
    · unfold unloadKids
      rw [h1]
      simp only [h2, h4, h5]
      simp only [ne_eq, not_true_eq_false, if_false, Bool.false_eq_true, e, e']
    · intro m j hm hj
      simp only [List.map_cons, List.mem_cons, not_or] at hm
      exact hl' m j hm.2 (hl m j hm.1 hj)

theorem refs_addKid (A : Abs) (n m : String) : refs (addKid A n) m = refs A m + if m = n then 1 else 0 := by
  unfold addKid refs upd
  by_cases h : m = n
  · subst h; simp
  · simp [h]

theorem foldl_addKid (ks : List String) : ∀ (A : Abs), (∀ k ∈ ks, LeafAt A k) →
    (∀ c, c ∉ ks → ks.foldl addKid A c = A c) ∧ (∀ c, c ∈ ks → ks.foldl addKid A c = some ([], false, refs A c + ks.count c)) := by
  induction ks with
  | nil => intro A _; simp
  | cons k ks ih =>
    intro A h
    obtain ⟨h1, h2⟩ := ih (addKid A k) fun k' hk' => addKid_leaf (h k' (by simp [hk'])) (h k (by simp))
    refine ⟨?_, ?_⟩
    · intro c hc
      simp only [List.mem_cons, not_or] at hc
      rw [List.foldl_cons, h1 c hc.2]
      unfold addKid upd
      rw [if_neg hc.1]
    · intro c hc
      rw [List.foldl_cons]
      by_cases hm : c ∈ ks
      · rw [h2 c hm, refs_addKid, List.count_cons]
        congr 3
        by_cases hck : c = k
        · subst hck; simp; omega
        · have : ¬ k = c := fun h => hck h.symm
          simp [hck, this]
      · rw [h1 c hm]
        have hck : c = k := by simpa [hm] using hc
        subst hck
        unfold addKid upd
        rw [if_pos rfl, List.count_cons, List.count_eq_zero.mpr hm]
        simp

/-- the counts of children -/
theorem foldl_count (ks : List String) : ∀ (d : List (String × Int)), Dict.WF d → (∀ c v, Dict.get? d c = some v → 0 < v) →
    Dict.WF (ks.foldl count d) ∧ ∀ c, Dict.get? (ks.foldl count d) c =
      if c ∈ ks then some ((Dict.get? d c).getD 0 + ks.count c) else Dict.get? d c := by
  induction ks with
  | nil => intro d h _; exact ⟨h, by simp⟩
  | cons k ks ih =>
    intro d hd hpos
    have hc : count d k = Dict.set d k ((Dict.get? d k).getD 0 + 1) := by
      unfold count
      cases Dict.get? d k <;> simp
    have hnn : 0 ≤ (Dict.get? d k).getD 0 := by
      cases h : Dict.get? d k with
      | none => simp
      | some v => have := hpos k v h; simp; omega
    obtain ⟨h1, h2⟩ := ih (count d k) (by rw [hc]; exact Dict.WF_set d k _ hd) (by
      intro c v hv
      rw [hc, Dict.get?_set] at hv
      split at hv
      · cases hv; omega
      · exact hpos c v hv)
    refine ⟨h1, fun c => ?_⟩
    rw [List.foldl_cons, h2, hc, Dict.get?_set]
    by_cases hck : c = k
    · subst hck
      by_cases hm : c ∈ ks
      · simp [hm]; omega
      · simp [hm, List.count_eq_zero.mpr hm]
    · have : ¬ k = c := fun h => hck h.symm
      by_cases hm : c ∈ ks <;> simp [hm, hck, List.count_cons, this]

theorem foldl_subKid (d : List (String × Int)) : ∀ (A : Abs), Dict.WF d → ∀ c, d.foldl subKid A c =
    match Dict.get? d c with
    | none => A c
    | some k => if refs A c - k ≤ 0 then none else some ([], false, refs A c - k) := by
  induction d with
  | nil => intro A _ c; rfl
  | cons p d ih =>
    intro A hd c
    obtain ⟨n, k⟩ := p
    have hwf : n ∉ d.map Prod.fst ∧ Dict.WF d := by
      unfold Dict.WF Dict.keys at hd ⊢
      rw [List.map_cons, List.nodup_cons] at hd
      exact hd
    rw [List.foldl_cons, ih _ hwf.2]
    by_cases hc : n = c
    · subst hc
      have : Dict.get? d n = none := (Dict.not_mem_keys_iff d n).mp hwf.1
      rw [this]
      simp only [Dict.get?, if_true, subKid, upd]
    · have hc' : ¬ c = n := fun h => hc h.symm
      have h1 : subKid A (n, k) c = A c := by unfold subKid upd; rw [if_neg hc']
      have h2 : refs (subKid A (n, k)) c = refs A c := by unfold refs; rw [h1]
      simp only [Dict.get?, if_neg hc, h1, h2]

/-- references to a child, of all files -/
def total (L : List (String × List String)) (c : String) : Nat := (L.map fun p => p.2.count c).sum

theorem total_zero (L : List (String × List String)) (c : String) : total L c = 0 ↔ ¬ ∃ p ∈ L, c ∈ p.2 := by
  unfold total
  induction L with
  | nil => simp
  | cons p L ih =>
    simp only [List.map_cons, List.sum_cons, Nat.add_eq_zero_iff, ih, List.count_eq_zero, List.mem_cons]
    constructor
    · rintro ⟨h1, h2⟩ ⟨q, rfl | hq, hc⟩
      · exact h1 hc
      · exact h2 ⟨q, hq, hc⟩
    · intro h
      exact ⟨fun hc => h ⟨p, .inl rfl, hc⟩, fun ⟨q, hq, hc⟩ => h ⟨q, .inr hq, hc⟩⟩

theorem total_filter (L : List (String × List String)) (c n : String) (ks : List String) (hnd : (L.map Prod.fst).Nodup) (hm : (n, ks) ∈ L) :
    total L c = ks.count c + total (L.filter fun p => p.1 ≠ n) c := by
  induction L with
  | nil => cases hm
  | cons p L ih =>
    simp only [List.map_cons, List.nodup_cons] at hnd
    rcases List.mem_cons.mp hm with h | h
    · subst h
      have : L.filter (fun p => decide (p.1 ≠ n)) = L := by
        rw [List.filter_eq_self]
        intro q hq
        simp only [ne_eq, decide_not, Bool.not_eq_eq_eq_not, Bool.not_true, decide_eq_false_iff_not]
        intro h
        exact hnd.1 (List.mem_map.mpr ⟨q, hq, h⟩)
      rw [List.filter_cons_of_neg (by simp), this]
      rfl
    · have hp : p.1 ≠ n := fun h' => hnd.1 (List.mem_map.mpr ⟨(n, ks), h, h'.symm⟩)
      rw [List.filter_cons_of_pos (by simpa using hp)]
      have := ih hnd.2 h
      unfold total at this ⊢
      simp only [List.map_cons, List.sum_cons]
      omega

/-- what should be in the bucket, by what is loaded -/
structure Matches (leaf : String → Prop) (L : List (String × List String)) (A : Abs) : Prop where
  nodup : (L.map Prod.fst).Nodup
  kinds : ∀ p ∈ L, ¬ leaf p.1 ∧ ∀ k ∈ p.2, leaf k
  leaves : ∀ c, leaf c → A c = if total L c = 0 then none else some ([], false, (total L c : Int))
  gone : ∀ n, ¬ leaf n → n ∉ L.map Prod.fst → A n = none
  here : ∀ n ks, (n, ks) ∈ L → A n = some (ks.foldl count [], true, 1)

theorem Matches.leafAt {leaf : String → Prop} {L : List (String × List String)} {A : Abs} (h : Matches leaf L A) {c : String} (hc : leaf c) :
    LeafAt A c := by
  intro v hv
  rw [h.leaves c hc] at hv
  split at hv
  · cases hv
  · cases hv
    exact ⟨rfl, rfl, by simp only; omega⟩

theorem Matches.refs {leaf : String → Prop} {L : List (String × List String)} {A : Abs} (h : Matches leaf L A) {c : String} (hc : leaf c) :
    refs A c = total L c := by
  unfold Loader.refs
  rw [h.leaves c hc]
  split
  · rename_i h0; split at h0
    · rename_i h1; simp [h1]
    · cases h0
  · rename_i v h0; split at h0
    · cases h0
    · cases h0; rfl

/-- the bucket is as it should be, after all that users may do -/
theorem exec_rep (leaf : String → Prop) (past : List Ev) (h : Possible leaf past) :
    (exec past).2 = false ∧ ∃ A, Rep (exec past).1 A ∧ Matches leaf (live past) A := by
  induction past with
  | nil =>
    refine ⟨rfl, fun _ => none, ⟨Bucket.init_inv id, fun n _ => rfl, fun n v hv => (by cases hv), ?_⟩, ⟨by simp [live], by simp [live], ?_, fun _ _ _ => rfl, ?_⟩⟩
    · intro j hj
      simp [exec, empty, Bucket.init] at hj
    · intro c _; rfl
    · intro n ks h; simp [live] at h
  | cons ev past ih =>
    cases ev with
    | load n ks =>
      obtain ⟨hp, hn, hks, hnew⟩ := h
      obtain ⟨he, A, hr, hm⟩ := ih hp
      have hleaf : ∀ k ∈ ks, LeafAt A k := fun k hk => hm.leafAt (hks k hk)
      have hnks : n ∉ ks := fun h => hn (hks n h)
      have hA : A n = none := hm.gone n hn hnew
      obtain ⟨w1, e1, hr1⟩ := rep_loadKids ks ks [] hr hleaf
      obtain ⟨f1, f2⟩ := foldl_addKid ks A hleaf
      have hA1 : ks.foldl addKid A n = none := by rw [f1 n hnks, hA]
      obtain ⟨b, e2, hr2⟩ := rep_new hr1 hA1 ⟨[n, n], n, ks.foldl count [], true, true⟩ rfl true false
      have hl : lookup (exec past).1 n = none := hr.none n hA
      have key : loadGroup (envOf ks) (exec past).1 n [n, n] =
          ({ bucket := b, objs := w1.objs ++ [⟨[n, n], n, ks.foldl count [], true, true⟩] }, .ok (some w1.objs.length)) := by
        unfold loadGroup
        rw [hl]
        unfold construct
        have e1' : loadKids (envOf ks) (exec past).1 [] ((envOf ks).kids [n, n]) = (w1, .ok (ks.foldl count [])) := e1
        rw [e1']
        simp only [envOf]
        have : decide (([n, n] : List String).length ≠ 1) = true := by simp
        rw [this, e2]
      have hx : exec (.load n ks :: past) = ({ bucket := b, objs := w1.objs ++ [⟨[n, n], n, ks.foldl count [], true, true⟩] }, (exec past).2) := by
        show (match loadGroup (envOf ks) (exec past).1 n [n, n] with
          | (w, .ok _) => (w, (exec past).2)
          | (w, .error _) => (w, true)) = _
        rw [key]
      rw [hx]
      refine ⟨he, _, hr2, ⟨?_, ?_, ?_, ?_, ?_⟩⟩
      · simp only [live, List.map_cons, List.nodup_cons]; exact ⟨hnew, hm.nodup⟩
      · intro p hp
        rcases List.mem_cons.mp hp with rfl | hp
        · exact ⟨hn, hks⟩
        · exact hm.kinds p hp
      · intro c hc
        have hcn : c ≠ n := fun h => hn (h ▸ hc)
        have ht : total (live (.load n ks :: past)) c = ks.count c + total (live past) c := by simp [live, total]
        rw [ht]
        show upd _ n _ c = _
        unfold upd
        rw [if_neg hcn]
        by_cases hck : c ∈ ks
        · have : 0 < ks.count c := List.count_pos_iff.mpr hck
          rw [f2 c hck, hm.refs hc, if_neg (by omega)]
          congr 3
          omega
        · rw [f1 c hck, hm.leaves c hc, List.count_eq_zero.mpr hck, Nat.zero_add]
      · intro m hml hm'
        simp only [live, List.map_cons, List.mem_cons, not_or] at hm'
        show upd _ n _ m = _
        unfold upd
        rw [if_neg hm'.1, f1 m (fun h => hml (hks m h)), hm.gone m hml hm'.2]
      · intro m ks' hmem
        rcases List.mem_cons.mp hmem with h | h
        · cases h
          show upd _ n _ n = _
          unfold upd
          rw [if_pos rfl]
        · have hmn : m ≠ n := fun h' => hnew (List.mem_map.mpr ⟨_, h, h'⟩)
          show upd _ n _ m = _
          unfold upd
          rw [if_neg hmn, f1 m (fun h' => (hm.kinds _ h).1 (hks m h')), hm.here m ks' h]
    | unload n =>
      obtain ⟨hp, hmem⟩ := h
      obtain ⟨he, A, hr, hm⟩ := ih hp
      obtain ⟨⟨n', ks⟩, hmem', hnn⟩ := List.mem_map.mp hmem
      have hmem : (n, ks) ∈ live past := by
        have hnn : n' = n := hnn
        rw [← hnn]; exact hmem'
      obtain ⟨hn, hks⟩ := hm.kinds _ hmem
      simp only at hn hks
      have hA := hm.here n ks hmem
      obtain ⟨i, o, g1, g2, g3, g4, g5, g6⟩ := hr.some n _ hA
      simp only at g4 g5 g6
      obtain ⟨c1, c2⟩ := foldl_count ks [] Dict.WF_nil (by intro c v h; cases h)
      have hkeys : ∀ p ∈ ks.foldl count [], p.1 ∈ ks := by
        intro p hp'
        have : (Dict.get? (ks.foldl count []) p.1).isSome := (Dict.mem_keys_iff _ _).mp (List.mem_map.mpr ⟨p, hp', rfl⟩)
        rw [c2] at this
        split at this
        · assumption
        · cases this
      have hpos : ∀ c ∈ ks, 0 < total (live past) c := by
        intro c hc
        have := total_filter (live past) c n ks hm.nodup hmem
        have := List.count_pos_iff.mpr hc
        omega
      obtain ⟨w1, e1, hs1, hr1, hl1⟩ := rep_unloadKids (ks.foldl count []) hr c1 fun p hp' => by
        have hk := hkeys p hp'
        refine ⟨hm.leafAt (hks _ hk), ?_⟩
        have := hpos _ hk
        rw [hm.leaves _ (hks _ hk), if_neg (by omega)]
        rfl
      have hnk : n ∉ (ks.foldl count []).map Prod.fst := by
        intro h
        obtain ⟨p, hp', rfl⟩ := List.mem_map.mp h
        exact hn (hks _ (hkeys p hp'))
      have hA1 : (ks.foldl count []).foldl subKid A n = some (ks.foldl count [], true, 1) := by
        rw [foldl_subKid _ A c1, (Dict.not_mem_keys_iff _ n).mp hnk]
        exact hA
      obtain ⟨w2, e2, hs2, hr2, _⟩ := rep_unloadOwn hr1 (hl1 n i hnk g1) hA1 1
      have key : unloadFile (exec past).1 n = (w2, none) := by
        unfold unloadFile
        rw [g1]
        simp only [unload, g2, g4, e1, e2]
      have hx : exec (.unload n :: past) = (w2, (exec past).2) := by
        show (match unloadFile (exec past).1 n with
          | (w, none) => (w, (exec past).2)
          | (w, some _) => (w, true)) = _
        rw [key]
      rw [hx]
      have hlive : live (.unload n :: past) = (live past).filter fun p => p.1 ≠ n := rfl
      refine ⟨he, _, hr2, ⟨?_, ?_, ?_, ?_, ?_⟩⟩
      · rw [hlive]
        exact (List.filter_sublist.map Prod.fst).nodup hm.nodup
      · intro p hp'
        rw [hlive] at hp'
        exact hm.kinds p (List.mem_filter.mp hp').1
      · intro c hc
        have hcn : c ≠ n := fun h => hn (h ▸ hc)
        have ht := total_filter (live past) c n ks hm.nodup hmem
        rw [← hlive] at ht
        unfold upd
        rw [if_neg hcn, foldl_subKid _ A c1, c2]
        by_cases hck : c ∈ ks
        · have hg : Dict.get? ([] : List (String × Int)) c = none := rfl
          simp only [if_pos hck, hg, Option.getD_none, Int.zero_add, hm.refs hc]
          have := List.count_pos_iff.mpr hck
          by_cases h0 : total (live (.unload n :: past)) c = 0
          · rw [if_pos (by omega), if_pos h0]
          · rw [if_neg (by omega), if_neg h0]
            congr 3
            omega
        · rw [if_neg hck]
          show A c = _
          rw [hm.leaves c hc]
          rw [List.count_eq_zero.mpr hck, Nat.zero_add] at ht
          rw [ht]
      · intro m hml hm'
        unfold upd
        by_cases hmn : m = n
        · rw [if_pos hmn]; rfl
        · rw [if_neg hmn, foldl_subKid _ A c1]
          have : m ∉ Dict.keys (ks.foldl count []) := by
            intro h
            obtain ⟨p, hp', rfl⟩ := List.mem_map.mp h
            exact hml (hks _ (hkeys p hp'))
          rw [(Dict.not_mem_keys_iff _ m).mp this]
          refine hm.gone m hml fun h => hm' ?_
          obtain ⟨q, hq, rfl⟩ := List.mem_map.mp h
          rw [hlive]
          exact List.mem_map.mpr ⟨q, List.mem_filter.mpr ⟨hq, by simpa using hmn⟩, rfl⟩
      · intro m ks' hmem'
        rw [hlive] at hmem'
        obtain ⟨h1, h2⟩ := List.mem_filter.mp hmem'
        have hmn : m ≠ n := by simpa using h2
        unfold upd
        rw [if_neg hmn, foldl_subKid _ A c1]
        have : m ∉ Dict.keys (ks.foldl count []) := by
          intro h
          obtain ⟨p, hp', rfl⟩ := List.mem_map.mp h
          exact (hm.kinds _ h1).1 (hks _ (hkeys p hp'))
        rw [(Dict.not_mem_keys_iff _ m).mp this]
        exact hm.here m ks' h1

end Viscid.Loader
