import Verif.Spec.Xdmf
import Mathlib.Data.List.Perm.Basic
/-!
# Lemmas about reading XDMF files
-/
namespace Viscid.Xdmf
open Viscid.Spec.Xdmf

variable {G : Type}

theorem leavesOf_eq (t : Option ℚ) (ns : List (Node G)) : leaves.leavesOf t ns = ns.flatMap (leaves t) := by
  induction ns with
  | nil => rfl
  | cons n ns ih => simp only [leaves.leavesOf, List.flatMap_cons, ih]

theorem saidAt_eq {tel : Option TimeEl} (h : ∀ i, slot tel i = none) (i : Nat) (t : Option ℚ) (p : Bool) (g : Option G) (els : List (Elem G)) :
    said.saidAt tel i t p g els = els.flatMap (said t p g) := by
  induction els generalizing i with
  | nil => rfl
  | cons e es ih => simp only [said.saidAt, List.flatMap_cons, ih, h, first]

theorem slot_none {t : Option ℚ} {tel : Option TimeEl} (h : tel = none ∨ t = none ∧ ∃ v, tel = some (.single (some v))) (i : Nat) :
    slot tel i = none := by
  rcases h with rfl | ⟨_, v, rfl⟩ <;> rfl

theorem flatMap_congr' {α β : Type} {l : List α} {f g : α → List β} (h : ∀ x ∈ l, f x = g x) : l.flatMap f = l.flatMap g := by
  induction l with
  | nil => rfl
  | cons a l ih =>
    rw [List.flatMap_cons, List.flatMap_cons, h a (by simp), ih fun x hx => h x (by simp [hx])]

theorem said_plain {t : Option ℚ} {el : Elem G} (h : Plain t el) : ∀ (p : Bool) (g : Option G), said t p g el = said t false none el := by
  induction h with
  | uniform t name c tel attrs kids ht ha => intro p g; simp [said]
  | temporal t name topo tel attrs kids ht hk hs ih =>
    intro p g
    simp only [said, saidAt_eq (slot_none ht)]
    exact flatMap_congr' fun k hk => by rw [ih k hk, ← ih k hk (topo || false) none]
  | spatial t name topo tel attrs kids ht hk hs ih =>
    intro p g
    simp only [said, saidAt_eq (tel := none) (fun i => rfl)]
    exact flatMap_congr' fun k hk => by rw [ih k hk, ← ih k hk (topo || false) none]
  | ignored => intros; simp [said]

/-- the time an element has, within a collection with time `t` -/
def elTime (t : Option ℚ) : Elem G → Option ℚ
  | .mk _ _ _ _ tel _ _ => first (own tel) t

def isSpatial : Elem G → Bool
  | .mk .spatial _ _ _ _ _ _ => true
  | _ => false

/-- `n` and all grids in it have time `v` -/
def Timed (v : ℚ) (n : Node G) : Prop := time n = some v ∧ ∀ u, ∀ l ∈ leaves u n, l.time = some v

/-- `n` is what should be made of `el` -/
structure Good (t : Option ℚ) (el : Elem G) (n : Node G) : Prop where
  truthy : n.truthy = true
  inTime : InTime n
  timed : ∀ v, elTime t el = some v → Timed v n
  perm : (leaves t n).Perm (said t false none el)
  amr : ∀ a b c, n = .amr a b c → isSpatial el = true

/-- a parent that is being read -/
structure Fresh (p : Parent G) : Prop where
  topo : p.topo = false
  geo : p.geo = false
  time : p.time = none

theorem Fresh.new (b : Bool) : Fresh (Parent.new (G := G) b) := ⟨rfl, rfl, rfl⟩

theorem Fresh.add {p : Parent G} (h : Fresh p) (n : Node G) : Fresh (p.add n) := by
  obtain ⟨a, b, c⟩ := h
  unfold Parent.add
  split <;> exact ⟨a, b, c⟩

/-- what becomes of the parent and what is returned -/
inductive Outcome (p : Parent G) (t : Option ℚ) (el : Elem G) : Option (Parent G) × Option (Node G) → Prop
  | nothing : said t false none el = [] → (∃ name topo geo tel attrs kids, el = .mk .ignored name topo geo tel attrs kids) →
      Outcome p t el (some p, none)
  | empty (n : Node G) : n.truthy = false → InTime n → (∀ u, leaves u n = []) → said t false none el = [] → Outcome p t el (some p, some n)
  | node (n : Node G) : Good t el n → Outcome p t el (some (p.add n), some n)

theorem elemTime_plain {p : Parent G} (h : Fresh p) {t : Option ℚ} {tel : Option TimeEl}
    (ht : tel = none ∨ t = none ∧ ∃ v, tel = some (.single (some v))) : elemTime (some p) t tel = .ok (first (own tel) t) := by
  rcases ht with rfl | ⟨rfl, v, rfl⟩
  · cases t <;> simp [elemTime, first, own, h.time]
  · simp [elemTime, first, own, parseTime]

theorem elemGeo_none {p : Parent G} (h : Fresh p) (topo : Bool) : elemGeo (some p) topo none = .ok (false, none) := by
  simp [elemGeo, h.geo]

theorem telOk {t : Option ℚ} {tel : Option TimeEl} (ht : tel = none ∨ t = none ∧ ∃ v, tel = some (.single (some v))) :
    ∃ x, timesOf tel = .ok x := by
  rcases ht with rfl | ⟨_, v, rfl⟩
  · exact ⟨_, rfl⟩
  · exact ⟨_, rfl⟩

theorem insertLate_perm (n : Node G) (l : List (Node G)) : (insertLate n l).Perm (l ++ [n]) := by
  induction l with
  | nil => exact .refl _
  | cons m l ih =>
    unfold insertLate
    split
    · exact (List.perm_append_singleton n (m :: l)).symm
    · exact ih.cons m

theorem node_time (n : Node G) : n.time = time n := by cases n <;> rfl

def Ordered (l : List (Node G)) : Prop := l.Pairwise fun a b => (time a).getD 0 ≤ (time b).getD 0

theorem insertLate_ordered (n : Node G) {l : List (Node G)} (h : Ordered l) : Ordered (insertLate n l) := by
  induction l with
  | nil => exact List.pairwise_singleton _ _
  | cons m l ih =>
    obtain ⟨h1, h2⟩ := List.pairwise_cons.1 h
    unfold insertLate
    simp only [node_time]
    split
    · rename_i hlt
      refine List.pairwise_cons.2 ⟨fun x hx => ?_, h⟩
      rcases List.mem_cons.1 hx with rfl | hx
      · exact le_of_lt hlt
      · exact le_trans (le_of_lt hlt) (h1 x hx)
    · rename_i hge
      refine List.pairwise_cons.2 ⟨fun x hx => ?_, ih h2⟩
      rcases List.mem_append.1 ((insertLate_perm n l).mem_iff.1 hx) with hx | hx
      · exact h1 x hx
      · rw [List.mem_singleton.1 hx]; exact not_lt.1 hge

/-- reading the children -/
theorem kids_plain (t : Option ℚ) (els : List (Elem G))
    (ih : ∀ el ∈ els, ∀ p : Parent G, Fresh p → ∃ r, parseGrid (some p) t el = .ok r ∧ Outcome p t el r) :
    ∀ p : Parent G, Fresh p → (p.temporal = true → ∀ el ∈ els, (elTime t el).isSome = true) →
      ∃ p' ns, parseGrid.parseKids (some p) t els = .ok (some p') ∧ Fresh p' ∧ p'.temporal = p.temporal ∧ p'.kids.Perm (p.kids ++ ns) ∧
        (ns.flatMap (leaves t)).Perm (els.flatMap (said t false none)) ∧ (∀ n ∈ ns, ∃ el ∈ els, Good t el n) ∧
        (p.temporal = true → Ordered p.kids → Ordered p'.kids) := by
  induction els with
  | nil =>
    intro p hp _
    exact ⟨p, [], rfl, hp, rfl, by simp, by simp, by simp, fun _ h => h⟩
  | cons el els ihl =>
    intro p hp htm
    obtain ⟨r, hr, ho⟩ := ih el (by simp) p hp
    have ih' := ihl fun e he => ih e (by simp [he])
    cases ho with
    | nothing hs _ =>
      obtain ⟨p', ns, h1, h2, h3, h4, h5, h6, h7⟩ := ih' p hp fun h e he => htm h e (by simp [he])
      refine ⟨p', ns, ?_, h2, h3, h4, ?_, fun n hn => ?_, h7⟩
      · rw [parseGrid.parseKids, hr]; exact h1
      · rw [List.flatMap_cons, hs]; exact h5
      · obtain ⟨e, he, hg⟩ := h6 n hn; exact ⟨e, by simp [he], hg⟩
    | empty n _ _ _ hs =>
      obtain ⟨p', ns, h1, h2, h3, h4, h5, h6, h7⟩ := ih' p hp fun h e he => htm h e (by simp [he])
      refine ⟨p', ns, ?_, h2, h3, h4, ?_, fun n hn => ?_, h7⟩
      · rw [parseGrid.parseKids, hr]; exact h1
      · rw [List.flatMap_cons, hs]; exact h5
      · obtain ⟨e, he, hg⟩ := h6 n hn; exact ⟨e, by simp [he], hg⟩
    | node n hg =>
      have hadd : (p.add n).temporal = p.temporal ∧ (p.add n).kids.Perm (p.kids ++ [n]) ∧
          (p.temporal = true → Ordered p.kids → Ordered (p.add n).kids) := by
        unfold Parent.add
        split
        · rename_i hT
          have := htm hT el (by simp)
          obtain ⟨v, hv⟩ := Option.isSome_iff_exists.1 this
          have hv := (hg.timed v hv).1
          rw [node_time, hv]
          exact ⟨rfl, insertLate_perm _ _, fun _ h => insertLate_ordered _ h⟩
        · rename_i hT
          exact ⟨rfl, .refl _, fun h => absurd h hT⟩
      obtain ⟨a1, a2, a3⟩ := hadd
      obtain ⟨p', ns, h1, h2, h3, h4, h5, h6, h7⟩ := ih' (p.add n) (hp.add n) fun h e he => htm (a1 ▸ h) e (by simp [he])
      refine ⟨p', n :: ns, ?_, h2, h3.trans a1, ?_, ?_, ?_, fun h ho => h7 (a1.trans h) (a3 h ho)⟩
      · rw [parseGrid.parseKids, hr]; exact h1
      · refine h4.trans ((a2.append_right ns).trans ?_)
        simp
      · rw [List.flatMap_cons, List.flatMap_cons]; exact hg.perm.append h5
      · intro m hm
        rcases List.mem_cons.1 hm with rfl | hm
        · exact ⟨el, by simp, hg⟩
        · obtain ⟨e, he, hg⟩ := h6 m hm; exact ⟨e, by simp [he], hg⟩

theorem first_self (a t : Option ℚ) : first (first a t) t = first a t := by
  cases a <;> cases t <;> rfl

theorem time_plain {v : ℚ} {el : Elem G} (h : Plain (some v) el) : elTime (some v) el = some v := by
  cases h <;> rename_i ht <;> simp_all [elTime, first, own]

theorem kids_nil {l ns : List (Node G)} (h : l.Perm ([] ++ ns)) : l = [] ↔ ns = [] := by
  constructor
  · rintro rfl; exact (List.nil_perm.1 h)
  · rintro rfl; exact (List.perm_nil.1 h)

theorem parse_plain {t : Option ℚ} {el : Elem G} (h : Plain t el) :
    ∀ p : Parent G, Fresh p → ∃ r, parseGrid (some p) t el = .ok r ∧ Outcome p t el r := by
  induction h with
  | uniform t name c tel attrs kids ht ha =>
    intro p hp
    refine ⟨_, ?_, .node (.grid name (first (own tel) t) (some c) attrs) ⟨?_, .grid .., ?_, ?_, fun _ _ _ h => by cases h⟩⟩
    · unfold parseGrid
      simp [elemTopo, elemGeo, elemTime_plain hp ht, ha, give]
    · simp [Node.truthy, ha]
    · intro v hv
      refine ⟨hv, fun u l hl => ?_⟩
      simp only [leaves, List.mem_singleton] at hl
      subst hl
      simp only [elTime] at hv
      show first (first (own tel) t) u = _
      rw [hv]; rfl
    · simp [leaves, said, first_self]
  | temporal t name topo tel attrs kids ht hk hs ih =>
    intro p hp
    obtain ⟨x, hx⟩ := telOk ht
    have hkt : ∀ el ∈ kids, (elTime (first (own tel) t) el).isSome = true := by
      intro k hk
      obtain ⟨a, b, c, d, e, f, g⟩ := k
      exact hs _ hk a b c d e f g rfl
    obtain ⟨d, ns, h1, h2, h3, h4, h5, h6, h7⟩ := kids_plain (first (own tel) t) kids ih (Parent.new true) (Fresh.new _) fun _ => hkt
    have hsaid : said t false none (.mk .temporal name topo none tel attrs kids) = kids.flatMap (said (first (own tel) t) false none) := by
      simp only [said, saidAt_eq (slot_none ht)]
      exact flatMap_congr' fun k hk' => said_plain (hk k hk') _ _
    have hord := h7 rfl List.Pairwise.nil
    have hparse : parseGrid (some p) t (.mk .temporal name topo none tel attrs kids) =
        if d.kids = [] then .ok (some p, some (.series name none []))
        else .ok (some (p.add (.series name (first (own tel) t) d.kids)), some (.series name (first (own tel) t) d.kids)) := by
      unfold parseGrid
      simp only [elemGeo_none hp, elemTime_plain hp ht]
      rw [hx, h1]
      rfl
    rw [hparse]
    by_cases hd : d.kids = []
    · rw [if_pos hd]
      refine ⟨_, rfl, .empty _ rfl (.series _ _ _ (by simp) (by simp) .nil) (fun _ => rfl) ?_⟩
      rw [hsaid]
      have hn := (kids_nil h4).1 hd
      subst hn
      exact List.nil_perm.1 h5
    · rw [if_neg hd]
      have hmem : ∀ n ∈ d.kids, ∃ el ∈ kids, Good (first (own tel) t) el n := fun n hn => h6 n (by simpa [Parent.new] using h4.mem_iff.1 hn)
      have htimed : ∀ n ∈ d.kids, ∃ v, Timed v n := by
        intro n hn
        obtain ⟨el, hel, hg⟩ := hmem n hn
        obtain ⟨v, hv⟩ := Option.isSome_iff_exists.1 (hkt el hel)
        exact ⟨v, hg.timed v hv⟩
      refine ⟨_, rfl, .node _ ⟨?_, .series _ _ _ ?_ ?_ ?_, ?_, ?_, fun _ _ _ h => by cases h⟩⟩
      · simp [Node.truthy, hd]
      · intro n hn
        obtain ⟨el, _, hg⟩ := hmem n hn
        exact hg.inTime
      · intro n hn
        obtain ⟨v, hv⟩ := htimed n hn
        exact ⟨v, hv.1, hv.2 none⟩
      · refine hord.imp ?_
        intro a b hab u v hu hv
        simpa [hu, hv] using hab
      · intro v hv
        simp only [elTime] at hv
        refine ⟨hv, fun u l hl => ?_⟩
        simp only [leaves, leavesOf_eq, List.mem_flatMap] at hl
        obtain ⟨n, hn, hl⟩ := hl
        obtain ⟨el, hel, hg⟩ := hmem n hn
        have := hk el hel
        rw [hv] at this hg
        exact (hg.timed v (time_plain this)).2 _ l hl
      · simp only [leaves, leavesOf_eq, first_self]
        rw [hsaid]
        exact ((h4.flatMap_right _).trans (by simp [Parent.new])).trans h5
  | spatial t name topo tel attrs kids ht hk hs ih =>
    intro p hp
    obtain ⟨d, ns, h1, h2, h3, h4, h5, h6, h7⟩ := kids_plain (first (own tel) t) kids ih (Parent.new false) (Fresh.new _)
      fun h => by cases h
    have hsaid : said t false none (.mk .spatial name topo none tel attrs kids) = kids.flatMap (said (first (own tel) t) false none) := by
      simp only [said, saidAt_eq (tel := none) (fun i => rfl)]
      exact flatMap_congr' fun k hk' => said_plain (hk k hk') _ _
    have hmem : ∀ n ∈ d.kids, ∃ el ∈ kids, Good (first (own tel) t) el n := fun n hn => h6 n (by simpa [Parent.new] using h4.mem_iff.1 hn)
    have hnoamr : d.kids.any Node.isAmr = false := by
      rw [List.any_eq_false]
      intro n hn
      obtain ⟨el, hel, hg⟩ := hmem n hn
      cases n with
      | amr a b c =>
        have := hg.amr a b c rfl
        obtain ⟨kind, b, c, d, e, f, g⟩ := el
        cases kind <;> simp only [isSpatial] at this <;> try cases this
        exact absurd rfl (hs _ hel b c d e f g)
      | _ => simp [Node.isAmr]
    have htm : ∀ v, first (own tel) t = some v → ∀ n ∈ d.kids, Timed v n := by
      intro v hv n hn
      obtain ⟨el, hel, hg⟩ := hmem n hn
      have := hk el hel
      rw [hv] at this hg
      exact hg.timed v (time_plain this)
    have hparse : ∀ n, toAmr name (first (own tel) t) d.kids = .ok n →
        parseGrid (some p) t (.mk .spatial name topo none tel attrs kids) =
        if d.kids = [] then .ok (some p, some (.group name none []))
        else .ok (some (p.add n), some n) := by
      intro n hn
      unfold parseGrid
      simp only [elemGeo_none hp, elemTime_plain hp ht, h1, hn]
      rfl
    have hgroup : InTime (.group name (first (own tel) t) d.kids) := .group _ _ _ fun n hn => by
      obtain ⟨el, _, hg⟩ := hmem n hn
      exact hg.inTime
    have hperm : (d.kids.flatMap (leaves (first (own tel) t))).Perm (kids.flatMap (said (first (own tel) t) false none)) :=
      ((h4.flatMap_right _).trans (by simp [Parent.new])).trans h5
    by_cases hd : d.kids = []
    · rw [hparse (.group name (first (own tel) t) d.kids) (by simp [toAmr, hd]), if_pos hd]
      refine ⟨_, rfl, .empty _ rfl (.group _ _ _ (by simp)) (fun _ => rfl) ?_⟩
      rw [hsaid]
      rw [hd] at hperm
      exact List.nil_perm.1 hperm
    · have hG : Good t (.mk .spatial name topo none tel attrs kids) (.group name (first (own tel) t) d.kids) := by
        refine ⟨by simp [Node.truthy, hd], hgroup, fun v hv => ⟨hv, fun u l hl => ?_⟩, ?_, fun _ _ _ h => by cases h⟩
        · simp only [leaves, leavesOf_eq, List.mem_flatMap] at hl
          obtain ⟨n, hn, hl⟩ := hl
          exact (htm v hv n hn).2 _ l hl
        · simp only [leaves, leavesOf_eq, first_self]
          rw [hsaid]
          exact hperm
      by_cases hl : d.kids.length ≤ 1
      · rw [hparse (.group name (first (own tel) t) d.kids) (by simp [toAmr, hl]), if_neg hd]
        exact ⟨_, rfl, .node _ hG⟩
      · by_cases hall : d.kids.all Node.isGrid
        · obtain ⟨k, ks, hks⟩ := List.exists_cons_of_ne_nil hd
          have hto : toAmr name (first (own tel) t) d.kids =
              .ok (.amr (match k.time with | some t => some t | none => first (own tel) t) (first (own tel) t) d.kids) := by
            unfold toAmr
            rw [if_neg hl, if_pos hall, hnoamr]
            rw [hks]
            rfl
          rw [hparse _ hto, if_neg hd]
          refine ⟨_, rfl, .node _ ⟨rfl, .amr _ _ _ ?_, fun v hv => ⟨?_, fun u l hl => ?_⟩, ?_, fun _ _ _ _ => rfl⟩⟩
          · intro n hn
            obtain ⟨el, _, hg⟩ := hmem n hn
            exact hg.inTime
          · have := (htm v hv k (by simp [hks])).1
            rw [← node_time] at this
            simp only [time, this]
          · simp only [leaves, leavesOf_eq, List.mem_flatMap] at hl
            obtain ⟨n, hn, hl⟩ := hl
            exact (htm v hv n hn).2 _ l hl
          · simp only [leaves, leavesOf_eq, first_self]
            rw [hsaid]
            exact hperm
        · rw [hparse (.group name (first (own tel) t) d.kids) (by simp [toAmr, hl, hall]), if_neg hd]
          exact ⟨_, rfl, .node _ hG⟩
  | ignored t name topo tel attrs kids ht =>
    intro p hp
    refine ⟨_, ?_, .nothing (by simp [said]) ⟨_, _, _, _, _, _, rfl⟩⟩
    unfold parseGrid
    simp [elemGeo_none hp, elemTime_plain hp ht]

/-- the Grids of the Domain -/
theorem domain_plain (els : List (Elem G)) (h : ∀ el ∈ els, Plain none el)
    (hi : ∀ el ∈ els, ∀ name topo geo tel attrs ks, el ≠ .mk .ignored name topo geo tel attrs ks) :
    ∀ p : Parent G, Fresh p → p.temporal = false → ∃ (p' : Parent G) (rs ns : List (Node G)), parseDomain p els = .ok (p', rs.map some) ∧ p'.kids = p.kids ++ ns ∧
      ((ns ++ rs.filter fun n => !n.truthy).flatMap (leaves none)).Perm (fileSaid els) ∧
      ∀ n ∈ ns ++ rs.filter (fun n => !n.truthy), InTime n := by
  induction els with
  | nil => intro p _ _; exact ⟨p, [], [], rfl, by simp, by simp [fileSaid], by simp⟩
  | cons el els ih =>
    intro p hp hT
    have ih' := ih (fun e he => h e (by simp [he])) (fun e he => hi e (by simp [he]))
    obtain ⟨r, hr, ho⟩ := parse_plain (h el (by simp)) p hp
    cases ho with
    | nothing _ hx =>
      obtain ⟨a, b, c, d, e, f, hx⟩ := hx
      exact absurd hx (hi el (by simp) a b c d e f)
    | empty n ht hin hl hs =>
      obtain ⟨p', rs, ns, h1, h2, h3, h4⟩ := ih' p hp hT
      refine ⟨p', n :: rs, ns, ?_, h2, ?_, ?_⟩
      · rw [parseDomain, hr]
        simp only [h1, List.map_cons]
      · rw [fileSaid, List.flatMap_cons, hs, List.nil_append]
        refine List.Perm.trans ?_ h3
        simp [ht, List.flatMap_append, hl]
      · intro m hm
        simp only [ht, List.filter_cons, Bool.not_false, if_true, List.mem_append, List.mem_cons] at hm
        rcases hm with hm | rfl | hm
        · exact h4 m (by simp [hm])
        · exact hin
        · exact h4 m (List.mem_append.2 (.inr hm))
    | node n hg =>
      have hadd : p.add n = { p with kids := p.kids ++ [n] } := by simp [Parent.add, hT]
      obtain ⟨p', rs, ns, h1, h2, h3, h4⟩ := ih' (p.add n) (hp.add n) (by rw [hadd]; exact hT)
      refine ⟨p', n :: rs, n :: ns, ?_, ?_, ?_, ?_⟩
      · rw [parseDomain, hr]
        simp only [h1, List.map_cons]
      · rw [h2, hadd]; simp
      · have : (n :: ns) ++ (n :: rs).filter (fun n => !n.truthy) = n :: (ns ++ rs.filter fun n => !n.truthy) := by
          simp [hg.truthy]
        rw [this, fileSaid, List.flatMap_cons, List.flatMap_cons]
        exact hg.perm.append h3
      · intro m hm
        simp only [List.filter_cons, hg.truthy, Bool.not_true, Bool.false_eq_true, if_false, List.cons_append, List.mem_cons] at hm
        rcases hm with rfl | hm
        · exact hg.inTime
        · exact h4 m hm

theorem addAll_some (kids rs : List (Node G)) : addAll kids (rs.map some) = .ok (kids ++ rs.filter fun n => !n.truthy) := by
  induction rs generalizing kids with
  | nil => simp [addAll]
  | cons r rs ih =>
    rw [List.map_cons, addAll, ih]
    cases h : r.truthy <;> simp [h]

end Viscid.Xdmf
