import Verif.Lemmas.Xdmf
/-!
# C148, C149: the grids of an XDMF file and their times
-/
namespace Viscid.Props
open Viscid.Xdmf Viscid.Spec.Xdmf

variable {G : Type}

/-- C148: the grids of a file are those it describes, each with its name, time, coordinates and fields. Missing: geometry and topology of
collections, grids without fields, spatial collections in spatial collections, times of C149. -/
theorem C148_read_partial (els : List (Elem G)) (h : ∀ el ∈ els, Plain none el)
    (hi : ∀ el ∈ els, ∀ name topo geo tel attrs ks, el ≠ .mk .ignored name topo geo tel attrs ks) :
    ∃ ns, parseFile els = .ok ns ∧ (fileLeaves ns).Perm (fileSaid els) := by
  obtain ⟨p', rs, ns, h1, h2, h3, h4⟩ := domain_plain els h hi (Parent.new false) (Fresh.new _) rfl
  refine ⟨p'.kids ++ rs.filter fun n => !n.truthy, ?_, ?_⟩
  · rw [parseFile, h1]; exact addAll_some _ _
  · rw [h2]; exact h3

/-- C149: as C148, and the children of every time series are in order, each filed under the time its grids have. Missing: times given as a list or
as start and step, times of elements within something that has a time, children of series without time. -/
theorem C149_times_partial (els : List (Elem G)) (h : ∀ el ∈ els, Plain none el)
    (hi : ∀ el ∈ els, ∀ name topo geo tel attrs ks, el ≠ .mk .ignored name topo geo tel attrs ks) :
    ∃ ns, parseFile els = .ok ns ∧ (∀ n ∈ ns, InTime n) ∧ ((fileLeaves ns).map Leaf.time).Perm ((fileSaid els).map Leaf.time) := by
  obtain ⟨p', rs, ns, h1, h2, h3, h4⟩ := domain_plain els h hi (Parent.new false) (Fresh.new _) rfl
  refine ⟨p'.kids ++ rs.filter fun n => !n.truthy, ?_, ?_, ?_⟩
  · rw [parseFile, h1]; exact addAll_some _ _
  · rw [h2]; exact h4
  · rw [h2]; exact h3.map _

/-- a series of two times, the later first, with two patches and one -/
def twoTimes : List (Elem Nat) :=
  [.mk .temporal "run" false none none [] [
    .mk .spatial "b" false none (some (.single (some 7))) [] [
      .mk .uniform "p0" true (some (.ok 10)) none ["rr"] [], .mk .uniform "p1" true (some (.ok 11)) none ["rr"] []],
    .mk .spatial "a" false none (some (.single (some 3))) [] [.mk .uniform "p2" true (some (.ok 12)) none ["rr", "pp"] []]]]

example : ∀ el ∈ twoTimes, Plain none el := by
  intro el hel
  rw [twoTimes, List.mem_singleton] at hel
  subst hel
  refine .temporal _ _ _ _ _ _ (.inl rfl) ?_ ?_
  · intro k hk
    simp only [List.mem_cons, List.not_mem_nil, or_false] at hk
    rcases hk with rfl | rfl
    · refine .spatial _ _ _ _ _ _ (.inr ⟨rfl, _, rfl⟩) ?_ ?_
      · intro k hk
        simp only [List.mem_cons, List.not_mem_nil, or_false] at hk
        rcases hk with rfl | rfl <;> exact .uniform _ _ _ _ _ _ (.inl rfl) (by simp)
      · intro k hk
        simp only [List.mem_cons, List.not_mem_nil, or_false] at hk
        rcases hk with rfl | rfl <;> simp
    · refine .spatial _ _ _ _ _ _ (.inr ⟨rfl, _, rfl⟩) ?_ ?_
      · intro k hk
        simp only [List.mem_cons, List.not_mem_nil, or_false] at hk
        subst hk
        exact .uniform _ _ _ _ _ _ (.inl rfl) (by simp)
      · intro k hk
        simp only [List.mem_cons, List.not_mem_nil, or_false] at hk
        subst hk
        simp
  · intro k hk
    simp only [List.mem_cons, List.not_mem_nil, or_false] at hk
    rcases hk with rfl | rfl <;> (intros; rename_i h; cases h; rfl)

/-- the grids read from a file, if it can be read -/
def found (els : List (Elem Nat)) : Option (List (Leaf Nat)) := match parseFile els with
  | .ok ns => some (fileLeaves ns)
  | .error _ => none

example : found twoTimes =
    some [⟨"p2", some 3, some 12, ["rr", "pp"]⟩, ⟨"p0", some 7, some 10, ["rr"]⟩, ⟨"p1", some 7, some 11, ["rr"]⟩] := by decide +kernel

/-! ## C148, what goes wrong -/

theorem dropped_kids (t : Option ℚ) (kids : List (Elem G))
    (hk : ∀ k ∈ kids, ∃ name attrs, k = .mk .uniform name false none none attrs []) :
    ∀ p : Parent G, p.kids = [] → parseGrid.parseKids (some p) t kids = .ok (some p) := by
  induction kids with
  | nil => intro p _; rfl
  | cons k ks ih =>
    intro p hp
    obtain ⟨name, attrs, rfl⟩ := hk k (by simp)
    rw [parseGrid.parseKids]
    have : parseGrid (some p) t (.mk .uniform name false none none attrs []) = .ok (some p, none) := by
      unfold parseGrid
      cases t <;> simp [elemGeo, elemTopo, elemTime, hp]
    rw [this]
    exact ih (fun k h => hk k (by simp [h])) p hp

/-- C148: a grid with a topology but no geometry at all is left out. -/
theorem C148_incomplete (name : String) (attrs : List String) (kids : List (Elem G)) (p : Parent G) (hp : p.geo = false) :
    parseGrid (some p) none (.mk .uniform name true none none attrs kids) = .ok (some p, none) := by
  unfold parseGrid
  simp only [elemGeo, elemTopo, elemTime, hp]
  cases p.kids <;> rfl

/-- C148: grids that leave topology and geometry to the spatial collection they are in are described by the file, but none is read. -/
theorem C148_shared_violated (name : String) (c : G) (attrs : List String) (kids : List (Elem G))
    (hk : ∀ k ∈ kids, ∃ name attrs, k = .mk .uniform name false none none attrs []) :
    (fileSaid [.mk .spatial name true (some (.ok c)) none attrs kids]).length = kids.length ∧
    parseFile [.mk .spatial name true (some (.ok c)) none attrs kids] = .ok [.group name none []] := by
  constructor
  · have : ∀ i, (said.saidAt none i none true (some c) kids).length = kids.length := by
      induction kids with
      | nil => intro i; rfl
      | cons k ks ih =>
        intro i
        obtain ⟨name, attrs, rfl⟩ := hk k (by simp)
        rw [said.saidAt, List.length_append, ih (fun k h => hk k (by simp [h])), List.length_cons]
        simp [said]
        omega
    simpa [fileSaid, said, first, own] using this 0
  · have : parseGrid (some (Parent.new false)) none (.mk .spatial name true (some (.ok c)) none attrs kids) =
        .ok (some (Parent.new false), some (.group name none [])) := by
      unfold parseGrid
      simp only [elemTopo, elemGeo, elemTime, Bool.true_or, if_true, dropped_kids _ kids hk (Parent.new false) rfl]
      rfl
    simp only [parseFile, parseDomain, this, addAll]
    rfl

example : ∀ k ∈ [Elem.mk Kind.uniform "p0" false none none ["rr"] [], Elem.mk (G := Nat) Kind.uniform "p1" false none none ["rr"] []],
    ∃ name attrs, k = .mk .uniform name false none none attrs [] := by
  intro k hk
  simp only [List.mem_cons, List.not_mem_nil, or_false] at hk
  rcases hk with rfl | rfl <;> exact ⟨_, _, rfl⟩

/-- C148: if such a collection has a grid with a geometry of its own, the file cannot be read at all. -/
theorem C148_both_violated (temporal : Bool) (name name' : String) (c c' : G) (a : String) (attrs attrs' : List String) :
    parseFile [.mk (if temporal then .temporal else .spatial) name true (some (.ok c)) none attrs
      [.mk .uniform name' true (some (.ok c')) none (a :: attrs') []]] = .error .attribute := by
  cases temporal
  · simp [parseFile, parseDomain, parseGrid, parseGrid.parseKids, elemTopo, elemGeo, elemTime, Parent.new, give, Parent.add]
  · simp [parseFile, parseDomain, parseGrid, parseGrid.parseKids, elemTopo, elemGeo, elemTime, Parent.new, give, Parent.add, timesOf,
      insertLate, Node.time, Node.setTime]

/-- C148: a Tree, Subset or unknown grid that is said to be ignored makes the file fail if it is in the Domain, however many other grids there are -/
theorem C148_ignored_violated (els : List (Elem G)) (h : ∀ el ∈ els, Plain none el)
    (hi : ∃ el ∈ els, ∃ name topo geo tel attrs ks, el = .mk .ignored name topo geo tel attrs ks) : parseFile els = .error .attribute := by
  have : ∀ (p : Parent G), Fresh p → p.temporal = false → ∃ p' rs, parseDomain p els = .ok (p', rs) ∧ none ∈ rs := by
    induction els with
    | nil => obtain ⟨el, hel, _⟩ := hi; cases hel
    | cons el els ih =>
      intro p hp hT
      have hrest : ∀ (els : List (Elem G)), (∀ el ∈ els, Plain none el) → ∀ p : Parent G, Fresh p → ∃ p' rs, parseDomain p els = .ok (p', rs) := by
        intro els
        induction els with
        | nil => intro _ p _; exact ⟨p, [], rfl⟩
        | cons e es ih =>
          intro h p hp
          obtain ⟨r, hr, ho⟩ := parse_plain (h e (by simp)) p hp
          have hf : ∃ q s, r = (some q, s) ∧ Fresh q := by
            cases ho with
            | nothing => exact ⟨_, _, rfl, hp⟩
            | empty => exact ⟨_, _, rfl, hp⟩
            | node n => exact ⟨_, _, rfl, hp.add n⟩
          obtain ⟨q, s, rfl, hq⟩ := hf
          obtain ⟨p', rs, h1⟩ := ih (fun e he => h e (by simp [he])) q hq
          exact ⟨p', s :: rs, by rw [parseDomain, hr]; simp only [h1]⟩
      obtain ⟨r, hr, ho⟩ := parse_plain (h el (by simp)) p hp
      have hf : ∃ q s, r = (some q, s) ∧ Fresh q ∧ q.temporal = false ∧
          ((∃ name topo geo tel attrs ks, el = .mk .ignored name topo geo tel attrs ks) → s = none) := by
        cases ho with
        | nothing => exact ⟨_, _, rfl, hp, hT, fun _ => rfl⟩
        | empty n =>
          refine ⟨_, _, rfl, hp, hT, ?_⟩
          rintro ⟨a, b, c, d, e, f, rfl⟩
          have hpl := h _ (List.mem_cons_self ..)
          cases hpl
          unfold parseGrid at hr
          rename_i ht
          simp [elemGeo_none hp, elemTime_plain hp ht] at hr
        | node n =>
          refine ⟨_, _, rfl, hp.add n, ?_, ?_⟩
          · unfold Parent.add; simp [hT]
          rintro ⟨a, b, c, d, e, f, rfl⟩
          have hpl := h _ (List.mem_cons_self ..)
          cases hpl
          unfold parseGrid at hr
          rename_i ht
          simp [elemGeo_none hp, elemTime_plain hp ht] at hr
      obtain ⟨q, s, rfl, hq, hqT, hs⟩ := hf
      obtain ⟨e, he, hx⟩ := hi
      rcases List.mem_cons.1 he with rfl | he
      · obtain ⟨p', rs, h1⟩ := hrest els (fun e he => h e (by simp [he])) q hq
        refine ⟨p', s :: rs, by rw [parseDomain, hr]; simp only [h1], ?_⟩
        rw [hs hx]
        simp
      · obtain ⟨p', rs, h1, h2⟩ := ih (fun e he => h e (by simp [he])) ⟨e, he, hx⟩ q hq hqT
        exact ⟨p', s :: rs, by rw [parseDomain, hr]; simp only [h1], by simp [h2]⟩
  obtain ⟨p', rs, h1, h2⟩ := this _ (Fresh.new false) rfl
  rw [parseFile, h1]
  have : ∀ (kids : List (Node G)) (rs : List (Option (Node G))), none ∈ rs → addAll kids rs = .error .attribute := by
    intro kids rs hn
    induction rs generalizing kids with
    | nil => cases hn
    | cons r rs ih =>
      cases r with
      | none => rfl
      | some n =>
        rw [addAll]
        exact ih _ (by simpa using hn)
  exact this _ _ h2

/-- C148: a collection of another type than Temporal and Spatial is always an exception -/
theorem C148_collection_violated (name : String) (topo : Bool) (geo : Option (Except Exc G)) (tel : Option TimeEl) (attrs : List String)
    (kids : List (Elem G)) : ∃ e, parseFile [.mk .collection name topo geo tel attrs kids] = .error e := by
  have : ∃ e, parseGrid (some (Parent.new false)) none (.mk .collection name topo geo tel attrs kids) = .error e := by
    unfold parseGrid
    dsimp only
    cases elemGeo (some (Parent.new false)) (elemTopo (some (Parent.new false)) topo) geo with
    | error e => exact ⟨e, rfl⟩
    | ok r =>
      dsimp only
      cases elemTime (some (Parent.new (G := G) false)) none tel with
      | error e => exact ⟨e, rfl⟩
      | ok t =>
        dsimp only
        cases parseGrid.parseKids none t kids with
        | error e => exact ⟨e, rfl⟩
        | ok _ => exact ⟨_, rfl⟩
  obtain ⟨e, he⟩ := this
  exact ⟨e, by simp only [parseFile, parseDomain, he]⟩

/-- C148: a geometry without topology is a TypeError, wherever the grid is -/
theorem C148_topology (p : Option (Parent G)) (hp : ∀ q, p = some q → q.topo = false) (t : Option ℚ) (kind : Kind) (name : String)
    (geo : Except Exc G) (tel : Option TimeEl) (attrs : List String) (kids : List (Elem G)) :
    parseGrid p t (.mk kind name false (some geo) tel attrs kids) = .error .type := by
  have : elemTopo p false = false := by
    cases p with
    | none => rfl
    | some q => simp [elemTopo, hp q rfl]
  unfold parseGrid
  simp [this, elemGeo]

/-- C148: a grid without fields is lost if it is in a collection; in the Domain it has neither its coordinates nor its time. -/
theorem C148_nofields_violated (name name' : String) (c : G) (v : ℚ) :
    (fileSaid [.mk .spatial name false none none [] [.mk .uniform name' true (some (.ok c)) (some (.single (some v))) [] []]] =
      [⟨name', some v, some c, []⟩]) ∧
    parseFile [.mk .spatial name false none none [] [.mk .uniform name' true (some (.ok c)) (some (.single (some v))) [] []]] =
      .ok [.group name none []] ∧
    parseFile [.mk .uniform name' true (some (.ok c)) (some (.single (some v))) [] []] = .ok [.grid name' none none []] := by
  refine ⟨?_, ?_, ?_⟩
  · simp [fileSaid, said, said.saidAt, first, own]
  · simp [parseFile, parseDomain, parseGrid, parseGrid.parseKids, elemTopo, elemGeo, elemTime, Parent.new, parseTime, addAll, Node.truthy]
  · simp [parseFile, parseDomain, parseGrid, elemTopo, elemGeo, elemTime, Parent.new, parseTime, addAll, Node.truthy]

/-- C148: spatial collections in a spatial collection, with more than one grid each, cannot be read. -/
theorem C148_nested_violated (c c' d d' : G) :
    parseFile [.mk .spatial "all" false none none [] [
      .mk .spatial "a" false none none [] [.mk .uniform "p0" true (some (.ok c)) none ["rr"] [], .mk .uniform "p1" true (some (.ok c')) none ["rr"] []],
      .mk .spatial "b" false none none [] [.mk .uniform "p2" true (some (.ok d)) none ["rr"] [], .mk .uniform "p3" true (some (.ok d')) none ["rr"] []]]]
      = .error .attribute := by
  simp [parseFile, parseDomain, parseGrid, parseGrid.parseKids, elemTopo, elemGeo, elemTime, Parent.new, give, Parent.add, toAmr, Node.isGrid,
    Node.isAmr]

/-! ## C149, what goes wrong -/

/-- C149: the times a temporal collection gives its grids, by list or by start and step, are never used. -/
theorem C149_list_violated (p : Option (Parent G)) (t : Option ℚ) (name : String) (topo : Bool) (geo : Option (Except Exc G)) (ts : List ℚ)
    (a b : ℚ) (n : Nat) (attrs : List String) (kids : List (Elem G)) :
    parseGrid p t (.mk .temporal name topo geo (some (.list ts)) attrs kids) = parseGrid p t (.mk .temporal name topo geo none attrs kids) ∧
    parseGrid p t (.mk .temporal name topo geo (some (.hyperslab a b n)) attrs kids) =
      parseGrid p t (.mk .temporal name topo geo none attrs kids) := by
  constructor
  · unfold parseGrid
    have : elemTime p t (some (.list ts)) = elemTime p t none := by cases t <;> rfl
    simp only [this]
    rfl
  · unfold parseGrid
    have : elemTime p t (some (.hyperslab a b n)) = elemTime p t none := by cases t <;> rfl
    simp only [this]
    rfl

/-- Two grids at times 1 and 2 by such a list: both are at time 0. -/
theorem C149_list_zero_violated :
    let f : List (Elem Nat) := [.mk .temporal "run" false none (some (.list [1, 2])) [] [
      .mk .uniform "a" true (some (.ok 0)) none ["rr"] [], .mk .uniform "b" true (some (.ok 0)) none ["rr"] []]]
    fileSaid f = [⟨"a", some 1, some 0, ["rr"]⟩, ⟨"b", some 2, some 0, ["rr"]⟩] ∧
      found f = some [⟨"a", some 0, some 0, ["rr"]⟩, ⟨"b", some 0, some 0, ["rr"]⟩] := by decide +kernel

/-- C149: within a collection that has a time, the time of a grid, whatever it is, is never looked at. -/
theorem C149_inner_violated (p : Option (Parent G)) (t : ℚ) (kind : Kind) (hk : kind ≠ .temporal) (name : String) (topo : Bool)
    (geo : Option (Except Exc G)) (tel : TimeEl) (attrs : List String) (kids : List (Elem G)) :
    parseGrid p (some t) (.mk kind name topo geo (some tel) attrs kids) = parseGrid p (some t) (.mk kind name topo geo none attrs kids) := by
  unfold parseGrid
  have : elemTime p (some t) (some tel) = elemTime p (some t) none := rfl
  simp only [this]
  cases kind
  case temporal => exact absurd rfl hk
  all_goals rfl

/-- A grid at time 2 in a collection at time 1 is at time 1. -/
theorem C149_inner_one_violated :
    let f : List (Elem Nat) := [.mk .spatial "all" false none (some (.single (some 1))) [] [
      .mk .uniform "a" true (some (.ok 0)) (some (.single (some 2))) ["rr"] []]]
    fileSaid f = [⟨"a", some 2, some 0, ["rr"]⟩] ∧ found f = some [⟨"a", some 1, some 0, ["rr"]⟩] := by decide +kernel

/-- the times of the children of the first time series of a file -/
def seriesTimes (els : List (Elem Nat)) : Option (List (Option ℚ)) := match parseFile els with
  | .ok (.series _ _ kids :: _) => some (kids.map time)
  | _ => none

/-- C149: a snapshot of one patch, whose time is that of the patch, is filed at time 0; one of two patches at the time of the first patch. -/
theorem C149_patch_violated :
    let one (v : ℚ) : Elem Nat := .mk .uniform "p" true (some (.ok 0)) (some (.single (some v))) ["rr"] []
    seriesTimes [.mk .temporal "run" false none none [] [.mk .spatial "a" false none none [] [one 5]]] = some [some 0] ∧
    seriesTimes [.mk .temporal "run" false none none [] [.mk .spatial "a" false none none [] [one 5, one 6]]] = some [some 5] := by
  decide +kernel

/-- C149: a run without time in a series of runs is filed at time 0, whatever the times in it. -/
theorem C149_run_violated :
    let one (v : ℚ) : Elem Nat := .mk .uniform "p" true (some (.ok 0)) (some (.single (some v))) ["rr"] []
    seriesTimes [.mk .temporal "runs" false none none [] [.mk .temporal "a" false none none [] [one 5, one 6]]] = some [some 0] := by
  decide +kernel

/-- C149: a range of times is refused, and a Type that does not exist or a single time without number is a TypeError, if the grid has no time from
the collection it is in and no geometry. -/
theorem C149_refused (p : Parent G) (hp : p.geo = false) (kind : Kind) (name : String) (topo : Bool) (attrs : List String) (kids : List (Elem G)) :
    parseGrid (some p) none (.mk kind name topo none (some .range) attrs kids) = .error .notImplemented ∧
    parseGrid (some p) none (.mk kind name topo none (some .other) attrs kids) = .error .type ∧
    parseGrid (some p) none (.mk kind name topo none (some (.single none)) attrs kids) = .error .type := by
  refine ⟨?_, ?_, ?_⟩ <;> unfold parseGrid <;> simp [elemGeo, hp, elemTime, parseTime]

/-- C149: in a collection with a time the same elements of a temporal collection are refused, those of other grids are not. -/
theorem C149_refused_series (p : Parent G) (hp : p.geo = false) (t : ℚ) (name : String) (topo : Bool) (attrs : List String) (kids : List (Elem G)) :
    parseGrid (some p) (some t) (.mk .temporal name topo none (some .range) attrs kids) = .error .notImplemented ∧
    parseGrid (some p) (some t) (.mk .temporal name topo none (some .other) attrs kids) = .error .type := by
  refine ⟨?_, ?_⟩ <;> unfold parseGrid <;> simp [elemGeo, hp, elemTime, parseTime, timesOf]

end Viscid.Props
