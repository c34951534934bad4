import Verif.Spec.Resolve
/-!
# C130 globbed paths
-/
namespace Viscid.Props
open Viscid.Resolve Viscid.Spec.Resolve

/-! ### parts -/

theorem rjoin_eq (ps : List Key) : join ps = ['/'].intercalate ps := by
  induction ps with
  | nil => rfl
  | cons p ps ih =>
    cases ps with
    | nil => simp [join, List.intercalate]
    | cons q qs =>
      rw [join, ih]
      · simp [List.intercalate]
      · simp

theorem rsplit_nonempty (s : List Char) : split s ≠ [] := by
  cases s with
  | nil => simp [split]
  | cons c s =>
    unfold split
    split
    · simp
    · split <;> simp

theorem rjoin_split (s : List Char) : join (split s) = s := by
  induction s with
  | nil => rfl
  | cons c s ih =>
    have hne := rsplit_nonempty s
    unfold split
    split
    · rename_i h
      subst h
      obtain ⟨p, ps, hp⟩ := List.exists_cons_of_ne_nil hne
      rw [hp] at ih ⊢
      simp only [join, List.nil_append, ih]
    · cases hp : split s with
      | nil => exact absurd hp hne
      | cons p ps =>
        rw [hp] at ih
        simp only
        cases ps with
        | nil => simpa [join] using ih
        | cons q qs => simpa [join] using ih

theorem rsplit_free (s : List Char) : ∀ p ∈ split s, '/' ∉ p := by
  induction s with
  | nil => simp [split]
  | cons c s ih =>
    unfold split
    split
    · simpa using ih
    · rename_i h
      split
      · simpa using fun h' => h h'.symm
      · rename_i p ps hp
        rw [hp] at ih
        intro q hq
        rcases List.mem_cons.mp hq with rfl | hq
        · simpa using ⟨fun h' => h h'.symm, ih p (by simp)⟩
        · exact ih q (by simp [hq])

theorem rsplit_head (p : Key) (s : List Char) (h : '/' ∉ p) : split (p ++ '/' :: s) = p :: split s := by
  induction p with
  | nil => simp [split]
  | cons c p ih =>
    have hc : c ≠ '/' := fun h' => h (by simp [h'])
    rw [List.cons_append, split, if_neg hc, ih (fun h' => h (by simp [h']))]

theorem rsplit_one (p : Key) (h : '/' ∉ p) : split p = [p] := by
  induction p with
  | nil => rfl
  | cons c p ih =>
    have hc : c ≠ '/' := fun h' => h (by simp [h'])
    rw [split, if_neg hc, ih (fun h' => h (by simp [h']))]

theorem rsplit_join (ps : List Key) (hne : ps ≠ []) (h : ∀ p ∈ ps, '/' ∉ p) : split (join ps) = ps := by
  induction ps with
  | nil => exact absurd rfl hne
  | cons p ps ih =>
    cases ps with
    | nil => exact rsplit_one p (h p (by simp))
    | cons q qs =>
      rw [join, rsplit_head p _ (h p (by simp)), ih (by simp) (fun x hx => h x (by simp [hx]))]
      simp

theorem dropSlash (s : List Char) : ∃ a, s = List.replicate a '/' ++ s.dropWhile (· = '/') ∧
    (s.dropWhile (· = '/')).head? ≠ some '/' := by
  induction s with
  | nil => exact ⟨0, by simp⟩
  | cons c s ih =>
    by_cases h : c = '/'
    · subst h
      obtain ⟨a, h1, h2⟩ := ih
      refine ⟨a + 1, ?_, by simpa using h2⟩
      rw [List.replicate_succ, List.cons_append]
      simpa using h1
    · exact ⟨0, by simp [h], by simp [h]⟩

theorem dropSlash_rep (a : Nat) (s : List Char) (h : s.head? ≠ some '/') :
    (List.replicate a '/' ++ s).dropWhile (· = '/') = s := by
  induction a with
  | zero =>
    cases s with
    | nil => rfl
    | cons c s =>
      have : c ≠ '/' := by simpa using h
      simp [this]
  | succ a ih => rw [List.replicate_succ, List.cons_append]; simpa using ih

theorem strip_unique (a b : Nat) (s : List Char) (h1 : s.head? ≠ some '/') (h2 : s.getLast? ≠ some '/') :
    strip (List.replicate a '/' ++ s ++ List.replicate b '/') = s := by
  unfold strip
  cases s with
  | nil =>
    have : List.replicate a '/' ++ [] ++ List.replicate b '/' = List.replicate (a + b) '/' ++ [] := by simp [List.append_nil]
    rw [this, dropSlash_rep _ _ (by simp)]
    simp
  | cons c s =>
    rw [List.append_assoc, dropSlash_rep a _ (by simpa using h1), List.reverse_append, List.reverse_replicate,
      dropSlash_rep b _ (by rw [List.head?_reverse]; exact h2), List.reverse_reverse]

theorem strip_form (s : List Char) : ∃ a b, s = List.replicate a '/' ++ strip s ++ List.replicate b '/' ∧
    (strip s).head? ≠ some '/' ∧ (strip s).getLast? ≠ some '/' := by
  obtain ⟨a, h1, h2⟩ := dropSlash s
  obtain ⟨b, h3, h4⟩ := dropSlash (s.dropWhile (· = '/')).reverse
  have h5 : s.dropWhile (· = '/') = strip s ++ List.replicate b '/' := by
    have := congrArg List.reverse h3
    rw [List.reverse_reverse, List.reverse_append, List.reverse_replicate] at this
    exact this
  refine ⟨a, b, by rw [List.append_assoc, ← h5]; exact h1, ?_, ?_⟩
  · intro h
    apply h2
    rw [h5]
    cases hs : strip s with
    | nil => rw [hs] at h; simp at h
    | cons c t => rw [hs] at h; simpa using h
  · unfold strip
    rw [List.getLast?_reverse]
    exact h4

/-- C130: a path is split into its parts, in one way only -/
theorem C130_parts (loc : List Char) (ps : List Key) : Parts loc ps ↔ ps = split (strip loc) := by
  constructor
  · rintro ⟨a, b, rfl, hne, hfree, hh, hl⟩
    rw [strip_unique a b _ hh hl, ← rjoin_eq, rsplit_join ps hne hfree]
  · rintro rfl
    obtain ⟨a, b, h1, h2, h3⟩ := strip_form loc
    refine ⟨a, b, ?_, rsplit_nonempty _, rsplit_free _, ?_, ?_⟩ <;> rw [← rjoin_eq, rjoin_split]
    · exact h1
    · exact h2
    · exact h3

example : Parts "//a*/b/".toList ["a*".toList, "b".toList] := (C130_parts _ _).mpr (by decide)

/-! ### what is found -/

theorem lookup_some (k : Key) (l : List (Key × Node)) (c : Node) :
    lookup k l = some c ↔ ∃ pre post, l = pre ++ (k, c) :: post ∧ ∀ kv ∈ pre, kv.1 ≠ k := by
  induction l with
  | nil => simp [lookup]
  | cons x l ih =>
    obtain ⟨k', n⟩ := x
    unfold lookup
    by_cases h : k' = k
    · subst h
      simp only [if_true, Option.some.injEq]
      constructor
      · rintro rfl; exact ⟨[], l, rfl, by simp⟩
      · rintro ⟨pre, post, h1, h2⟩
        cases pre with
        | nil => simp only [List.nil_append, List.cons.injEq, Prod.mk.injEq, true_and] at h1; exact h1.1
        | cons y pre =>
          simp only [List.cons_append, List.cons.injEq] at h1
          exact absurd (by rw [← h1.1]) (h2 y (by simp))
    · rw [if_neg h, ih]
      constructor
      · rintro ⟨pre, post, rfl, h2⟩
        exact ⟨(k', n) :: pre, post, rfl, by simpa using ⟨h, fun a b hab => h2 (a, b) hab⟩⟩
      · rintro ⟨pre, post, h1, h2⟩
        cases pre with
        | nil =>
          simp only [List.nil_append, List.cons.injEq, Prod.mk.injEq] at h1
          exact absurd h1.1.1 h
        | cons y pre =>
          simp only [List.cons_append, List.cons.injEq] at h1
          exact ⟨pre, post, h1.2, fun kv hkv => h2 kv (by simp [hkv])⟩

theorem lookup_none (k : Key) (l : List (Key × Node)) : lookup k l = none ↔ ∀ kv ∈ l, kv.1 ≠ k := by
  induction l with
  | nil => simp [lookup]
  | cons x l ih =>
    obtain ⟨k', n⟩ := x
    unfold lookup
    by_cases h : k' = k
    · simp [h]
    · rw [if_neg h, ih]; simp [h]

theorem step_below (glob : Key → Key → Bool) (n : Node) (p k : Key) (c : Node) :
    (k, c) ∈ step glob false n p ↔ Below glob n p k c := by
  unfold step
  cases hl : lookup p n.items with
  | some d =>
    obtain ⟨pre, post, h1, h2⟩ := (lookup_some p n.items d).mp hl
    simp only [List.mem_singleton, Prod.mk.injEq]
    cases n with
    | leaf v => simp [Node.items] at h1
    | group items attrs =>
      simp only [Node.items] at h1
      constructor
      · rintro ⟨rfl, rfl⟩; exact .exact h1 h2
      · intro h
        cases h with
        | exact g1 g2 =>
          have := (lookup_some p items c).mpr ⟨_, _, g1, g2⟩
          rw [Node.items, this] at hl
          exact ⟨rfl, by injection hl⟩
        | item g1 _ _ => exact absurd rfl (g1 (p, d) (by rw [h1]; simp))
        | attr g1 _ _ => exact absurd rfl (g1 (p, d) (by rw [h1]; simp))
  | none =>
    have hn := (lookup_none p n.items).mp hl
    simp only [Bool.false_eq_true, if_false, List.mem_filter, List.mem_append]
    cases n with
    | leaf v =>
      constructor
      · rintro ⟨h | h, _⟩ <;> simp [Node.items, Node.attrs] at h
      · intro h; cases h
    | group items attrs =>
      constructor
      · rintro ⟨h | h, hg⟩
        · exact .item hn h hg
        · exact .attr hn h hg
      · intro h
        cases h with
        | exact g1 g2 => exact absurd rfl (hn (p, c) (by rw [Node.items, g1]; simp))
        | item _ g2 g3 => exact ⟨.inl g2, g3⟩
        | attr _ g2 g3 => exact ⟨.inr g2, g3⟩

/-- the same, depth first -/
def dfs (glob : Key → Key → Bool) (first : Bool) : List Key → Node → List (Node × List Key)
  | [], n => [(n, [])]
  | p :: ps, n => (step glob first n p).flatMap fun kc => (dfs glob first ps kc.2).map fun vq => (vq.1, kc.1 :: vq.2)

theorem levels_dfs (glob : Key → Key → Bool) (first : Bool) (ps : List Key) (l : List (Node × List Key)) :
    levels glob first ps l = l.flatMap fun np => (dfs glob first ps np.1).map fun vq => (vq.1, np.2 ++ vq.2) := by
  induction ps generalizing l with
  | nil => simp [levels, dfs]
  | cons p ps ih =>
    rw [levels, ih, List.flatMap_assoc]
    rw [List.flatMap_def, List.flatMap_def]
    congr 1
    apply List.map_congr_left
    intro np _
    rw [dfs, List.map_flatMap, List.flatMap_map]
    rw [List.flatMap_def, List.flatMap_def]
    congr 1
    apply List.map_congr_left
    intro kc _
    rw [List.map_map]
    apply List.map_congr_left
    intro vq _
    simp

theorem levels_root (glob : Key → Key → Bool) (first : Bool) (ps : List Key) (n : Node) :
    levels glob first ps [(n, [])] = dfs glob first ps n := by
  rw [levels_dfs]
  simp

theorem dfs_reach (glob : Key → Key → Bool) (ps : List Key) (n : Node) (v : Node) (path : List Key) :
    (v, path) ∈ dfs glob false ps n ↔ Reach glob n ps path v := by
  induction ps generalizing n path with
  | nil =>
    simp only [dfs, List.mem_singleton, Prod.mk.injEq]
    constructor
    · rintro ⟨rfl, rfl⟩; exact .here
    · intro h; cases h; exact ⟨rfl, rfl⟩
  | cons p ps ih =>
    simp only [dfs, List.mem_flatMap, List.mem_map, Prod.mk.injEq, Prod.exists]
    constructor
    · rintro ⟨k, c, h1, v', q, h2, rfl, rfl⟩
      exact .deeper ((step_below glob n p k c).mp h1) ((ih c q).mp h2)
    · intro h
      cases h with
      | @deeper _ _ _ k q c _ h1 h2 => exact ⟨k, c, (step_below glob n p k c).mpr h1, v, q, (ih c q).mpr h2, rfl, rfl⟩

theorem step_sub (glob : Key → Key → Bool) (n : Node) (p : Key) : (step glob false n p).Sublist (n.items ++ n.attrs) := by
  unfold step
  cases hl : lookup p n.items with
  | some d =>
    obtain ⟨pre, post, h1, _⟩ := (lookup_some p n.items d).mp hl
    simp only [h1]
    rw [List.singleton_sublist]
    simp
  | none =>
    simp only [Bool.false_eq_true, if_false]
    exact List.filter_sublist

theorem sublist_two {α : Type} (l m : List α) (h : l.Sublist m) (l1 l2 l3 : List α) (a b : α) (e : l = l1 ++ a :: l2 ++ b :: l3) :
    ∃ m1 m2 m3, m = m1 ++ a :: m2 ++ b :: m3 := by
  have h2 : [a, b].Sublist m := by
    refine List.Sublist.trans ?_ h
    rw [e, List.append_assoc]
    refine List.Sublist.trans ?_ (List.sublist_append_right _ _)
    rw [List.cons_append]
    refine List.Sublist.cons_cons a ?_
    refine List.Sublist.trans ?_ (List.sublist_append_right _ _)
    exact List.Sublist.cons_cons b (List.nil_sublist _)
  obtain ⟨r1, r2, rfl, h3, h4⟩ := List.cons_sublist_iff.mp h2
  obtain ⟨s1, s2, rfl⟩ := List.append_of_mem h3
  obtain ⟨t1, t2, rfl⟩ := List.append_of_mem (List.singleton_sublist.mp h4)
  exact ⟨s1, s2 ++ t1, t2, by simp⟩

theorem dfs_order (glob : Key → Key → Bool) (ps : List Key) (n : Node) :
    (dfs glob false ps n).Pairwise fun a b => Before n a.2 b.2 := by
  induction ps generalizing n with
  | nil => simp [dfs]
  | cons p ps ih =>
    rw [dfs, List.pairwise_flatMap]
    constructor
    · rintro ⟨k, c⟩ hk
      rw [List.pairwise_map]
      refine (ih c).imp ?_
      intro a b hab
      exact .deeper ((step_sub glob n p).subset hk) hab
    · have hs := step_sub glob n p
      generalize step glob false n p = l at hs
      rw [List.pairwise_iff_forall_sublist]
      rintro ⟨k, c⟩ ⟨k', c'⟩ hab x hx y hy
      obtain ⟨x', _, rfl⟩ := List.mem_map.mp hx
      obtain ⟨y', _, rfl⟩ := List.mem_map.mp hy
      obtain ⟨m1, m2, m3, hm⟩ := sublist_two _ _ (hab.trans hs) [] [] [] (k, c) (k', c') rfl
      exact .here hm

theorem resolve_search (glob : Key → Key → Bool) (first : Bool) (items attrs : List (Key × Node)) (loc : List Char)
    (hk : ∀ kv ∈ items, kv.1 ≠ loc) :
    resolve glob first (.group items attrs) loc =
      (let r := dfs glob first (split (strip loc)) (.group items attrs)
       if r.isEmpty then .error .key else .ok ((if first then r.take 1 else r).map fun np => (np.1, join np.2))) := by
  unfold resolve
  dsimp only
  rw [(lookup_none loc items).mpr hk]
  simp only [levels_root]

/-- C130: everything whose path matches is found, in order, and nothing else; if there is no such thing, KeyError is raised. -/
theorem C130_all (glob : Key → Key → Bool) (items attrs : List (Key × Node)) (loc : List Char) (ps : List Key)
    (hk : ∀ kv ∈ items, kv.1 ≠ loc) (hp : Parts loc ps) :
    ((∃ path v, Reach glob (.group items attrs) ps path v) →
      ∃ l : List (Node × List Key), resolve glob false (.group items attrs) loc = .ok (l.map fun x => (x.1, ['/'].intercalate x.2)) ∧
        (∀ v path, (v, path) ∈ l ↔ Reach glob (.group items attrs) ps path v) ∧
        l.Pairwise fun a b => Before (.group items attrs) a.2 b.2) ∧
    ((¬ ∃ path v, Reach glob (.group items attrs) ps path v) → resolve glob false (.group items attrs) loc = .error .key) := by
  rw [resolve_search glob false items attrs loc hk, ← (C130_parts loc ps).mp hp]
  simp only [Bool.false_eq_true, if_false, rjoin_eq]
  constructor
  · rintro ⟨path, v, h⟩
    have hm := (dfs_reach glob ps (.group items attrs) v path).mpr h
    refine ⟨dfs glob false ps (.group items attrs), ?_, fun v path => dfs_reach glob ps _ v path, dfs_order glob ps _⟩
    rw [if_neg]
    intro he
    rw [List.isEmpty_iff.mp he] at hm
    simp at hm
  · intro h
    rw [if_pos]
    rw [List.isEmpty_iff, List.eq_nil_iff_forall_not_mem]
    rintro ⟨v, path⟩ hm
    exact h ⟨path, v, (dfs_reach glob ps _ v path).mp hm⟩

/-- C130: a whole path that is a name itself is for the thing of that name only -/
theorem C130_name (glob : Key → Key → Bool) (first : Bool) (pre post attrs : List (Key × Node)) (loc : List Char) (v : Node)
    (h : ∀ kv ∈ pre, kv.1 ≠ loc) : resolve glob first (.group (pre ++ (loc, v) :: post) attrs) loc = .ok [(v, loc)] := by
  unfold resolve
  dsimp only
  rw [(lookup_some loc _ v).mpr ⟨pre, post, rfl, h⟩]

theorem step_first (glob : Key → Key → Bool) (n : Node) (p : Key) : step glob true n p = (step glob false n p).take 1 := by
  unfold step
  cases lookup p n.items <;> simp

theorem dfs_first (glob : Key → Key → Bool) (ps : List Key) (n : Node) :
    dfs glob true ps n = [] ∨ ∃ x, dfs glob true ps n = [x] ∧ (dfs glob false ps n).head? = some x := by
  induction ps generalizing n with
  | nil => exact .inr ⟨(n, []), rfl, rfl⟩
  | cons p ps ih =>
    rw [dfs, dfs, step_first]
    cases step glob false n p with
    | nil => exact .inl (by simp)
    | cons kc l =>
      simp only [List.take_succ_cons, List.take_zero, List.flatMap_cons, List.flatMap_nil, List.append_nil]
      rcases ih kc.2 with h | ⟨x, h1, h2⟩
      · exact .inl (by simp [h])
      · refine .inr ⟨(x.1, kc.1 :: x.2), by simp [h1], ?_⟩
        rw [List.head?_append, List.head?_map, h2]
        rfl

/-- C130: the first match only, if there is one, is the first of all -/
theorem C130_first_partial (glob : Key → Key → Bool) (items attrs : List (Key × Node)) (loc : List Char)
    (r : List (Node × List Char)) (h : resolve glob true (.group items attrs) loc = .ok r) :
    ∃ x l, r = [x] ∧ resolve glob false (.group items attrs) loc = .ok (x :: l) := by
  by_cases hk : ∀ kv ∈ items, kv.1 ≠ loc
  · rw [resolve_search glob true items attrs loc hk] at h
    rw [resolve_search glob false items attrs loc hk]
    rcases dfs_first glob (split (strip loc)) (.group items attrs) with h0 | ⟨x, h1, h2⟩
    · simp [h0] at h
    · simp only [h1, List.isEmpty_cons, Bool.false_eq_true, if_false, if_true, List.take_succ_cons, List.take_zero, List.map_cons,
        List.map_nil, Except.ok.injEq] at h
      cases hd : dfs glob false (split (strip loc)) (.group items attrs) with
      | nil => rw [hd] at h2; simp at h2
      | cons y l =>
        rw [hd] at h2
        simp only [List.head?_cons, Option.some.injEq] at h2
        subst h2
        exact ⟨_, l.map fun np => (np.1, join np.2), h.symm, by simp⟩
  · have hs : ∃ v, lookup loc items = some v := by
      cases hl : lookup loc items with
      | none => exact absurd ((lookup_none loc items).mp hl) hk
      | some v => exact ⟨v, rfl⟩
    obtain ⟨v, hv⟩ := hs
    unfold resolve at h ⊢
    dsimp only at h ⊢
    rw [hv] at h ⊢
    injection h with h
    exact ⟨(v, loc), [], h.symm, rfl⟩

theorem dfs_at (glob : Key → Key → Bool) (first : Bool) (ps qs : List Key) (n m : Node) (h : At n ps m) :
    dfs glob first (ps ++ qs) n = (dfs glob first qs m).map fun vq => (vq.1, ps ++ vq.2) := by
  induction h with
  | here => simp
  | @deeper items attrs pre post p c ps m h1 h2 _ ih =>
    rw [List.cons_append, dfs]
    have : step glob first (.group items attrs) p = [(p, c)] := by
      unfold step
      rw [Node.items, (lookup_some p items c).mpr ⟨pre, post, h1, h2⟩]
    rw [this, List.flatMap_cons, List.flatMap_nil, List.append_nil, ih, List.map_map]
    apply List.map_congr_left
    intro x _
    simp

/-- C130: and there is one if anything matches, as long as only the last part of the path is not a name -/
theorem C130_last_partial (glob : Key → Key → Bool) (items attrs : List (Key × Node)) (loc : List Char) (ps : List Key) (p k : Key)
    (m v : Node) (hk : ∀ kv ∈ items, kv.1 ≠ loc) (hp : Parts loc (ps ++ [p])) (ha : At (.group items attrs) ps m)
    (hb : Below glob m p k v) : ∃ x, resolve glob true (.group items attrs) loc = .ok [x] := by
  rw [resolve_search glob true items attrs loc hk, ← (C130_parts loc _).mp hp, dfs_at glob true ps [p] _ m ha]
  have hs := (step_below glob m p k v).mpr hb
  obtain ⟨y, l, hy⟩ := List.exists_cons_of_ne_nil (List.ne_nil_of_mem hs)
  have hd : dfs glob true [p] m = [(y.2, [y.1])] := by simp [dfs, step_first, hy]
  simp [hd]

/-- a tree: {a: {x: 1}, b: {y: 2, z: 3}} -/
def exTree : Node := .group [(['a'], .group [(['x'], .leaf 1)] []), (['b'], .group [(['y'], .leaf 2), (['z'], .leaf 3)] [])] []

/-- a star only, for every name -/
def exGlob (p _ : Key) : Bool := p == ['*']

example : resolve exGlob false exTree "/*/y".toList = .ok [(.leaf 2, "b/y".toList)] ∧
    resolve exGlob true exTree "b/*".toList = .ok [(.leaf 2, "b/y".toList)] := ⟨rfl, rfl⟩

/-- C130 fails for the first match: only the first name that matches is looked into, even if there is nothing below it. -/
theorem C130_first_violated : ∃ (glob : Key → Key → Bool) (root : Node) (loc : List Char) (v : Node) (path : List Key) (ps : List Key),
    Parts loc ps ∧ Reach glob root ps path v ∧ resolve glob true root loc = .error .key := by
  refine ⟨exGlob, exTree, "*/y".toList, .leaf 2, [['b'], ['y']], [['*'], ['y']], (C130_parts _ _).mpr (by decide), ?_, rfl⟩
  rw [← dfs_reach]
  simp [dfs, step, lookup, exTree, Node.items, Node.attrs, exGlob]

end Viscid.Props
