import Verif.Lemmas.Tree
/-!
# C08 metadata lookup, C09 attribute lookup, C60 setting the time

`FiniteFrom parents self univ` says the objects reachable from `self` are among the list `univ`
(always true of a running program); `univ` may contain cycles.  The fuel bound is the number of
objects plus one; the theorems show that the `while` loop ends within it.
-/
namespace Viscid.Tree
open Viscid Viscid.Spec.Tree
variable {N Key Val : Type} [DecidableEq N] [DecidableEq Key]

/-- C08: `find_info` returns the value held by the first owner in breadth-first order; if nobody
reachable owns the key it returns the default or raises KeyError.  It always terminates. -/
theorem C08_find_info (parents : N → List N) (info : N → Dict Key Val) (self : N) (univ : List N)
    (hfin : FiniteFrom parents self univ) (fuel : Nat) (hfuel : univ.length + 1 ≤ fuel)
    (key : Key) (default : Option Val) :
    (∃ n v, FirstInBfs parents (fun m => ((info m).get? key).isSome) self n ∧
        (info n).get? key = some v ∧ findInfo parents info fuel self key default = .ok v) ∨
    ((∀ d, ∀ m ∈ level parents self d, (info m).get? key = none) ∧
        findInfo parents info fuel self key default =
          match default with
          | some d => .ok d
          | none => .error .keyError) := by
  rcases parentBfs_spec parents (hasInfo info key) self univ hfin fuel hfuel with ⟨n, h1, h2⟩ | ⟨h1, h2⟩
  · left
    have hn : hasInfo info key n = true := by
      obtain ⟨d, hd, _⟩ := h2
      exact List.find?_some hd
    unfold hasInfo at hn
    obtain ⟨v, hv⟩ := Option.isSome_iff_exists.mp hn
    refine ⟨n, v, h2, hv, ?_⟩
    unfold findInfo findInfoOwner
    simp only [h1, hv]
  · right
    refine ⟨?_, ?_⟩
    · intro d m hm
      have := h2 d m hm
      unfold hasInfo at this
      simpa using this
    · unfold findInfo findInfoOwner
      simp only [h1]
      cases default <;> rfl

/-- C08: no owner is strictly nearer (fewer parent links away) than the one found. -/
theorem C08_nearest (parents : N → List N) (p : N → Bool) (self n : N)
    (h : FirstInBfs parents p self n) :
    p n = true ∧ ∃ d, n ∈ level parents self d ∧ ∀ d' < d, ∀ m ∈ level parents self d', p m = false := by
  obtain ⟨d, hd, hlt⟩ := h
  exact ⟨List.find?_some hd, d, List.mem_of_find?_eq_some hd, hlt⟩

/-- C08: `get_all_info()[key]` is what `find_info(key)` returns, for every key, and a key is
missing from it exactly when `find_info` has nothing to return. -/
theorem C08_get_all_info (parents : N → List N) (info : N → Dict Key Val) (self : N) (univ : List N)
    (hfin : FiniteFrom parents self univ) (fuel : Nat) (hfuel : univ.length + 1 ≤ fuel) :
    ∃ all, getAllInfo parents info fuel self = some all ∧
      ∀ key, findInfo parents info fuel self key none =
        match all.get? key with
        | some v => .ok v
        | none => .error .keyError := by
  obtain ⟨vs, hvs, _, _⟩ := parentBfs_visits parents (fun _ => false) self univ hfin fuel hfuel
  refine ⟨_, by rw [getAllInfo, hvs]; rfl, ?_⟩
  intro key
  obtain ⟨vs', hvs', _, hb⟩ := parentBfs_visits parents (hasInfo info key) self univ hfin fuel hfuel
  have : vs' = vs := by rw [hvs] at hvs'; simpa using hvs'.symm
  subst this
  rw [foldl_mergeInfo_get]
  unfold findInfo findInfoOwner
  rw [hb]
  simp only [Dict.get?_nil]
  cases hf : vs'.find? (hasInfo info key) with
  | none => rfl
  | some n =>
    have hn := List.find?_some hf
    unfold hasInfo at hn
    obtain ⟨v, hv⟩ := Option.isSome_iff_exists.mp hn
    simp only [hv]

/-- C08: `update_info(key, v, fallback=False)` is a KeyError exactly if nobody reachable owns the key, and else does the same as with fallback. -/
theorem C08_update_strict (parents : N → List N) (info : N → Dict Key Val) (self : N) (univ : List N)
    (hfin : FiniteFrom parents self univ) (fuel : Nat) (hfuel : univ.length + 1 ≤ fuel) (key : Key) (v : Val) :
    ((∀ d, ∀ m ∈ level parents self d, (info m).get? key = none) → updateInfo parents info fuel self key v false = .error .keyError) ∧
    ((∃ d, ∃ m ∈ level parents self d, (info m).get? key ≠ none) →
      updateInfo parents info fuel self key v false = updateInfo parents info fuel self key v true) := by
  rcases parentBfs_spec parents (hasInfo info key) self univ hfin fuel hfuel with ⟨n, h1, d, hd, _⟩ | ⟨h1, h2⟩
  · constructor
    · intro h
      have hn : hasInfo info key n = true := List.find?_some hd
      have := h d n (List.mem_of_find?_eq_some hd)
      unfold hasInfo at hn
      rw [this] at hn
      cases hn
    · intro _
      unfold updateInfo findInfoOwner; simp only [h1]
  · constructor
    · intro _
      unfold updateInfo findInfoOwner; simp only [h1, Bool.false_eq_true, if_false]
    · rintro ⟨d, m, hm, hne⟩
      have := h2 d m hm
      unfold hasInfo at this
      exact absurd (by simpa using this) hne

/-- C08: `update_info(key, v)` (with fallback) changes exactly one entry: `key` of the nearest owner,
or of the node itself if nobody reachable owns it; afterwards `find_info(key)` returns `v`. -/
theorem C08_update_info (parents : N → List N) (info : N → Dict Key Val) (self : N) (univ : List N)
    (hfin : FiniteFrom parents self univ) (fuel : Nat) (hfuel : univ.length + 1 ≤ fuel)
    (key : Key) (v : Val) :
    ∃ info' owner, updateInfo parents info fuel self key v true = .ok info' ∧
      (FirstInBfs parents (fun m => ((info m).get? key).isSome) self owner ∨
        owner = self ∧ ∀ d, ∀ m ∈ level parents self d, (info m).get? key = none) ∧
      (∀ default, findInfo parents info' fuel self key default = .ok v) ∧
      ∀ n k, (info' n).get? k = if n = owner ∧ k = key then some v else (info n).get? k := by
  have hset : ∀ (n : N) m k, ((setInfo info n key v) m).get? k =
      if m = n ∧ k = key then some v else (info m).get? k := by
    intro n m k
    unfold setInfo
    by_cases hm : m = n
    · subst hm
      simp only [if_true, true_and, Dict.get?_set]
    · simp [hm]
  rcases parentBfs_spec parents (hasInfo info key) self univ hfin fuel hfuel with ⟨n, h1, h2⟩ | ⟨h1, h2⟩
  · refine ⟨setInfo info n key v, n, ?_, Or.inl h2, ?_, fun m k => hset n m k⟩
    · unfold updateInfo findInfoOwner; simp only [h1]
    · intro default
      have hn : hasInfo info key n = true := by
        obtain ⟨d, hd, _⟩ := h2
        exact List.find?_some hd
      have he : hasInfo (setInfo info n key v) key = hasInfo info key := by
        funext m
        unfold hasInfo
        rw [hset]
        by_cases hm : m = n
        · subst hm
          unfold hasInfo at hn
          simp [hn]
        · simp [hm]
      unfold findInfo findInfoOwner
      simp only [he, h1, hset, and_self, if_true]
  · refine ⟨setInfo info self key v, self, ?_, Or.inr ⟨rfl, ?_⟩, ?_, fun m k => hset self m k⟩
    · unfold updateInfo findInfoOwner; simp only [h1, if_true]
    · intro d m hm
      have := h2 d m hm
      unfold hasInfo at this
      simpa using this
    · intro default
      have hs : hasInfo (setInfo info self key v) key self = true := by
        unfold hasInfo; rw [hset]; simp
      unfold findInfo findInfoOwner parentBfs
      simp only [hs, if_true, hset, and_self]

/-! Non-vacuity: a cyclic graph with a diamond; node 4 owns the key two links away. -/
def exParents : Nat → List Nat
  | 0 => [1, 2]
  | 1 => [3, 0]
  | 2 => [4]
  | 3 => [2]
  | 4 => [0]
  | _ => []
def exInfo : Nat → Dict Nat Nat
  | 3 => [(7, 30)]
  | 4 => [(7, 40), (8, 80)]
  | _ => []
example : FiniteFrom exParents 0 [0, 1, 2, 3, 4] := by
  constructor <;> decide
example : findInfo exParents exInfo 6 0 7 none = .ok 30 := by decide
example : findInfo exParents exInfo 6 0 8 none = .ok 80 := by decide
example : findInfo exParents exInfo 6 0 9 (some 5) = .ok 5 := by decide
example : getAllInfo exParents exInfo 6 0 = some [(7, 30), (8, 80)] := by decide

/-- The full statement of C09 for one node: the attribute of the nearest owner, else the default,
else AttributeError. -/
def C09Statement (find : N → Option Val → Except Err Val) (parents : N → List N) (attr : N → Option Val)
    (self : N) : Prop :=
  ∀ default,
    (∀ n v, FirstInBfs parents (fun m => (attr m).isSome) self n → attr n = some v →
      find self default = .ok v) ∧
    ((∀ d, ∀ m ∈ level parents self d, attr m = none) →
      find self default = match default with
        | some d => .ok d
        | none => .error .attributeError)

/-- C09 is false: whenever some reachable node has the attribute, `find_attr` raises NameError
instead of returning it, whatever the default. -/
theorem C09_find_attr_violated (parents : N → List N) (attr : N → Option Val) (self : N)
    (univ : List N) (hfin : FiniteFrom parents self univ) (fuel : Nat) (hfuel : univ.length + 1 ≤ fuel)
    (d : Nat) (m : N) (hm : m ∈ level parents self d) (hattr : (attr m).isSome = true)
    (default : Option Val) :
    findAttr parents (fun n => (attr n).isSome) fuel self default = .error .nameError := by
  rcases parentBfs_spec parents (fun n => (attr n).isSome) self univ hfin fuel hfuel with ⟨n, h1, h2⟩ | ⟨h1, h2⟩
  · unfold findAttr; simp only [h1]
  · have := h2 d m hm
    rw [hattr] at this; cases this

/-- C09 is false: concrete witness, a node that itself has the attribute. -/
theorem C09_statement_violated :
    ¬ C09Statement (findAttr (Val := Nat) exParents (fun n => ((fun _ => some n : Nat → Option Nat) n).isSome) 6)
      exParents (fun n => some n) 0 := by
  intro h
  have := (h none).1 0 0 ⟨0, by simp [level], by omega⟩ rfl
  exact absurd this (by decide)

/-- C09, the part that holds: if no reachable node has the attribute, the default is returned,
or AttributeError raised without one. -/
theorem C09_find_attr_partial (parents : N → List N) (attr : N → Option Val) (self : N)
    (univ : List N) (hfin : FiniteFrom parents self univ) (fuel : Nat) (hfuel : univ.length + 1 ≤ fuel)
    (hno : ∀ d, ∀ m ∈ level parents self d, attr m = none) (default : Option Val) :
    findAttr parents (fun n => (attr n).isSome) fuel self default =
      match default with
      | some d => .ok d
      | none => .error .attributeError := by
  rcases parentBfs_spec parents (fun n => (attr n).isSome) self univ hfin fuel hfuel with ⟨n, h1, h2⟩ | ⟨h1, h2⟩
  · obtain ⟨d, hd, _⟩ := h2
    have := List.find?_some hd
    have hn := hno d n (List.mem_of_find?_eq_some hd)
    simp [hn] at this
  · unfold findAttr; simp only [h1]
    cases default <;> rfl

example : ∀ d, ∀ m ∈ level exParents 5 d, (fun n : Nat => if n < 5 then some n else none) m = none := by
  intro d
  cases d with
  | zero => simp [level]
  | succ d =>
    have : ∀ d, level exParents 5 (d + 1) = [] := by
      intro d; induction d with
      | zero => rfl
      | succ d ih => rw [level, ih]; rfl
    rw [this]; simp

/-- C60 is false: assigning a datetime or a timedelta to `node.time` stores nothing. -/
theorem C60_set_time_violated (basetime t : Int) (stored : Option Int) :
    setTime (some basetime) stored (.datetime t) = .ok stored ∧
    setTime (some basetime) stored (.timedelta t) = .ok stored := ⟨rfl, rfl⟩

/-- C60 witness: after `node.time = timedelta(5 s)` on a node whose time was 3 s, it is still 3 s. -/
theorem C60_set_time_witness :
    ¬ ∀ (b : Int) (stored : Option Int) (t : Int), setTime (some b) stored (.timedelta t) = .ok (some t) := by
  intro h
  exact absurd (h 0 (some 3) 5) (by decide)

/-- C60, the part that holds: plain numbers are stored; `None` leaves the time unchanged. -/
theorem C60_set_time_partial (basetime : Option Int) (stored : Option Int) (t : Int) :
    setTime basetime stored (.number t) = .ok (some t) ∧ setTime basetime stored .none = .ok stored :=
  ⟨rfl, rfl⟩

end Viscid.Tree
