import Verif.Model.Grid
import Verif.Spec.Grid
/-!
# Looking up fields on a grid (C56, C90, C91)
-/
namespace Viscid.Props
open Viscid.Grid Viscid.Spec.Grid

variable {F Sl : Type}

theorem isSpace_iff (c : Char) : isSpace c = true ↔ Blank c := by
  simp [isSpace, Blank, or_assoc]

theorem dropWhile_split (p : Char → Bool) (s : List Char) :
    ∃ a, s = a ++ s.dropWhile p ∧ (∀ c ∈ a, p c = true) ∧ ∀ c ∈ (s.dropWhile p).head?, p c = false := by
  induction s with
  | nil => exact ⟨[], by simp⟩
  | cons x s ih =>
    by_cases hx : p x = true
    · obtain ⟨a, h1, h2, h3⟩ := ih
      refine ⟨x :: a, ?_, ?_, ?_⟩
      · simp only [List.dropWhile_cons, hx, if_true, List.cons_append, ← h1]
      · intro c hc
        rcases List.mem_cons.1 hc with h | h
        · exact h ▸ hx
        · exact h2 c h
      · simpa [List.dropWhile_cons, hx] using h3
    · refine ⟨[], ?_, by simp, ?_⟩
      · simp [hx]
      · simp [hx]

theorem strip_trimmed (s : List Char) : Trimmed s (strip s) := by
  obtain ⟨a, h1, h2, h3⟩ := dropWhile_split isSpace s
  obtain ⟨b, k1, k2, k3⟩ := dropWhile_split isSpace (s.dropWhile isSpace).reverse
  have e : s.dropWhile isSpace = strip s ++ b.reverse := by
    have := congrArg List.reverse k1
    simpa [strip] using this
  refine ⟨a, b.reverse, ?_, ?_, ?_, ?_, ?_⟩
  · rw [List.append_assoc, ← e]; exact h1
  · exact fun c hc => (isSpace_iff c).1 (h2 c hc)
  · exact fun c hc => (isSpace_iff c).1 (k2 c (by simpa using hc))
  · intro c hc hb
    have : c ∈ (s.dropWhile isSpace).head? := by
      rw [e]
      cases hs : strip s with
      | nil => rw [hs] at hc; simp at hc
      | cons x t => rw [hs] at hc; simpa using hc
    have := h3 c this
    rw [(isSpace_iff c).2 hb] at this
    exact absurd this (by simp)
  · intro c hc hb
    have : c ∈ ((s.dropWhile isSpace).reverse.dropWhile isSpace).head? := by
      rw [strip, List.getLast?_reverse] at hc
      exact hc
    have := k3 c this
    rw [(isSpace_iff c).2 hb] at this
    exact absurd this (by simp)

/-- Trimming has one result. -/
theorem trimmed_unique (s t u : List Char) (h : Trimmed s t) (k : Trimmed s u) (hu : u = strip s) : t = u := by
  obtain ⟨a, b, h1, h2, h3, h4, h5⟩ := h
  subst hu
  have hd : s.dropWhile isSpace = t ++ b ∨ (t = [] ∧ s.dropWhile isSpace = []) := by
    have hall : ∀ a : List Char, (∀ c ∈ a, Blank c) → ∀ r, (a ++ r).dropWhile isSpace = r.dropWhile isSpace := by
      intro a
      induction a with
      | nil => intros; rfl
      | cons x a ih =>
        intro ha r
        have hx := (isSpace_iff x).2 (ha x (by simp))
        simp [hx, ih (fun c hc => ha c (by simp [hc]))]
    rw [h1, List.append_assoc, hall a h2]
    cases t with
    | nil =>
      right
      refine ⟨rfl, ?_⟩
      have := hall b h3 []
      simpa using this
    | cons x t =>
      left
      have : isSpace x = false := by
        cases hx : isSpace x with
        | false => rfl
        | true => exact absurd ((isSpace_iff x).1 hx) (h4 x (by simp))
      simp [this]
  rcases hd with hd | ⟨ht, hd⟩
  · have hall : ∀ a : List Char, (∀ c ∈ a, Blank c) → ∀ r, (a ++ r).dropWhile isSpace = r.dropWhile isSpace := by
      intro a
      induction a with
      | nil => intros; rfl
      | cons x a ih =>
        intro ha r
        have hx := (isSpace_iff x).2 (ha x (by simp))
        simp [hx, ih (fun c hc => ha c (by simp [hc]))]
    unfold strip
    rw [hd, List.reverse_append, hall _ (fun c hc => h3 c (by simpa using hc))]
    cases hr : t.reverse with
    | nil => simpa using hr
    | cons x r =>
      have hl : t.getLast? = some x := by
        have := congrArg List.head? hr
        simpa [List.head?_reverse] using this
      have : isSpace x = false := by
        cases hx : isSpace x with
        | false => rfl
        | true => exact absurd ((isSpace_iff x).1 hx) (h5 x (by simp [hl]))
      rw [List.dropWhile_cons]
      simp only [this, Bool.false_eq_true, if_false]
      rw [← hr, List.reverse_reverse]
  · unfold strip
    rw [hd, ht]; rfl

theorem splitEq_ne_nil (s : List Char) : splitEq s ≠ [] := by
  induction s with
  | nil => simp [splitEq]
  | cons c s ih =>
    unfold splitEq
    split
    · simp
    · split <;> simp

theorem splitEq_none (s : List Char) (h : '=' ∉ s) : splitEq s = [s] := by
  induction s with
  | nil => rfl
  | cons c s ih =>
    have hc : ¬ c = '=' := fun e => h (by simp [e])
    have hs : '=' ∉ s := fun e => h (by simp [e])
    unfold splitEq
    rw [if_neg hc, ih hs]

theorem splitEq_append (l r : List Char) (h : '=' ∉ l) : splitEq (l ++ '=' :: r) = l :: splitEq r := by
  induction l with
  | nil => simp [splitEq]
  | cons c l ih =>
    have hc : ¬ c = '=' := fun e => h (by simp [e])
    have hl : '=' ∉ l := fun e => h (by simp [e])
    rw [List.cons_append, splitEq, if_neg hc, ih hl]

theorem splitEq_two (s l r : List Char) (h : splitEq s = [l, r]) : s = l ++ '=' :: r ∧ '=' ∉ l ∧ '=' ∉ r := by
  by_cases he : '=' ∈ s
  · obtain ⟨a, b, hab, ha⟩ : ∃ a b, s = a ++ '=' :: b ∧ '=' ∉ a := by
      obtain ⟨a, b, h1, h2⟩ := List.eq_append_cons_of_mem he
      exact ⟨a, b, h1, h2⟩
    rw [hab, splitEq_append a b ha] at h
    by_cases hb : '=' ∈ b
    · obtain ⟨a', b', hab', ha'⟩ := List.eq_append_cons_of_mem hb
      rw [hab', splitEq_append a' b' ha'] at h
      have := splitEq_ne_nil b'
      simp_all
    · rw [splitEq_none b hb] at h
      simp only [List.cons.injEq, and_true] at h
      obtain ⟨rfl, rfl⟩ := h
      exact ⟨hab, ha, hb⟩
  · rw [splitEq_none s he] at h
    simp at h

/-- What happens to a field after it was found: post-processing, and slicing unless the field was evaluated. -/
theorem finish_eq (c : Cls F Sl) (name : Name) (slc : Option Sl) (f : F) (b : Bool) :
    finish c name slc (f, b) =
      (post (c.process name) c.processALL f >>= fun r =>
        match slc, b with
        | some s, true => c.cut s r
        | _, _ => .ok r) := by
  unfold finish post
  have e : ∀ p : Option (F → Except Grid.Err F), runIf p = step p := by
    intro p; funext f; cases p <;> rfl
  simp only [e]
  cases h : step (c.process name) f with
  | error e => rfl
  | ok f1 =>
    cases h2 : step c.processALL f1 with
    | error e => simp only [bind, Except.bind, h2]
    | ok f2 => simp only [bind, Except.bind, h2]; cases slc <;> cases b <;> rfl

/-- C56: a field stored under the name is what is found, whatever else has that name. -/
theorem C56_stored (c : Cls F Sl) (g : Grid F) (n : Nat) (force : Bool) (name : Name) (slc : Option Sl) (f : F)
    (h : g.fields.get? name = some f) :
    getField c g (n + 1) force name slc =
      (post (c.process name) c.processALL (if force || g.longterm then f else c.shell f) >>= fun r =>
        match slc with
        | some s => c.cut s r
        | none => .ok r) := by
  simp only [getField, source, h, finish_eq]
  cases slc <;> rfl

/-- C56: otherwise the getter of that name computes it from `grid[...]`. -/
theorem C56_computed (c : Cls F Sl) (g : Grid F) (n : Nat) (force : Bool) (name : Name) (slc : Option Sl)
    (m : (Name → Except Grid.Err F) → Except Grid.Err F)
    (h : g.fields.get? name = none) (hm : c.getter name = some m) :
    getField c g (n + 1) force name slc =
      (m (getItem c g n) >>= fun f => post (c.process name) c.processALL f >>= fun r =>
        match slc with
        | some s => c.cut s r
        | none => .ok r) := by
  have e : (itemWith g fun s => getField c g n false s none) = getItem c g n := rfl
  simp only [getField, source, h, hm, e]
  cases hr : m (getItem c g n) with
  | error e => rfl
  | ok f =>
    simp only [Except.map, finish_eq]
    cases slc <;> rfl

/-- C56: otherwise a name `a = b` is evaluated. Every symbol is looked up with the selection, and the result is not sliced a
    second time. -/
theorem C56_equation (c : Cls F Sl) (g : Grid F) (n : Nat) (force : Bool) (name : Name) (slc : Option Sl) (lhs rhs : Name)
    (h : g.fields.get? name = none) (hm : c.getter name = none) (he : Equation name lhs rhs) (hen : c.enabled = true) :
    getField c g (n + 1) force name slc =
      (c.eval (fun symbol => getField c g n false symbol slc) lhs rhs >>= post (c.process name) c.processALL) := by
  obtain ⟨l, r, hn, hl, hr, tl, tr⟩ := he
  have es : splitEq name = [l, r] := by rw [hn, splitEq_append l r hl, splitEq_none r hr]
  have e1 : strip l = lhs := (trimmed_unique l lhs (strip l) tl (strip_trimmed l) rfl).symm
  have e2 : strip r = rhs := (trimmed_unique r rhs (strip r) tr (strip_trimmed r) rfl).symm
  simp only [getField, source, h, hm, es, e1, e2, evaluate, hen, if_true]
  cases hv : c.eval (fun s => getField c g n false s slc) lhs rhs with
  | error e => rfl
  | ok f =>
    simp only [Except.map, finish_eq]
    cases slc <;> (simp only [bind, Except.bind]; cases post (c.process name) c.processALL f <;> rfl)

/-- C56: unless the evaluator is switched off, when it is an error. -/
theorem C56_disabled (c : Cls F Sl) (g : Grid F) (n : Nat) (force : Bool) (name : Name) (slc : Option Sl) (lhs rhs : Name)
    (h : g.fields.get? name = none) (hm : c.getter name = none) (he : Equation name lhs rhs) (hen : c.enabled = false) :
    getField c g (n + 1) force name slc = .error .runtimeError := by
  obtain ⟨l, r, hn, hl, hr, tl, tr⟩ := he
  have es : splitEq name = [l, r] := by rw [hn, splitEq_append l r hl, splitEq_none r hr]
  simp [getField, source, h, hm, es, evaluate, hen, Except.map]

/-- C56: anything else is a KeyError. -/
theorem C56_unknown (c : Cls F Sl) (g : Grid F) (n : Nat) (force : Bool) (name : Name) (slc : Option Sl)
    (h : g.fields.get? name = none) (hm : c.getter name = none) (he : ∀ lhs rhs, ¬ Equation name lhs rhs) :
    getField c g (n + 1) force name slc = .error .keyError := by
  have es : ∀ l r, splitEq name ≠ [l, r] := by
    intro l r hs
    obtain ⟨h1, h2, h3⟩ := splitEq_two name l r hs
    exact he _ _ ⟨l, r, h1, h2, h3, strip_trimmed l, strip_trimmed r⟩
  have e : source c g force (getField c g n false) name slc = .error .keyError := by
    simp only [source, h, hm]
  simp only [getField, e]

/-- C56: `grid[name]` is the field if there is one (or the error met on the way), otherwise the coordinate, otherwise a
    KeyError. -/
theorem C56_item (c : Cls F Sl) (g : Grid F) (n : Nat) (name : Name) :
    (getField c g n false name none ≠ .error .keyError → getItem c g n name = getField c g n false name none) ∧
    (getField c g n false name none = .error .keyError → ∀ v, g.crds.bind (· name) = some v → getItem c g n name = .ok v) ∧
    (getField c g n false name none = .error .keyError → g.crds.bind (· name) = none →
      getItem c g n name = .error .keyError) := by
  unfold getItem itemWith
  dsimp only
  refine ⟨?_, ?_, ?_⟩
  · intro h
    cases hr : getField c g n false name none with
    | ok f => rfl
    | error e =>
      cases e with
      | keyError => exact absurd hr h
      | _ => rfl
  · intro h v hv
    rw [h]
    cases hc : g.crds with
    | none => rw [hc] at hv; simp at hv
    | some cr =>
      rw [hc] at hv
      simp only [Option.bind_some] at hv
      simp only [hv]
  · intro h hv
    rw [h]
    cases hc : g.crds with
    | none => rfl
    | some cr =>
      rw [hc] at hv
      simp only [Option.bind_some] at hv
      simp only [hv]

/-- C56: the post-processors run exactly once. -/
theorem C56_once (c : Cls F Sl) (g : Grid F) (n : Nat) (name : Name) (f : F) (p q : F → F)
    (h : g.fields.get? name = some f) (hp : c.process name = some fun x => .ok (p x))
    (hq : c.processALL = some fun x => .ok (q x)) (hl : g.longterm = false) :
    getItem c g (n + 1) name = .ok (q (p (c.shell f))) := by
  have e := C56_stored c g n false name none f h
  rw [hp, hq, hl] at e
  rw [(C56_item c g (n + 1) name).1 (by rw [e]; simp [post, step, bind, Except.bind]), e]
  simp [post, step, bind, Except.bind]

theorem get?_set {K V : Type} [DecidableEq K] (d : Dict K V) (k j : K) (v : V) :
    (d.set k v).get? j = if k = j then some v else d.get? j := by
  induction d with
  | nil => rfl
  | cons x d ih =>
    obtain ⟨k', v'⟩ := x
    unfold Dict.set
    by_cases h : k' = k
    · subst h
      rw [if_pos rfl]
      simp only [Dict.get?]
      split <;> rfl
    · rw [if_neg h]
      simp only [Dict.get?, ih]
      by_cases h2 : k' = j
      · subst h2
        rw [if_pos rfl, if_pos rfl, if_neg (fun e => h e.symm)]
      · rw [if_neg h2, if_neg h2]

/-- C56: a field that was set is found under its name. -/
theorem C56_set (c : Cls F Sl) (g : Grid F) (n : Nat) (name : Name) (f : F) :
    contains (setItem g name f) name = true ∧
      getField c (setItem g name f) (n + 1) true name none = post (c.process name) c.processALL f ∧
      ∀ other, other ≠ name → (setItem g name f).fields.get? other = g.fields.get? other := by
  refine ⟨?_, ?_, ?_⟩
  · simp [contains, setItem, get?_set]
  · rw [C56_stored c (setItem g name f) n true name none f (by simp [setItem, get?_set])]
    simp only [Bool.true_or, if_true]
    cases post (c.process name) c.processALL f <;> rfl
  · intro other ho
    simp [setItem, get?_set, ho.symm]

/-- A grid with a stored field 'v', a getter for 'v' and 'w', a coordinate 'x', and numbers for fields. -/
def demoCls : Cls Nat Unit where
  getter := fun nm => if nm = "w".toList then some fun self => do let v ← self "v".toList; pure (2 * v) else
    if nm = "v".toList then some fun _ => .ok 0 else none
  process := fun nm => if nm = "v".toList then some fun x => .ok (x + 100) else none
  processALL := some fun x => .ok (x + 1000)
  eval := fun get _ rhs => get rhs
  enabled := true
  shell := id
  cut := fun _ f => .ok f

def demoGrid : Grid Nat := ⟨[("v".toList, 5)], some fun nm => if nm = "x".toList then some 7 else none, false⟩

example : getItem demoCls demoGrid 5 "v".toList = .ok 1105 := by rfl
example : getItem demoCls demoGrid 5 "w".toList = .ok 3210 := by rfl
example : getItem demoCls demoGrid 5 "x".toList = .ok 7 := by rfl
example : getItem demoCls demoGrid 5 "q = v ".toList = .ok 2105 := by rfl
example : getItem demoCls demoGrid 5 "zz".toList = .error .keyError := by rfl
example : Equation "q = v ".toList "q".toList "v".toList :=
  ⟨"q ".toList, " v ".toList, by decide, by decide, by decide,
    ⟨[], [' '], by decide, by simp, by simp [Blank], by simp [Blank], by simp [Blank]⟩,
    ⟨[' '], [' '], by decide, by simp [Blank], by simp [Blank], by simp [Blank], by simp [Blank]⟩⟩

/-! ## GGCM grids -/

section ggcm
variable (o : Ops F) (all : F → Except Grid.Err F) (ev : (Name → Except Grid.Err F) → Name → Name → Except Grid.Err F)
  (en : Bool) (sh : F → F) (ct : Sl → F → Except Grid.Err F)

theorem item_stored (g : Grid F) (n : Nat) (name : Name) (f f' : F) (h : g.fields.get? name = some f)
    (hk : all (if g.longterm then f else sh f) = .ok f') (hd : name ≠ "divB".toList) :
    getItem (ggcm o all ev en sh ct) g (n + 1) name = .ok f' := by
  have e := C56_stored (ggcm o all ev en sh ct) g n false name none f h
  have : getField (ggcm o all ev en sh ct) g (n + 1) false name none = .ok f' := by
    rw [e]
    simp only [ggcm, post, step, if_neg hd, bind, Except.bind, Bool.false_or, hk]
  rw [(C56_item _ g _ _).1 (by rw [this]; simp), this]

theorem item_plain (g : Grid F) (n : Nat) (name : Name) (h : g.fields.get? name = none) (hg : ggcmGetter o name = none)
    (hs : splitEq name = [name]) (hc : g.crds.bind (· name) = none) :
    getItem (ggcm o all ev en sh ct) g (n + 1) name = .error .keyError := by
  have e := C56_unknown (ggcm o all ev en sh ct) g n false name none h hg (by
    rintro lhs rhs ⟨l, r, hn, hl, hr, _, _⟩
    rw [hn, splitEq_append l r hl] at hs
    have := splitEq_ne_nil r
    simp_all)
  exact (C56_item _ g _ _).2.2 e hc

/-- C90: a cell-centred vector is put together from its stored components. -/
theorem C90_components_partial (g : Grid F) (n : Nat) (bx by_ bz v : F)
    (h : g.fields.get? "b".toList = none) (hx : g.fields.get? "bx".toList = some bx)
    (hy : g.fields.get? "by".toList = some by_) (hz : g.fields.get? "bz".toList = some bz)
    (hl : g.longterm = true) (kx : all bx = .ok bx) (ky : all by_ = .ok by_) (kz : all bz = .ok bz)
    (hv : o.vector bx by_ bz = .ok v) (kv : all v = .ok v) :
    getItem (ggcm o all ev en sh ct) g (n + 2) "b".toList = .ok v := by
  have ex := item_stored o all ev en sh ct g n "bx".toList bx bx hx (by simpa [hl] using kx) (by decide)
  have ey := item_stored o all ev en sh ct g n "by".toList by_ by_ hy (by simpa [hl] using ky) (by decide)
  have ez := item_stored o all ev en sh ct g n "bz".toList bz bz hz (by simpa [hl] using kz) (by decide)
  have e := C56_computed (ggcm o all ev en sh ct) g (n + 1) false "b".toList none (getB o) h (by simp [ggcm, ggcmGetter, ggcmTable])
  have : getField (ggcm o all ev en sh ct) g (n + 2) false "b".toList none = .ok v := by
    rw [e]
    have : getB o (getItem (ggcm o all ev en sh ct) g (n + 1)) = .ok v := by
      unfold getB assemble
      simp only [show "b".toList ++ 'x' :: "".toList = "bx".toList from rfl,
        show "b".toList ++ 'y' :: "".toList = "by".toList from rfl,
        show "b".toList ++ 'z' :: "".toList = "bz".toList from rfl, ex, ey, ez, bind, Except.bind, hv, tryKey]
    rw [this]
    simp [ggcm, post, step, bind, Except.bind, kv]
  rw [(C56_item _ g _ _).1 (by rw [this]; simp), this]

/-- The getter of a vector `w` asks for its components, and the getters of the components ask for the vector. -/
theorem loop (g : Grid F) (n : Nat) (base : String) (w : Char) (hb : base.toList = [w])
    (m : (Name → Except Grid.Err F) → Except Grid.Err F)
    (hm : ∀ self, assemble o self base "" = .error .recursionError → m self = .error .recursionError)
    (hg : ggcmGetter o [w] = some m)
    (hc : ∀ c ∈ ['x', 'y', 'z'], ggcmGetter o [w, c] = some fun self => compOf o self base c)
    (h : g.fields.get? [w] = none)
    (hmiss : ∃ c ∈ ['x', 'y', 'z'], g.fields.get? [w, c] = none)
    (hall : ∀ f, ∃ f', all f = .ok f') :
    getField (ggcm o all ev en sh ct) g n false [w] none = .error .recursionError ∧
      ∀ c ∈ ['x', 'y', 'z'], g.fields.get? [w, c] = none →
        getField (ggcm o all ev en sh ct) g n false [w, c] none = .error .recursionError := by
  induction n with
  | zero => exact ⟨rfl, fun _ _ _ => rfl⟩
  | succ n ih =>
    have ib : getItem (ggcm o all ev en sh ct) g n [w] = .error .recursionError := by
      rw [(C56_item _ g _ _).1 (by rw [ih.1]; simp), ih.1]
    have key : ∀ c ∈ ['x', 'y', 'z'],
        getItem (ggcm o all ev en sh ct) g n [w, c] = .error .recursionError ∨
        (∃ f, getItem (ggcm o all ev en sh ct) g n [w, c] = .ok f) ∧ g.fields.get? [w, c] ≠ none := by
      intro c hc
      cases hf : g.fields.get? [w, c] with
      | none => left; rw [(C56_item _ g _ _).1 (by rw [ih.2 c hc hf]; simp), ih.2 c hc hf]
      | some f =>
        cases n with
        | zero => left; rfl
        | succ n =>
          right
          obtain ⟨f', hf'⟩ := hall (if g.longterm then f else sh f)
          refine ⟨⟨f', item_stored o all ev en sh ct g n [w, c] f f' hf hf' ?_⟩, by simp⟩
          simp
    constructor
    · rw [C56_computed (ggcm o all ev en sh ct) g n false [w] none m h hg]
      have asm : assemble o (getItem (ggcm o all ev en sh ct) g n) base "" = .error .recursionError := by
        unfold assemble
        simp only [hb, show "".toList = [] from rfl, List.cons_append, List.nil_append]
        rcases key 'x' (by simp) with kx | ⟨⟨fx, kx⟩, nx⟩
        · simp [kx, bind, Except.bind]
        · rcases key 'y' (by simp) with ky | ⟨⟨fy, ky⟩, ny⟩
          · simp [kx, ky, bind, Except.bind]
          · rcases key 'z' (by simp) with kz | ⟨⟨fz, kz⟩, nz⟩
            · simp [kx, ky, kz, bind, Except.bind]
            · obtain ⟨c, hc, hn⟩ := hmiss
              simp only [List.mem_cons, List.not_mem_nil, or_false] at hc
              rcases hc with rfl | rfl | rfl
              · exact absurd hn nx
              · exact absurd hn ny
              · exact absurd hn nz
      rw [hm _ asm]; rfl
    · intro c hc' hn
      rw [C56_computed (ggcm o all ev en sh ct) g n false [w, c] none _ hn (hc c hc')]
      simp only [compOf, hb, ib, bind, Except.bind]

/-- C90 (disagreement): unless the vector or all three components are stored, looking for `b` never ends: `_get_b` asks for
    `bx`, whose getter asks for `b`. The fall-back to the face-centred field is never reached, whatever is stored for it. -/
theorem C90_fallback_violated (g : Grid F) (n : Nat)
    (h : g.fields.get? "b".toList = none)
    (hm : ∃ c ∈ ['x', 'y', 'z'], g.fields.get? ['b', c] = none)
    (hall : ∀ f, ∃ f', all f = .ok f') :
    getItem (ggcm o all ev en sh ct) g n "b".toList = .error .recursionError := by
  have H := loop o all ev en sh ct g n "b" 'b' rfl (getB o)
    (by intro self hs; unfold getB; rw [hs]; rfl)
    (by simp [ggcmGetter, ggcmTable])
    (by
      intro c hc
      simp only [List.mem_cons, List.not_mem_nil, or_false] at hc
      rcases hc with rfl | rfl | rfl <;> simp [ggcmGetter, ggcmTable]) h hm hall
  exact ((C56_item _ g _ _).1 (by rw [show "b".toList = ['b'] from rfl, H.1]; simp)).trans H.1

/-- C91 (disagreement): a component of the velocity that is not there is no KeyError but a RecursionError, whatever the
    recursion limit. -/
theorem C91_missing_violated (g : Grid F) (n : Nat) (c : Char) (hc : c ∈ ['x', 'y', 'z'])
    (h : g.fields.get? "v".toList = none) (hm : g.fields.get? ['v', c] = none) (hall : ∀ f, ∃ f', all f = .ok f') :
    getItem (ggcm o all ev en sh ct) g n ['v', c] = .error .recursionError ∧
      getItem (ggcm o all ev en sh ct) g n "v".toList = .error .recursionError := by
  have H := loop o all ev en sh ct g n "v" 'v' rfl (fun self => assemble o self "v" "")
    (by intro self hs; exact hs)
    (by simp [ggcmGetter, ggcmTable])
    (by
      intro c hc
      simp only [List.mem_cons, List.not_mem_nil, or_false] at hc
      rcases hc with rfl | rfl | rfl <;> simp [ggcmGetter, ggcmTable]) h ⟨c, hc, hm⟩ hall
  exact ⟨((C56_item _ g _ _).1 (by rw [H.2 c hc hm]; simp)).trans (H.2 c hc hm),
    ((C56_item _ g _ _).1 (by rw [show "v".toList = ['v'] from rfl, H.1]; simp)).trans H.1⟩

/-- C91: a name nobody computes raises KeyError. -/
theorem C91_unknown_partial (g : Grid F) (n : Nat) (name : Name) (h : g.fields.get? name = none)
    (hg : ∀ p ∈ ggcmTable o, p.1.toList ≠ name) (hs : '=' ∉ name) (hc : g.crds.bind (· name) = none) :
    getItem (ggcm o all ev en sh ct) g (n + 1) name = .error .keyError := by
  refine item_plain o all ev en sh ct g n name h ?_ (splitEq_none name hs) hc
  unfold ggcmGetter
  rw [List.find?_eq_none.2 (fun p hp => by simpa using hg p hp)]
  rfl

/-- C91: and so do the computed fields that are not on a loop, when what they are computed from is missing. -/
theorem C91_computed_partial (n : Nat) (lt : Bool) :
    ∀ name ∈ ["T", "jx", "jy", "jz", "j", "xj", "b_fc", "b1", "b2", "e", "e_cc", "e_ec", "efl", "jmag", "beta"],
      getItem (ggcm o all ev en sh ct) ⟨[], none, lt⟩ (n + 4) name.toList = .error .keyError := by
  intro name hname
  simp only [List.mem_cons, List.not_mem_nil, or_false] at hname
  rcases hname with rfl | rfl | rfl | rfl | rfl | rfl | rfl | rfl | rfl | rfl | rfl | rfl | rfl | rfl | rfl <;>
    simp [getItem, itemWith, getField, source, Dict.get?, ggcm, ggcmGetter, ggcmTable, assemble, splitEq, getBfc, getBk, getE,
      getEec, getEfl, magOf, tryKey, Except.map, bind, Except.bind]

/-- Fields are their names in the following examples. -/
def showOps : Ops String where
  comp := fun f c => .ok (f.push c)
  vector := fun x y z => .ok ("(" ++ x ++ " " ++ y ++ " " ++ z ++ ")")
  scale := fun f => .ok ("k*" ++ f)
  face := fun f => .ok ("face " ++ f)
  edge := fun f => .ok ("edge " ++ f)
  fc2cc := fun f => .ok ("cc " ++ f)
  ec2cc := fun f => .ok ("cc " ++ f)
  div := fun f g => .ok (f ++ "/" ++ g)
  mag := fun x y z => .ok ("|" ++ x ++ " " ++ y ++ " " ++ z ++ "|")
  beta := fun p b => .ok (p ++ "/" ++ b ++ "^2")
  psi := fun b => .ok ("psi " ++ b)

/-- A file with the face-centred field only. -/
def faceGrid : Grid String :=
  ⟨[("b1x".toList, "b1x"), ("b1y".toList, "b1y"), ("b1z".toList, "b1z")], none, false⟩

example (n : Nat) : getItem (Sl := Unit) (ggcm showOps .ok (fun _ _ _ => .error .other) false id fun _ f => .ok f) faceGrid n
    "b".toList = .error .recursionError :=
  C90_fallback_violated _ _ _ _ _ _ _ _ rfl ⟨'x', by simp, rfl⟩ (fun f => ⟨f, rfl⟩)

/-- but the fall-back itself would work -/
example : getItem (Sl := Unit) (ggcm showOps .ok (fun _ _ _ => .error .other) false id fun _ f => .ok f) faceGrid 5
    "b_fc".toList = .ok "face k*(b1x b1y b1z)" := by rfl

/-- C90: the electric field takes the first of its four sources that is complete: `ex_cc`, `ex`, `ex_ec`, `eflx`. -/
theorem C90_electric_partial (g : Grid F) (n : Nat)
    (hg : ∀ f, all f = .ok f) (hl : g.longterm = true) (hcr : g.crds = none)
    (he : g.fields.get? "e".toList = none) :
    (∀ x y z, g.fields.get? "ex_cc".toList = some x → g.fields.get? "ey_cc".toList = some y →
      g.fields.get? "ez_cc".toList = some z → ∀ v, o.vector x y z = .ok v →
      getItem (ggcm o all ev en sh ct) g (n + 2) "e".toList = .ok v) ∧
    (g.fields.get? "ex_cc".toList = none → ∀ x y z, g.fields.get? "ex".toList = some x →
      g.fields.get? "ey".toList = some y → g.fields.get? "ez".toList = some z → ∀ v, o.vector x y z = .ok v →
      getItem (ggcm o all ev en sh ct) g (n + 2) "e".toList = .ok v) ∧
    (g.fields.get? "ex_cc".toList = none → g.fields.get? "ex".toList = none →
      ∀ x y z, g.fields.get? "ex_ec".toList = some x →
      g.fields.get? "ey_ec".toList = some y → g.fields.get? "ez_ec".toList = some z →
      ∀ v w u, o.vector x y z = .ok v → o.edge v = .ok w → o.ec2cc w = .ok u →
      getItem (ggcm o all ev en sh ct) g (n + 2) "e".toList = .ok u) ∧
    (g.fields.get? "ex_cc".toList = none → g.fields.get? "ex".toList = none → g.fields.get? "ex_ec".toList = none →
      ∀ x y z, g.fields.get? "eflx".toList = some x →
      g.fields.get? "efly".toList = some y → g.fields.get? "eflz".toList = some z →
      ∀ v w u, o.vector x y z = .ok v → o.edge v = .ok w → o.ec2cc w = .ok u →
      getItem (ggcm o all ev en sh ct) g (n + 2) "e".toList = .ok u) := by
  have st : ∀ name f, g.fields.get? name = some f → name ≠ "divB".toList →
      getItem (ggcm o all ev en sh ct) g (n + 1) name = .ok f := by
    intro name f hf hd
    exact item_stored o all ev en sh ct g n name f f hf (by simpa [hl] using hg f) hd
  have no : ∀ name, g.fields.get? name = none → ggcmGetter o name = none → splitEq name = [name] →
      getItem (ggcm o all ev en sh ct) g (n + 1) name = .error .keyError := by
    intro name hf h1 h2
    exact item_plain o all ev en sh ct g n name hf h1 h2 (by rw [hcr]; rfl)
  have fin : ∀ v, getE o (getItem (ggcm o all ev en sh ct) g (n + 1)) = .ok v →
      getItem (ggcm o all ev en sh ct) g (n + 2) "e".toList = .ok v := by
    intro v hv
    have e := C56_computed (ggcm o all ev en sh ct) g (n + 1) false "e".toList none (getE o) he
      (by simp [ggcm, ggcmGetter, ggcmTable])
    have : getField (ggcm o all ev en sh ct) g (n + 2) false "e".toList none = .ok v := by
      rw [e, hv]
      simp [ggcm, post, step, bind, Except.bind, hg]
    rw [(C56_item _ g _ _).1 (by rw [this]; simp), this]
  have asm : ∀ (base suf : String) (x y z v : F), g.fields.get? (base.toList ++ 'x' :: suf.toList) = some x →
      g.fields.get? (base.toList ++ 'y' :: suf.toList) = some y → g.fields.get? (base.toList ++ 'z' :: suf.toList) = some z →
      (∀ c, base.toList ++ c :: suf.toList ≠ "divB".toList) → o.vector x y z = .ok v →
      assemble o (getItem (ggcm o all ev en sh ct) g (n + 1)) base suf = .ok v := by
    intro base suf x y z v hx hy hz hd hv
    unfold assemble
    rw [st _ x hx (hd _), st _ y hy (hd _), st _ z hz (hd _)]
    simpa [bind, Except.bind] using hv
  have mis : ∀ (base suf : String), g.fields.get? (base.toList ++ 'x' :: suf.toList) = none →
      ggcmGetter o (base.toList ++ 'x' :: suf.toList) = none →
      splitEq (base.toList ++ 'x' :: suf.toList) = [base.toList ++ 'x' :: suf.toList] →
      assemble o (getItem (ggcm o all ev en sh ct) g (n + 1)) base suf = .error .keyError := by
    intro base suf hx h1 h2
    unfold assemble
    rw [no _ hx h1 h2]
    rfl
  have ncc : g.fields.get? "ex_cc".toList = none →
      assemble o (getItem (ggcm o all ev en sh ct) g (n + 1)) "e" "_cc" = .error .keyError := fun h =>
    mis "e" "_cc" h (by simp [ggcmGetter, ggcmTable]) (splitEq_none _ (by simp))
  have nex : g.fields.get? "ex".toList = none →
      assemble o (getItem (ggcm o all ev en sh ct) g (n + 1)) "e" "" = .error .keyError := fun h =>
    mis "e" "" h (by simp [ggcmGetter, ggcmTable]) (splitEq_none _ (by simp))
  have nec : g.fields.get? "ex_ec".toList = none →
      assemble o (getItem (ggcm o all ev en sh ct) g (n + 1)) "e" "_ec" = .error .keyError := fun h =>
    mis "e" "_ec" h (by simp [ggcmGetter, ggcmTable]) (splitEq_none _ (by simp))
  refine ⟨?_, ?_, ?_, ?_⟩
  · intro x y z hx hy hz v hv
    apply fin
    unfold getE
    rw [asm "e" "_cc" x y z v hx hy hz (by intro c; simp) hv]
    rfl
  · intro h1 x y z hx hy hz v hv
    apply fin
    unfold getE
    rw [ncc h1, asm "e" "" x y z v hx hy hz (by intro c; simp) hv]
    rfl
  · intro h1 h2 x y z hx hy hz v w u hv hw hu
    apply fin
    unfold getE getEec
    rw [ncc h1, nex h2, asm "e" "_ec" x y z v hx hy hz (by intro c; simp) hv]
    simp [tryKey, bind, Except.bind, hw, hu]
  · intro h1 h2 h3 x y z hx hy hz v w u hv hw hu
    apply fin
    unfold getE getEec getEfl
    rw [ncc h1, nex h2, nec h3, asm "efl" "" x y z v hx hy hz (by intro c; simp) hv]
    simp [tryKey, bind, Except.bind, hw, hu]

/-- what a getter returns from stored fields is what is looked up -/
theorem item_got (hg : ∀ f, all f = .ok f) (g : Grid F) (n : Nat) (name : Name) (get : (Name → Except Grid.Err F) → Except Grid.Err F)
    (v : F) (h : g.fields.get? name = none) (hget : ggcmGetter o name = some get)
    (hd : name ≠ "divB".toList) (hv : get (getItem (ggcm o all ev en sh ct) g n) = .ok v) :
    getItem (ggcm o all ev en sh ct) g (n + 1) name = .ok v := by
  have e := C56_computed (ggcm o all ev en sh ct) g n false name none get h hget
  have : getField (ggcm o all ev en sh ct) g (n + 1) false name none = .ok v := by
    rw [e, hv]
    simp only [ggcm, post, step, if_neg hd, bind, Except.bind, hg]
  rw [(C56_item _ g _ _).1 (by rw [this]; simp), this]

/-- C90: the fields computed from stored ones, each from its own parts: temperature, components, currents, magnitudes, plasma beta and
    flux function. -/
theorem C90_derived_partial (hg : ∀ f, all f = .ok f) (g : Grid F) (hl : g.longterm = true) (n : Nat) :
    let get := fun name : String => getItem (ggcm o all ev en sh ct) g (n + 2) name.toList
    let has := fun (name : String) (f : F) => g.fields.get? name.toList = some f
    let no := fun name : String => g.fields.get? name.toList = none
    (∀ p r v, no "T" → has "pp" p → has "rr" r → o.div p r = .ok v → get "T" = .ok v) ∧
    (∀ b v, no "bx" → has "b" b → o.comp b 'x' = .ok v → get "bx" = .ok v) ∧
    (∀ b v, no "by" → has "b" b → o.comp b 'y' = .ok v → get "by" = .ok v) ∧
    (∀ b v, no "bz" → has "b" b → o.comp b 'z' = .ok v → get "bz" = .ok v) ∧
    (∀ b v, no "vx" → has "v" b → o.comp b 'x' = .ok v → get "vx" = .ok v) ∧
    (∀ b v, no "vy" → has "v" b → o.comp b 'y' = .ok v → get "vy" = .ok v) ∧
    (∀ b v, no "vz" → has "v" b → o.comp b 'z' = .ok v → get "vz" = .ok v) ∧
    (∀ v, no "jx" → has "xjx" v → get "jx" = .ok v) ∧
    (∀ v, no "jy" → has "xjy" v → get "jy" = .ok v) ∧
    (∀ v, no "jz" → has "xjz" v → get "jz" = .ok v) ∧
    (∀ x y z v, no "v" → has "vx" x → has "vy" y → has "vz" z → o.vector x y z = .ok v → get "v" = .ok v) ∧
    (∀ x y z v, no "j" → has "jx" x → has "jy" y → has "jz" z → o.vector x y z = .ok v → get "j" = .ok v) ∧
    (∀ x y z v, no "xj" → has "jx" x → has "jy" y → has "jz" z → o.vector x y z = .ok v → get "xj" = .ok v) ∧
    (∀ x y z v, no "bmag" → has "bx" x → has "by" y → has "bz" z → o.mag x y z = .ok v → get "bmag" = .ok v) ∧
    (∀ x y z v, no "jmag" → has "jx" x → has "jy" y → has "jz" z → o.mag x y z = .ok v → get "jmag" = .ok v) ∧
    (∀ x y z v, no "speed" → has "vx" x → has "vy" y → has "vz" z → o.mag x y z = .ok v → get "speed" = .ok v) ∧
    (∀ p b v, no "beta" → has "pp" p → has "b" b → o.beta p b = .ok v → get "beta" = .ok v) ∧
    (∀ b v, no "psi" → has "b" b → o.psi b = .ok v → get "psi" = .ok v) := by
  intro get has no
  have st : ∀ (name : String) f, g.fields.get? name.toList = some f → name.toList ≠ "divB".toList →
      getItem (ggcm o all ev en sh ct) g (n + 1) name.toList = .ok f := by
    intro name f hf hd
    exact item_stored o all ev en sh ct g n name.toList f f hf (by simpa [hl] using hg f) hd
  have fin := fun (name : String) => item_got o all ev en sh ct hg g (n + 1) name.toList
  refine ⟨?_, ?_, ?_, ?_, ?_, ?_, ?_, ?_, ?_, ?_, ?_, ?_, ?_, ?_, ?_, ?_, ?_, ?_⟩
  · intro p r v hn hp hr hv
    refine fin "T" (fun self => do let p ← self "pp".toList; let r ← self "rr".toList; o.div p r) v hn
      (by simp [ggcmGetter, ggcmTable]) (by decide) ?_
    simp only [st "pp" p hp (by decide), st "rr" r hr (by decide), bind, Except.bind, hv]
  · intro b v hn hb hv
    exact fin "bx" (fun self => compOf o self "b" 'x') v hn
      (by simp [ggcmGetter, ggcmTable]) (by decide) (by simp only [compOf, st "b" b hb (by decide), bind, Except.bind, hv])
  · intro b v hn hb hv
    exact fin "by" (fun self => compOf o self "b" 'y') v hn
      (by simp [ggcmGetter, ggcmTable]) (by decide) (by simp only [compOf, st "b" b hb (by decide), bind, Except.bind, hv])
  · intro b v hn hb hv
    exact fin "bz" (fun self => compOf o self "b" 'z') v hn
      (by simp [ggcmGetter, ggcmTable]) (by decide) (by simp only [compOf, st "b" b hb (by decide), bind, Except.bind, hv])
  · intro b v hn hb hv
    exact fin "vx" (fun self => compOf o self "v" 'x') v hn
      (by simp [ggcmGetter, ggcmTable]) (by decide) (by simp only [compOf, st "v" b hb (by decide), bind, Except.bind, hv])
  · intro b v hn hb hv
    exact fin "vy" (fun self => compOf o self "v" 'y') v hn
      (by simp [ggcmGetter, ggcmTable]) (by decide) (by simp only [compOf, st "v" b hb (by decide), bind, Except.bind, hv])
  · intro b v hn hb hv
    exact fin "vz" (fun self => compOf o self "v" 'z') v hn
      (by simp [ggcmGetter, ggcmTable]) (by decide) (by simp only [compOf, st "v" b hb (by decide), bind, Except.bind, hv])
  · intro v hn h
    exact fin "jx" (fun self => self "xjx".toList) v hn
      (by simp [ggcmGetter, ggcmTable]) (by decide) (st "xjx" v h (by decide))
  · intro v hn h
    exact fin "jy" (fun self => self "xjy".toList) v hn
      (by simp [ggcmGetter, ggcmTable]) (by decide) (st "xjy" v h (by decide))
  · intro v hn h
    exact fin "jz" (fun self => self "xjz".toList) v hn
      (by simp [ggcmGetter, ggcmTable]) (by decide) (st "xjz" v h (by decide))
  · intro x y z v hn hx hy hz hv
    refine fin "v" (fun self => assemble o self "v" "") v hn
      (by simp [ggcmGetter, ggcmTable]) (by decide) ?_
    have ex := st "vx" x hx (by decide)
    have ey := st "vy" y hy (by decide)
    have ez := st "vz" z hz (by decide)
    simp only [String.reduceToList] at ex ey ez
    simp [assemble, ex, ey, ez, bind, Except.bind, hv]
  · intro x y z v hn hx hy hz hv
    refine fin "j" (fun self => assemble o self "j" "") v hn
      (by simp [ggcmGetter, ggcmTable]) (by decide) ?_
    have ex := st "jx" x hx (by decide)
    have ey := st "jy" y hy (by decide)
    have ez := st "jz" z hz (by decide)
    simp only [String.reduceToList] at ex ey ez
    simp [assemble, ex, ey, ez, bind, Except.bind, hv]
  · intro x y z v hn hx hy hz hv
    refine fin "xj" (fun self => assemble o self "j" "") v hn
      (by simp [ggcmGetter, ggcmTable]) (by decide) ?_
    have ex := st "jx" x hx (by decide)
    have ey := st "jy" y hy (by decide)
    have ez := st "jz" z hz (by decide)
    simp only [String.reduceToList] at ex ey ez
    simp [assemble, ex, ey, ez, bind, Except.bind, hv]
  · intro x y z v hn hx hy hz hv
    refine fin "bmag" (fun self => magOf o self "b") v hn
      (by simp [ggcmGetter, ggcmTable]) (by decide) ?_
    have ex := st "bx" x hx (by decide)
    have ey := st "by" y hy (by decide)
    have ez := st "bz" z hz (by decide)
    simp only [String.reduceToList] at ex ey ez
    simp [magOf, ex, ey, ez, bind, Except.bind, hv]
  · intro x y z v hn hx hy hz hv
    refine fin "jmag" (fun self => magOf o self "j") v hn
      (by simp [ggcmGetter, ggcmTable]) (by decide) ?_
    have ex := st "jx" x hx (by decide)
    have ey := st "jy" y hy (by decide)
    have ez := st "jz" z hz (by decide)
    simp only [String.reduceToList] at ex ey ez
    simp [magOf, ex, ey, ez, bind, Except.bind, hv]
  · intro x y z v hn hx hy hz hv
    refine fin "speed" (fun self => magOf o self "v") v hn
      (by simp [ggcmGetter, ggcmTable]) (by decide) ?_
    have ex := st "vx" x hx (by decide)
    have ey := st "vy" y hy (by decide)
    have ez := st "vz" z hz (by decide)
    simp only [String.reduceToList] at ex ey ez
    simp [magOf, ex, ey, ez, bind, Except.bind, hv]
  · intro p b v hn hp hb hv
    refine fin "beta" (fun self => do let p ← self "pp".toList; let b ← self "b".toList; o.beta p b) v hn
      (by simp [ggcmGetter, ggcmTable]) (by decide) ?_
    simp only [st "pp" p hp (by decide), st "b" b hb (by decide), bind, Except.bind, hv]
  · intro b v hn hb hv
    refine fin "psi" (fun self => do let b ← self "b".toList; o.psi b) v hn
      (by simp [ggcmGetter, ggcmTable]) (by decide) ?_
    simp only [st "b" b hb (by decide), bind, Except.bind, hv]

/-- A file with some of them. -/
def someGrid : Grid String :=
  ⟨[("pp".toList, "pp"), ("rr".toList, "rr"), ("b".toList, "b"), ("xjy".toList, "xjy")], none, true⟩

example : getItem (Sl := Unit) (ggcm showOps .ok (fun _ _ _ => .error .other) false id fun _ f => .ok f) someGrid 5
    "beta".toList = .ok "pp/b^2" :=
  (C90_derived_partial showOps .ok _ false id _ (fun _ => rfl) someGrid rfl 3).2.2.2.2.2.2.2.2.2.2.2.2.2.2.2.2.1
    "pp" "b" "pp/b^2" rfl rfl rfl (by rfl)

end ggcm

end Viscid.Props
