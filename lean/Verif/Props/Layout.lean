import Verif.Model.Layout
import Verif.Spec.Layout
/-!
# C55, C86-C89: layouts of vector fields, transposing
-/
namespace Viscid.Props
open Viscid.Layout Viscid.Spec.Layout

theorem rotate_eq (n : Nat) : ∀ (t : List Nat) (a : Nat), t ++ [n] = a :: t → a = n ∧ t = List.replicate t.length n
  | [], a, h => by simp at h; exact ⟨h.symm, rfl⟩
  | b :: t, a, h => by
    simp only [List.cons_append, List.cons.injEq] at h
    obtain ⟨rfl, h⟩ := h
    obtain ⟨h1, h2⟩ := rotate_eq n t b h
    refine ⟨h1, ?_⟩
    rw [List.length_cons, List.replicate_succ, ← h2, h1]

theorem tail_eq (s : List Nat) (n : Nat) : (s ++ [n]).tail = s ↔ s = List.replicate s.length n := by
  cases s with
  | nil => simp
  | cons a t =>
    simp only [List.cons_append, List.tail_cons]
    constructor
    · intro h
      obtain ⟨h1, h2⟩ := rotate_eq n t a h
      rw [List.length_cons, List.replicate_succ, ← h2, h1]
    · intro h
      rw [List.length_cons, List.replicate_succ, List.cons.injEq] at h
      obtain ⟨rfl, h2⟩ := h
      rw [h2, ← List.replicate_succ', List.replicate_succ]


/-- **C55, detection.** A flat array is always taken as flat; an interlaced one as interlaced, unless all the axes have as
    many points as there are components. -/
theorem C55_detect (s : List Nat) (n : Nat) : detect s (n :: s) = .flat ∧
    detect s (s ++ [n]) = (if s = List.replicate s.length n then .flat else .interlaced) := by
  have t1 : trim (n :: s).length s.length s = s := by
    cases hs : s.length with
    | zero => rfl
    | succ k => unfold trim; rw [if_neg (by simp [hs])]
  have t2 : trim (s ++ [n]).length s.length s = s := by
    cases hs : s.length with
    | zero => rfl
    | succ k => unfold trim; rw [if_neg (by simp [hs])]
  have n1 : n :: s ≠ s := by intro h; have := congrArg List.length h; simp at this
  have n2 : s ++ [n] ≠ s := by intro h; have := congrArg List.length h; simp at this
  constructor
  · unfold detect
    rw [if_neg n1]
    simp only [t1]
    rw [if_neg n1, if_pos (by rfl)]
  · unfold detect
    rw [if_neg n2]
    simp only [t2]
    rw [if_neg n2]
    by_cases h : s = List.replicate s.length n
    · rw [if_pos ((tail_eq s n).2 h), if_pos h]
    · rw [if_neg (fun e => h ((tail_eq s n).1 e)), if_neg h, if_pos]
      left; simp

theorem nrComps_flat (s : List Nat) (n : Nat) (g : List Nat → α) (F : Layout) (c : Option Nat) :
    (⟨s, ⟨n :: s, g⟩, F, c⟩ : Fld α).nrComps = .ok n := by
  unfold Fld.nrComps
  simp only [(C55_detect s n).1, List.head?_cons]

theorem nrComps_interlaced (s : List Nat) (n : Nat) (g : List Nat → α) (F : Layout) (c : Option Nat)
    (h : s ≠ List.replicate s.length n) : (⟨s, ⟨s ++ [n], g⟩, F, c⟩ : Fld α).nrComps = .ok n := by
  unfold Fld.nrComps
  simp only [(C55_detect s n).2, if_neg h, List.getLast?_append, List.getLast?_singleton]
  rfl

/-- The data of flat fields as they are. -/
theorem data_flat (s : List Nat) (n : Nat) (g : List Nat → α) (F : Layout) (hF : F = .default ∨ F = .flat) :
    (new s ⟨n :: s, g⟩ F).data = .ok ⟨n :: s, g⟩ := by
  have hl : (new s ⟨n :: s, g⟩ F).layout = .flat := by
    unfold Fld.layout new
    rcases hF with rfl | rfl
    · simp [(C55_detect s n).1]
    · simp
  have hs : (new s ⟨n :: s, g⟩ F).shape = .ok (n :: s) := by
    unfold Fld.shape Fld.nrComp
    simp only [new] at hl ⊢
    rw [hl, nrComps_flat]
    simp [bind, Except.bind]
  unfold Fld.data
  rw [if_pos]
  · rw [hs]; simp [bind, Except.bind, reshape, new]
  · rcases hF with rfl | rfl
    · left; rfl
    · right; exact (C55_detect s n).1.symm

theorem data_interlaced (s : List Nat) (n : Nat) (g : List Nat → α) (F : Layout) (hF : F = .default ∨ F = .interlaced)
    (h : s ≠ List.replicate s.length n) : (new s ⟨s ++ [n], g⟩ F).data = .ok ⟨s ++ [n], g⟩ := by
  have hl : (new s ⟨s ++ [n], g⟩ F).layout = .interlaced := by
    unfold Fld.layout new
    rcases hF with rfl | rfl
    · simp [(C55_detect s n).2, h]
    · simp
  have hs : (new s ⟨s ++ [n], g⟩ F).shape = .ok (s ++ [n]) := by
    unfold Fld.shape Fld.nrComp
    simp only [new] at hl ⊢
    rw [hl, nrComps_interlaced _ _ _ _ _ h]
    simp [bind, Except.bind]
  unfold Fld.data
  rw [if_pos]
  · rw [hs]; simp [bind, Except.bind, reshape, new]
  · rcases hF with rfl | rfl
    · left; rfl
    · right; simp [new, (C55_detect s n).2, h]

/-- A flat source that is forced to be interlaced. -/
theorem data_to_interlaced (s : List Nat) (n : Nat) (g : List Nat → α) :
    (new s ⟨n :: s, g⟩ .interlaced).data = .ok ⟨s ++ [n], fun idx => g (idx.getLastD 0 :: idx.dropLast)⟩ := by
  have hs : (new s ⟨n :: s, g⟩ .interlaced).shape = .ok (s ++ [n]) := by
    unfold Fld.shape Fld.nrComp
    simp only [new, Fld.layout]
    rw [nrComps_flat]
    simp [bind, Except.bind]
  unfold Fld.data
  simp only [hs]
  simp [new, (C55_detect s n).1, bind, Except.bind]

theorem data_to_flat (s : List Nat) (n : Nat) (g : List Nat → α) (h : s ≠ List.replicate s.length n) :
    (new s ⟨s ++ [n], g⟩ .flat).data = .ok ⟨n :: s, fun idx => g (idx.tail ++ [idx.headD 0])⟩ := by
  have hs : (new s ⟨s ++ [n], g⟩ .flat).shape = .ok (n :: s) := by
    unfold Fld.shape Fld.nrComp
    simp only [new, Fld.layout]
    rw [nrComps_interlaced _ _ _ _ _ h]
    simp [bind, Except.bind]
  unfold Fld.data
  simp only [hs]
  simp [new, (C55_detect s n).2, if_neg h, bind, Except.bind]

theorem prod_append (s t : List Nat) : prod (s ++ t) = prod s * prod t := by
  induction s with
  | nil => simp [prod]
  | cons a s ih => simp only [prod, List.cons_append, List.foldr_cons] at ih ⊢; rw [ih, Nat.mul_assoc]

theorem prod_swap (s : List Nat) (n : Nat) : prod (s ++ [n]) = prod (n :: s) := by
  rw [prod_append]; simp [prod, Nat.mul_comm]

/-- **C55, flat to interlaced.** For every shape and number of components, every component keeps its value at every grid
    point. -/
theorem C55_to_interlaced (s : List Nat) (n : Nat) (g : List Nat → α) (fc ct : Bool) (hp : prod (n :: s) ≠ 1) :
    ∃ f a, (new s ⟨n :: s, g⟩).asLayout .interlaced fc ct = .ok (.field f) ∧ f.layout = .interlaced ∧ f.data = .ok a ∧
      a.shape = s ++ [n] ∧
      ∀ c idx, idx.length = s.length → interlacedComp a.get c idx = flatComp g c idx := by
  refine ⟨new s ⟨n :: s, g⟩ .interlaced, _, ?_, rfl, data_to_interlaced s n g, rfl, ?_⟩
  · unfold Fld.asLayout
    rw [if_neg (by simp [Fld.layout, new, (C55_detect s n).1]), data_flat s n g .default (Or.inl rfl)]
    simp only [bind, Except.bind, if_neg hp]
    rfl
  · intro c idx _
    simp [interlacedComp, flatComp]

/-- **C55, interlaced to flat**, unless every axis has as many points as there are components. -/
theorem C55_to_flat_partial (s : List Nat) (n : Nat) (g : List Nat → α) (fc ct : Bool) (hp : prod (n :: s) ≠ 1)
    (h : s ≠ List.replicate s.length n) :
    ∃ f a, (new s ⟨s ++ [n], g⟩).asLayout .flat fc ct = .ok (.field f) ∧ f.layout = .flat ∧ f.data = .ok a ∧
      a.shape = n :: s ∧
      ∀ c idx, idx.length = s.length → flatComp a.get c idx = interlacedComp g c idx := by
  refine ⟨new s ⟨s ++ [n], g⟩ .flat, _, ?_, rfl, data_to_flat s n g h, rfl, ?_⟩
  · unfold Fld.asLayout
    rw [if_neg (by simp [Fld.layout, new, (C55_detect s n).2, h]), data_interlaced s n g .default (Or.inl rfl) h]
    simp only [bind, Except.bind, prod_swap, if_neg hp]
    rfl
  · intro c idx _
    simp [interlacedComp, flatComp]

/-- **C55, back again.** Interlaced and back to flat is the original array, unless every axis has as many points as there
    are components. -/
theorem C55_round_trip_partial (s : List Nat) (n : Nat) (g : List Nat → α) (fc ct : Bool) (hp : prod (n :: s) ≠ 1)
    (h : s ≠ List.replicate s.length n) :
    ∃ f f' a, (new s ⟨n :: s, g⟩).asLayout .interlaced fc ct = .ok (.field f) ∧ f.asLayout .flat fc ct = .ok (.field f') ∧
      f'.data = .ok a ∧ a.shape = n :: s ∧ ∀ idx, idx.length = s.length + 1 → a.get idx = g idx := by
  obtain ⟨f, a, h1, h2, h3, h4, h5⟩ := C55_to_interlaced s n g fc ct hp
  have hf : f = new s ⟨n :: s, g⟩ .interlaced := by
    unfold Fld.asLayout at h1
    rw [if_neg (by simp [Fld.layout, new, (C55_detect s n).1]), data_flat s n g .default (Or.inl rfl)] at h1
    simp only [bind, Except.bind, if_neg hp, Except.ok.injEq, Ret.field.injEq] at h1
    exact h1.symm
  subst hf
  refine ⟨_, new s ⟨s ++ [n], fun idx => g (idx.getLastD 0 :: idx.dropLast)⟩ .flat, _, h1, ?_, data_to_flat s n _ h, rfl, ?_⟩
  · unfold Fld.asLayout
    rw [if_neg (by rw [h2]; decide), data_to_interlaced]
    simp only [bind, Except.bind, prod_swap, if_neg hp]
    rfl
  · intro idx hl
    cases idx with
    | nil => simp at hl
    | cons c idx => simp

/-- **C55 fails** if every axis has as many points as there are components: an interlaced array is taken to be flat, and a
    flat array that is converted and converted back has its components mixed up. -/
theorem C55_cube_violated (k n : Nat) (hk : 1 ≤ k) (hn : 2 ≤ n) :
    (∀ (α : Type) (g : List Nat → α), (new (List.replicate k n) ⟨List.replicate k n ++ [n], g⟩).layout = .flat) ∧
    ∃ (g : List Nat → Nat) (f f' : Fld Nat) (a : Arr Nat) (idx : List Nat),
      (new (List.replicate k n) ⟨n :: List.replicate k n, g⟩).asLayout .interlaced true true = .ok (.field f) ∧
      f.asLayout .flat true true = .ok (.field f') ∧ f'.layout = .flat ∧ f'.data = .ok a ∧
      a.shape = n :: List.replicate k n ∧ idx.length = k + 1 ∧ (∀ i ∈ idx, i < n) ∧ a.get idx ≠ g idx := by
  have hd : detect (List.replicate k n) (List.replicate k n ++ [n]) = .flat := by
    rw [(C55_detect _ n).2, if_pos (by simp)]
  have hr : List.replicate k n ++ [n] = n :: List.replicate k n := by
    rw [← List.replicate_succ', List.replicate_succ]
  have hp : prod (n :: List.replicate k n) ≠ 1 := by
    intro e
    have : n * prod (List.replicate k n) = 1 := e
    have := Nat.eq_one_of_mul_eq_one_right this
    omega
  refine ⟨fun α g => by simp [Fld.layout, new, hd], ?_⟩
  let g : List Nat → Nat := fun idx => idx.headD 0
  obtain ⟨f, a, h1, h2, h3, h4, h5⟩ := C55_to_interlaced (List.replicate k n) n g true true hp
  have hf : f = new (List.replicate k n) ⟨n :: List.replicate k n, g⟩ .interlaced := by
    unfold Fld.asLayout at h1
    rw [if_neg (by simp [Fld.layout, new, (C55_detect _ n).1]), data_flat _ n g .default (Or.inl rfl)] at h1
    simp only [bind, Except.bind, if_neg hp, Except.ok.injEq, Ret.field.injEq] at h1
    exact h1.symm
  subst hf
  refine ⟨g, _, new (List.replicate k n) ⟨n :: List.replicate k n, fun idx => g (idx.getLastD 0 :: idx.dropLast)⟩ .flat, _,
    List.replicate k 0 ++ [1], h1, ?_, rfl, data_flat _ _ _ _ (Or.inr rfl), rfl, by simp, ?_, ?_⟩
  · unfold Fld.asLayout
    rw [if_neg (by rw [h2]; decide), data_to_interlaced]
    simp only [bind, Except.bind, if_neg hp, hr]
    rfl
  · intro i hi
    simp only [List.mem_append, List.mem_replicate, List.mem_singleton] at hi
    omega
  · obtain ⟨k', rfl⟩ : ∃ k', k = k' + 1 := ⟨k - 1, by omega⟩
    have e : (List.replicate (k' + 1) 0 ++ [1]).getLastD 0 = 1 := by
      rw [List.getLastD_eq_getLast?, List.getLast?_append]; rfl
    show (List.replicate (k' + 1) 0 ++ [1]).getLastD 0 ≠ (List.replicate (k' + 1) 0 ++ [1]).headD 0
    rw [e, List.replicate_succ]
    simp

/-- The hypotheses can be met. -/
example : prod [3, 4, 5, 6] ≠ 1 ∧ [4, 5, 6] ≠ List.replicate [4, 5, 6].length 3 := by decide

/-! ### C86 -/

/-- **C86 fails**: asked for the layout it has, without `force_c_contiguous`, `as_layout` returns `None`. -/
theorem C86_none_violated (f : Fld α) (ct : Bool) : f.asLayout f.layout false ct = .ok .none := by
  unfold Fld.asLayout
  simp

/-- **C86, with `force_c_contiguous`** (the default): a field that has the layout already is returned itself, or a copy with
    the same array. -/
theorem C86_same_partial (s : List Nat) (n : Nat) (g : List Nat → α) (ct : Bool) (hp : prod (n :: s) ≠ 1) :
    (∃ r f, (new s ⟨n :: s, g⟩).asLayout .flat true ct = .ok r ∧ r.fld (new s ⟨n :: s, g⟩) = some f ∧
      f.layout = .flat ∧ f.data = .ok ⟨n :: s, g⟩) ∧
    (s ≠ List.replicate s.length n →
      ∃ r f, (new s ⟨s ++ [n], g⟩).asLayout .interlaced true ct = .ok r ∧ r.fld (new s ⟨s ++ [n], g⟩) = some f ∧
      f.layout = .interlaced ∧ f.data = .ok ⟨s ++ [n], g⟩) := by
  constructor
  · have hl : (new s ⟨n :: s, g⟩).layout = .flat := by simp [Fld.layout, new, (C55_detect s n).1]
    have hd := data_flat s n g .default (Or.inl rfl)
    cases ct
    · refine ⟨.field (new s ⟨n :: s, g⟩), _, ?_, rfl, hl, hd⟩
      unfold Fld.asLayout
      rw [if_pos hl, hd]
      simp [bind, Except.bind, hp, new]
    · refine ⟨.self, _, ?_, rfl, hl, hd⟩
      unfold Fld.asLayout
      rw [if_pos hl, hd]
      simp [bind, Except.bind]
  · intro h
    have hl : (new s ⟨s ++ [n], g⟩).layout = .interlaced := by simp [Fld.layout, new, (C55_detect s n).2, h]
    have hd := data_interlaced s n g .default (Or.inl rfl) h
    cases ct
    · refine ⟨.field (new s ⟨s ++ [n], g⟩), _, ?_, rfl, hl, hd⟩
      unfold Fld.asLayout
      rw [if_pos hl, hd]
      simp [bind, Except.bind, prod_swap, hp, new]
    · refine ⟨.self, _, ?_, rfl, hl, hd⟩
      unfold Fld.asLayout
      rw [if_pos hl, hd]
      simp [bind, Except.bind]

example : prod [3, 4, 5, 6] ≠ 1 ∧ [4, 5, 6] ≠ List.replicate [4, 5, 6].length 3 ∧
    ((new [4, 5, 6] ⟨[3, 4, 5, 6], fun idx => idx⟩).asLayout .flat true true).toOption.isSome = true := by
  refine ⟨by decide, by decide, ?_⟩
  obtain ⟨⟨r, f, h, -⟩, -⟩ := C86_same_partial [4, 5, 6] 3 (fun idx => idx) true (by decide)
  rw [h]; rfl

/-! ### C87 -/

/-- **C87, before anything is read.** Setting `layout` of a new field converts it. -/
theorem C87_set_layout_partial (s : List Nat) (n : Nat) (g : List Nat → α) :
    ∃ a, ((new s ⟨n :: s, g⟩).setLayout .interlaced).data = .ok a ∧ a.shape = s ++ [n] ∧
      ∀ c idx, idx.length = s.length → interlacedComp a.get c idx = flatComp g c idx :=
  ⟨_, data_to_interlaced s n g, rfl, fun c idx _ => by simp [interlacedComp, flatComp]⟩

theorem shift_eq (n : Nat) (s : List Nat) (h : (n :: s).dropLast = s) : s = List.replicate s.length n := by
  induction s generalizing n with
  | nil => rfl
  | cons a s ih =>
    rw [List.dropLast_cons_of_ne_nil (by simp), List.cons.injEq] at h
    obtain ⟨rfl, h⟩ := h
    rw [List.length_cons, List.replicate_succ, ← ih _ h]

/-- **C87 fails** once the data (or the shape) has been read: the axis of the components is remembered from before, and
    reading the data raises `ValueError`. -/
theorem C87_after_read_violated (s : List Nat) (n : Nat) (g : List Nat → α) (h : s ≠ List.replicate s.length n) :
    ∃ f a, (new s ⟨n :: s, g⟩).load = .ok (f, a) ∧ (f.setLayout .interlaced).layout = .interlaced ∧
      (f.setLayout .interlaced).data = .error .valueError := by
  have hd := data_flat s n g .default (Or.inl rfl)
  refine ⟨⟨s, ⟨n :: s, g⟩, .default, some 0⟩, ⟨n :: s, g⟩, ?_, rfl, ?_⟩
  · unfold Fld.load
    rw [hd]
    simp [bind, Except.bind, Fld.nrComp, Fld.layout, new, (C55_detect s n).1]
  · have hs : ((⟨s, ⟨n :: s, g⟩, .default, some 0⟩ : Fld α).setLayout .interlaced).shape = .ok (n :: s) := by
      unfold Fld.shape Fld.nrComp Fld.setLayout
      simp only
      rw [nrComps_flat]
      simp [bind, Except.bind]
    unfold Fld.data
    rw [hs]
    simp only [Fld.setLayout, (C55_detect s n).1]
    simp only [bind, Except.bind]
    have : (n :: s).dropLast ≠ s := fun e => h (shift_eq n s e)
    simp [this]

example := C87_after_read_violated [4, 5, 6] 3 (fun idx => idx) (by decide)

/-! ### C88 -/

/-- **C88 fails**: no shape of the data, however little it fits the grid, is detected as `other`. -/
theorem C88_never_other_violated (s dat : List Nat) : detect s dat ≠ .other := by
  unfold detect
  simp only
  intro h
  repeat' split at h
  all_goals first | cases h | skip
  all_goals simp_all

example : detect [4, 5, 6] [7, 11] = .scalar := by decide

/-! ### C89 -/

theorem mapM_ok {e : Err} {β : Type v} (l : List Nat) (h : Nat → Option β) (hl : ∀ i ∈ l, ∃ x, h i = some x) :
    ∃ r, (l.mapM (m := Except Err) fun i => orRaise e (h i)) = .ok r ∧
      r.map some = l.map h := by
  induction l with
  | nil => exact ⟨[], rfl, rfl⟩
  | cons a l ih =>
    obtain ⟨x, hx⟩ := hl a (by simp)
    obtain ⟨r, hr, hm⟩ := ih fun i hi => hl i (by simp [hi])
    refine ⟨x :: r, ?_, by simp [hx, hm]⟩
    rw [List.mapM_cons, hr, hx]
    rfl

/-- **C89.** For every order of the axes, the transposed field has the same values, and the coordinates stay with the axes
    of the array that they belong to. -/
theorem C89_transpose (crds : List β) (nrComp : Option Nat) (data : Arr α) (axes : List Nat)
    (hc : ∀ c, nrComp = some c → c ≤ crds.length)
    (hs : data.shape.length = crds.length + (if nrComp.isSome then 1 else 0))
    (hp : axes.Perm (List.range data.shape.length)) :
    ∃ crds' b, transpose crds nrComp data axes = .ok (crds', b) ∧
      axisLabels crds' (nrComp.map axes.idxOf) = axes.map (fun a => (axisLabels crds nrComp).getD a none) ∧
      b.shape.map some = axes.map (fun a => data.shape[a]?) ∧
      ∀ idx : List Nat, idx.length = data.shape.length → b.get (axes.map fun a => idx.getD a 0) = data.get idx := by
  have hmem : ∀ a, a ∈ axes ↔ a < data.shape.length := fun a => by rw [hp.mem_iff, List.mem_range]
  have hnd : axes.Nodup := hp.nodup_iff.2 List.nodup_range
  have hlen : axes.length = data.shape.length := by rw [hp.length_eq, List.length_range]
  obtain ⟨shape, hsh, hshm⟩ := mapM_ok (e := .valueError) axes (fun i => data.shape[i]?)
    (fun i hi => ⟨_, List.getElem?_eq_getElem ((hmem i).1 hi)⟩)
  have hval : ∀ idx : List Nat, idx.length = data.shape.length →
      data.get ((List.range axes.length).map fun a => (axes.map fun a => idx.getD a 0).getD (axes.idxOf a) 0) = data.get idx := by
    intro idx hi
    congr 1
    apply List.ext_getElem
    · simp [hlen, hi]
    · intro k h1 h2
      have hk : k ∈ axes := (hmem k).2 (by omega)
      have hk' := List.idxOf_lt_length_iff.2 hk
      simp [List.getD_eq_getElem?_getD, List.getElem?_map, List.getElem?_eq_getElem hk', List.getElem_idxOf hk', h2]
  cases nrComp with
  | none =>
    simp only [Option.isSome_none, Bool.false_eq_true, if_false, Nat.add_zero] at hs
    obtain ⟨new, hnew, hnm⟩ := mapM_ok (e := .indexError) axes (fun i => crds[i]?)
      (fun i hi => ⟨_, List.getElem?_eq_getElem (by rw [← hs]; exact (hmem i).1 hi)⟩)
    refine ⟨new, ⟨shape, fun idx => data.get ((List.range axes.length).map fun a => idx.getD (axes.idxOf a) 0)⟩, ?_, ?_, hshm, hval⟩
    · unfold transpose
      rw [if_neg (by simp [hlen, hs])]
      simp only [bind, Except.bind, hnew, hsh]
      rw [if_neg (fun h : ¬ axes.Nodup => h hnd)]
    · simp only [axisLabels, Option.map_none, hnm]
      apply List.map_congr_left
      intro a ha
      have : a < crds.length := by rw [← hs]; exact (hmem a).1 ha
      simp [List.getD_eq_getElem?_getD, List.getElem?_eq_getElem this]
  | some c =>
    simp only [Option.isSome_some, if_true] at hs
    have hcl : c ≤ crds.length := hc c rfl
    have hca : c ∈ axes := (hmem c).2 (by omega)
    obtain ⟨pre, post, hax, hpre⟩ := List.eq_append_cons_of_mem hca
    have hpost : c ∉ post := by
      intro h
      rw [hax, List.nodup_append] at hnd
      exact (List.nodup_cons.1 hnd.2.1).1 h
    have her : axes.erase c = pre ++ post := by
      rw [hax, List.erase_append_right _ hpre, List.erase_cons_head]
    have hix : axes.idxOf c = pre.length := by
      rw [hax, List.idxOf_append, if_neg hpre, List.idxOf_cons_self, Nat.zero_add]
    have hadj : ∀ i ∈ pre ++ post, (if i > c then i - 1 else i) < crds.length := by
      intro i hi
      have h1 : i < data.shape.length := (hmem i).1 (by
        rw [hax]
        rw [List.mem_append] at hi
        rw [List.mem_append, List.mem_cons]
        rcases hi with h | h
        · exact Or.inl h
        · exact Or.inr (Or.inr h))
      have h2 : i ≠ c := by
        rintro rfl
        rw [List.mem_append] at hi
        rcases hi with h | h
        · exact hpre h
        · exact hpost h
      split <;> omega
    obtain ⟨new, hnew, hnm⟩ := mapM_ok (e := .indexError) ((pre ++ post).map fun i => if i > c then i - 1 else i)
      (fun i => crds[i]?) (by
        intro i hi
        obtain ⟨j, hj, rfl⟩ := List.mem_map.1 hi
        exact ⟨_, List.getElem?_eq_getElem (hadj j hj)⟩)
    refine ⟨new, ⟨shape, fun idx => data.get ((List.range axes.length).map fun a => idx.getD (axes.idxOf a) 0)⟩, ?_, ?_, hshm, hval⟩
    · unfold transpose
      rw [if_neg (by simp [hlen, hs])]
      simp only [bind, Except.bind, if_pos hca, her, hnew, hsh]
      rw [if_neg (fun h : ¬ axes.Nodup => h hnd)]
    · have lab : ∀ i ∈ pre ++ post, (axisLabels crds (some c)).getD i none = crds[if i > c then i - 1 else i]? := by
        intro i hi
        have h2 : i ≠ c := by
          rintro rfl
          rw [List.mem_append] at hi
          rcases hi with h | h
          · exact hpre h
          · exact hpost h
        have h3 := hadj i hi
        simp only [axisLabels, List.getD_eq_getElem?_getD]
        by_cases hlt : i < c
        · rw [List.getElem?_append_left (by simp; omega), if_neg (by omega)]
          have : i < crds.length := by omega
          simp [hlt, List.getElem?_eq_getElem this]
        · rw [if_pos (by omega)] at h3 ⊢
          rw [List.getElem?_append_right (by simp; omega)]
          obtain ⟨m, hm⟩ : ∃ m, i = c + m + 1 := ⟨i - c - 1, by omega⟩
          subst hm
          have e : c + m + 1 - ((crds.take c).map some).length = m + 1 := by simp; omega
          rw [e, List.getElem?_cons_succ]
          have : c + m < crds.length := by omega
          simp [List.getElem?_drop, List.getElem?_eq_getElem this]
      have labc : (axisLabels crds (some c)).getD c none = none := by
        simp only [axisLabels, List.getD_eq_getElem?_getD]
        rw [List.getElem?_append_right (by simp; omega), show c - ((crds.take c).map some).length = 0 by simp; omega]
        rfl
      rw [List.map_map] at hnm
      have e1 : new.map some = (pre ++ post).map fun a => (axisLabels crds (some c)).getD a none := by
        rw [hnm]
        apply List.map_congr_left
        intro i hi
        rw [lab i hi]; rfl
      simp only [Option.map_some, hix]
      unfold axisLabels at e1 ⊢
      simp only at e1 ⊢
      rw [List.map_take, List.map_drop, e1, hax]
      simp only [List.map_append, List.map_cons]
      rw [List.take_left' (by simp), List.drop_left' (by simp)]
      congr 2
      exact labc.symm

/-- The hypotheses can be met: an interlaced vector field on a 2d grid. -/
example : ∃ crds' b, transpose ["x", "y"] (some 2) (⟨[4, 5, 3], fun idx => idx⟩ : Arr (List Nat)) [2, 1, 0] = .ok (crds', b) ∧
    axisLabels crds' (some 0) = [none, some "y", some "x"] := by
  obtain ⟨c, b, h1, h2, -⟩ := C89_transpose ["x", "y"] (some 2) (⟨[4, 5, 3], fun idx => idx⟩ : Arr (List Nat)) [2, 1, 0]
    (by decide) (by decide) (by decide)
  exact ⟨c, b, h1, h2⟩

end Viscid.Props
