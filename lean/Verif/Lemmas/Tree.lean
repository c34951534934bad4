import Verif.Model.Tree
import Verif.Spec.Tree
import Verif.Lemmas.Dict
namespace Viscid.Tree
open Viscid Viscid.Spec.Tree
set_option linter.unusedSectionVars false
variable {N Key Val : Type} [DecidableEq N] [DecidableEq Key]

/-- `P` is `L` with some elements dropped that are in `V` or occurred earlier. -/
inductive Prune : List N → List N → List N → Prop
  | nil (V) : Prune V [] []
  | keep {V P L} (x) : Prune (x :: V) P L → Prune V (x :: P) (x :: L)
  | drop {V P L} (x) : x ∈ V → Prune V P L → Prune V P (x :: L)

theorem Prune.mono {V V' P L : List N} (h : Prune V P L) (hs : ∀ x ∈ V, x ∈ V') : Prune V' P L := by
  induction h generalizing V' with
  | nil => exact .nil _
  | keep x _ ih =>
    refine .keep x (ih ?_)
    intro y hy
    rcases List.mem_cons.mp hy with rfl | hy
    · simp
    · simp [hs y hy]
  | drop x hx _ ih => exact .drop x (hs x hx) (ih hs)

theorem Prune.refl (V L : List N) : Prune V L L := by
  induction L generalizing V with
  | nil => exact .nil _
  | cons x L ih => exact .keep x (ih _)

theorem Prune.find {V P L : List N} (h : Prune V P L) (p : N → Bool) (hV : ∀ v ∈ V, p v = false) :
    P.find? p = L.find? p := by
  induction h with
  | nil => rfl
  | keep x _ ih =>
    by_cases hx : p x
    · simp [List.find?, hx]
    · have hx' : p x = false := by simpa using hx
      simp only [List.find?, hx']
      apply ih
      intro v hv
      rcases List.mem_cons.mp hv with rfl | hv
      · exact hx'
      · exact hV v hv
  | drop x hx _ ih =>
    simp only [List.find?, hV x hx]
    exact ih hV

theorem Prune.append {V P L : List N} (b : List N) (h : Prune (b ++ V) P L) :
    Prune V (b ++ P) (b ++ L) := by
  induction b generalizing V with
  | nil => exact h
  | cons x b ih =>
    refine .keep x (ih ?_)
    apply h.mono
    intro y hy
    simp at hy ⊢
    rcases hy with h1 | h1 | h1 <;> simp [h1]

theorem Prune.drops {V P L : List N} (b : List N) (hb : ∀ x ∈ b, x ∈ V) (h : Prune V P L) :
    Prune V P (b ++ L) := by
  induction b with
  | nil => exact h
  | cons x b ih => exact .drop x (hb x (by simp)) (ih (fun y hy => hb y (by simp [hy])))

theorem Prune.flatMap {V P L W : List N} (h : Prune V P L) (f : N → List N)
    (hW : ∀ v ∈ V, ∀ x ∈ f v, x ∈ W) : Prune W (P.flatMap f) (L.flatMap f) := by
  induction h generalizing W with
  | nil => exact .nil _
  | keep x _ ih =>
    rw [List.flatMap_cons, List.flatMap_cons]
    apply Prune.append
    apply ih
    intro v hv y hy
    rcases List.mem_cons.mp hv with rfl | hv
    · simp [hy]
    · simp [hW v hv y hy]
  | drop x hx _ ih =>
    rw [List.flatMap_cons]
    exact Prune.drops _ (hW x hx) (ih hW)

/-- The elements of a level that are processed (not skipped). -/
def fresh : List N → List N → List N
  | _, [] => []
  | V, x :: l => if x ∈ V then fresh V l else x :: fresh (x :: V) l

theorem Prune.fresh {V P L : List N} (h : Prune V P L) : Prune V (fresh V P) L := by
  induction h with
  | nil => exact .nil _
  | @keep V P L x _ ih =>
    unfold Tree.fresh
    split
    · next hx =>
      refine .drop x hx ?_
      -- fresh (x :: V) = fresh V when x ∈ V
      have hfe : ∀ (P V V' : List N), (∀ y, y ∈ V ↔ y ∈ V') → Tree.fresh V P = Tree.fresh V' P := by
        intro P
        induction P with
        | nil => intros; rfl
        | cons a P ihP =>
          intro V V' hVV
          unfold Tree.fresh
          by_cases ha : a ∈ V
          · rw [if_pos ha, if_pos ((hVV a).mp ha)]; exact ihP V V' hVV
          · rw [if_neg ha, if_neg (fun h => ha ((hVV a).mpr h))]
            congr 1
            apply ihP
            intro y; simp [hVV y]
      rw [hfe _ V (x :: V) (by intro y; simp; rintro rfl; exact hx)]
      apply ih.mono
      intro y hy
      rcases List.mem_cons.mp hy with rfl | hy
      · exact hx
      · exact hy
    · exact .keep x ih
  | drop x hx _ ih => exact .drop x hx ih

theorem mem_fresh (V P : List N) (x : N) : x ∈ fresh V P ↔ x ∈ P ∧ x ∉ V := by
  induction P generalizing V with
  | nil => simp [fresh]
  | cons a P ih =>
    unfold fresh
    split
    · next ha =>
      rw [ih]
      constructor
      · rintro ⟨h1, h2⟩; exact ⟨by simp [h1], h2⟩
      · rintro ⟨h1, h2⟩
        rcases List.mem_cons.mp h1 with rfl | h1
        · exact absurd ha h2
        · exact ⟨h1, h2⟩
    · next ha =>
      rw [List.mem_cons, ih]
      constructor
      · rintro (rfl | ⟨h1, h2⟩)
        · exact ⟨by simp, ha⟩
        · exact ⟨by simp [h1], fun h => h2 (by simp [h])⟩
      · rintro ⟨h1, h2⟩
        by_cases hxa : x = a
        · exact Or.inl hxa
        · right
          rcases List.mem_cons.mp h1 with h1 | h1
          · exact absurd h1 hxa
          · exact ⟨h1, by simp [hxa, h2]⟩

/-- One level either finds the first match among the list, or marks everything. -/
theorem bfsLevel_spec (parents : N → List N) (cond : N → Bool) (P V acc : List N)
    (hV : ∀ v ∈ V, cond v = false) :
    match P.find? cond with
    | some n => bfsLevel parents cond P V acc = .found n
    | none => bfsLevel parents cond P V acc =
        .next ((fresh V P).reverse ++ V) (acc ++ (fresh V P).flatMap parents) := by
  induction P generalizing V acc with
  | nil => simp [bfsLevel, fresh]
  | cons a P ih =>
    by_cases ha : a ∈ V
    · have := ih V acc hV
      simp only [List.find?, hV a ha, bfsLevel, ha, if_true, fresh]
      exact this
    · by_cases hc : cond a
      · simp [List.find?, hc, bfsLevel, ha]
      · have hc' : cond a = false := by simpa using hc
        have := ih (a :: V) (acc ++ parents a) (by
          intro v hv
          rcases List.mem_cons.mp hv with rfl | hv
          · exact hc'
          · exact hV v hv)
        simp only [List.find?, hc', bfsLevel, ha, if_false, fresh, Bool.false_eq_true]
        cases hf : P.find? cond with
        | some n => simp only [hf] at this; exact this
        | none =>
          simp only [hf] at this
          rw [this]
          simp [List.append_assoc]

theorem visitLevel_spec (parents : N → List N) (P V acc calls : List N) :
    visitLevel parents P V acc calls =
      ((fresh V P).reverse ++ V, acc ++ (fresh V P).flatMap parents, calls ++ fresh V P) := by
  induction P generalizing V acc calls with
  | nil => simp [visitLevel, fresh]
  | cons a P ih =>
    by_cases ha : a ∈ V
    · simp only [visitLevel, ha, if_true, fresh, ih]
    · simp only [visitLevel, ha, if_false, fresh, ih]
      simp [List.append_assoc]

/-- Invariant of the while loop at depth `d`. -/
structure LoopInv (parents : N → List N) (cond : N → Bool) (s0 : N) (d : Nat) (P V : List N) : Prop where
  prune : Prune V P (level parents s0 d)
  vfalse : ∀ v ∈ V, cond v = false
  closed : ∀ v ∈ V, ∀ x ∈ parents v, x ∈ V ∨ x ∈ P
  earlier : ∀ d' < d, ∀ m ∈ level parents s0 d', cond m = false

theorem LoopInv.step {parents : N → List N} {cond : N → Bool} {self : N} {d : Nat} {P V : List N}
    (h : LoopInv parents cond self d P V) (hn : P.find? cond = none) :
    LoopInv parents cond self (d + 1) ((fresh V P).flatMap parents) ((fresh V P).reverse ++ V) := by
  have hPV : ∀ x, x ∈ V ∨ x ∈ P → x ∈ (fresh V P).reverse ++ V := by
    intro x hx
    simp only [List.mem_append, List.mem_reverse, mem_fresh]
    by_cases hxV : x ∈ V
    · exact Or.inr hxV
    · rcases hx with hx | hx
      · exact absurd hx hxV
      · exact Or.inl ⟨hx, hxV⟩
  have hPf : ∀ x ∈ P, cond x = false := by
    intro x hx
    have := List.find?_eq_none.mp hn x hx
    simpa using this
  refine ⟨?_, ?_, ?_, ?_⟩
  · -- prune
    refine Prune.flatMap h.prune.fresh parents ?_
    intro v hv x hx
    exact hPV x (h.closed v hv x hx)
  · intro v hv
    simp only [List.mem_append, List.mem_reverse, mem_fresh] at hv
    rcases hv with hv | hv
    · exact hPf v hv.1
    · exact h.vfalse v hv
  · intro v hv x hx
    simp only [List.mem_append, List.mem_reverse] at hv
    rcases hv with hv | hv
    · right; exact List.mem_flatMap.mpr ⟨v, hv, hx⟩
    · left; exact hPV x (h.closed v hv x hx)
  · intro d' hd' m hm
    by_cases hdd : d' < d
    · exact h.earlier d' hdd m hm
    · have : d' = d := by omega
      subst this
      have he := h.prune.find cond h.vfalse
      rw [hn] at he
      have := List.find?_eq_none.mp he.symm m hm
      simpa using this

/-- Number of nodes not yet visited. -/
def unvisited (univ V : List N) : Nat := (univ.filter (fun x => decide (x ∉ V))).length

theorem unvisited_lt (univ V V' : List N) (hsub : ∀ x ∈ V, x ∈ V') (x : N) (hx : x ∈ univ)
    (hxV : x ∉ V) (hxV' : x ∈ V') : unvisited univ V' < unvisited univ V := by
  unfold unvisited
  induction univ with
  | nil => simp at hx
  | cons a l ih =>
    have hle : ∀ l : List N, (l.filter (fun x => decide (x ∉ V'))).length ≤
        (l.filter (fun x => decide (x ∉ V))).length := by
      intro l
      induction l with
      | nil => simp
      | cons b l ihl =>
        simp only [List.filter_cons]
        by_cases hb : b ∈ V
        · have := hsub b hb; simp [hb, this]; simpa using ihl
        · by_cases hb' : b ∈ V'
          · simp [hb, hb']; have : _ := ihl; simp at this; omega
          · simp [hb, hb']; simpa using ihl
    simp only [List.filter_cons]
    by_cases hax : a = x
    · subst hax
      simp only [hxV, hxV', not_true, not_false_eq_true, decide_true, decide_false, if_true,
        Bool.false_eq_true, if_false, List.length_cons]
      have := hle l
      omega
    · have hxl : x ∈ l := by
        rcases List.mem_cons.mp hx with h | h
        · exact absurd h.symm hax
        · exact h
      have := ih hxl
      by_cases hb : a ∈ V
      · have hb' := hsub a hb; simp only [hb, hb']; simpa using this
      · by_cases hb' : a ∈ V'
        · simp only [hb, hb']; simp at this ⊢; omega
        · simp only [hb, hb']; simp at this ⊢; omega

theorem bfsLoop_spec (parents : N → List N) (cond : N → Bool) (self : N) (univ : List N)
    (hfin : FiniteFrom parents self univ) (fuel : Nat) (d : Nat) (P V : List N)
    (hinv : LoopInv parents cond self d P V) (hP : ∀ x ∈ P, x ∈ univ)
    (hfuel : P = [] ∨ unvisited univ V + 1 ≤ fuel) :
    (∃ n, bfsLoop parents cond fuel P V = some (some n) ∧ FirstInBfs parents cond self n) ∨
    (bfsLoop parents cond fuel P V = some none ∧ ∀ d, ∀ m ∈ level parents self d, cond m = false) := by
  induction fuel generalizing d P V with
  | zero =>
    rcases hfuel with rfl | h
    · right
      refine ⟨rfl, ?_⟩
      exact nil_all hinv
    · omega
  | succ fuel ih =>
    cases P with
    | nil => right; exact ⟨rfl, nil_all hinv⟩
    | cons a l =>
      have hs := bfsLevel_spec parents cond (a :: l) V [] hinv.vfalse
      have hfind := hinv.prune.find cond hinv.vfalse
      cases hf : (a :: l).find? cond with
      | some n =>
        simp only [hf] at hs
        left
        refine ⟨n, by simp only [bfsLoop, hs], d, by rw [← hfind, hf], hinv.earlier⟩
      | none =>
        simp only [hf] at hs
        simp only [bfsLoop, hs, List.nil_append]
        refine ih (d + 1) _ _ (hinv.step hf) ?_ ?_
        · intro x hx
          obtain ⟨y, hy, hxy⟩ := List.mem_flatMap.mp hx
          exact hfin.2 y (hP y ((mem_fresh _ _ _).mp hy).1) x hxy
        · by_cases hfr : fresh V (a :: l) = []
          · left; simp [hfr]
          · right
            obtain ⟨x, hx⟩ := List.exists_mem_of_ne_nil _ hfr
            have hx' := (mem_fresh _ _ _).mp hx
            have := unvisited_lt univ V ((fresh V (a :: l)).reverse ++ V) (by simp +contextual) x
              (hP x hx'.1) hx'.2 (by simp [hx])
            rcases hfuel with h | h
            · cases h
            · omega
where
  nil_all {d : Nat} {V : List N} (hinv : LoopInv parents cond self d [] V) :
      ∀ d, ∀ m ∈ level parents self d, cond m = false := by
    -- from depth d on, everything is in V
    have hall : ∀ e, ∀ m ∈ level parents self (d + e), m ∈ V := by
      intro e
      induction e with
      | zero =>
        intro m hm
        have : ∀ {V P L : List N}, Prune V P L → P = [] → ∀ m ∈ L, m ∈ V := by
          intro V P L h
          induction h with
          | nil => simp
          | keep => simp
          | drop x hx _ ih =>
            intro hP m hm
            rcases List.mem_cons.mp hm with rfl | hm
            · exact hx
            · exact ih hP m hm
        exact this hinv.prune rfl m hm
      | succ e ih =>
        intro m hm
        obtain ⟨y, hy, hxy⟩ := List.mem_flatMap.mp (show m ∈ (level parents self (d + e)).flatMap parents from hm)
        rcases hinv.closed y (ih y hy) m hxy with h | h
        · exact h
        · simp at h
    intro e m hm
    by_cases he : e < d
    · exact hinv.earlier e he m hm
    · have : e = d + (e - d) := by omega
      rw [this] at hm
      exact hinv.vfalse m (hall _ m hm)

theorem parentBfs_spec (parents : N → List N) (cond : N → Bool) (self : N) (univ : List N)
    (hfin : FiniteFrom parents self univ) (fuel : Nat) (hfuel : univ.length + 1 ≤ fuel) :
    (∃ n, parentBfs parents cond fuel self = some (some n) ∧ FirstInBfs parents cond self n) ∨
    (parentBfs parents cond fuel self = some none ∧ ∀ d, ∀ m ∈ level parents self d, cond m = false) := by
  unfold parentBfs
  by_cases hc : cond self
  · left
    refine ⟨self, by simp [hc], 0, by simp [level, hc], by omega⟩
  · have hc' : cond self = false := by simpa using hc
    simp only [hc', Bool.false_eq_true, if_false]
    have hinv : LoopInv parents cond self 1 (parents self) [] := by
      refine ⟨?_, by simp, by simp, ?_⟩
      · have : level parents self 1 = parents self := by simp [level]
        rw [this]; exact Prune.refl _ _
      · intro d' hd' m hm
        have : d' = 0 := by omega
        subst this
        simp [level] at hm
        rw [hm]; exact hc'
    have hu : unvisited univ ([] : List N) ≤ univ.length := by
      unfold unvisited; exact List.length_filter_le _ _
    exact bfsLoop_spec parents cond self univ hfin fuel 1 _ _ hinv hfin.1 (Or.inr (by omega))

/-- Searching is the first hit in the visit sequence. -/
theorem bfsLoop_visits (parents : N → List N) (cond : N → Bool) (fuel : Nat) (P V calls : List N)
    (hV : ∀ v ∈ V, cond v = false) (hcalls : ∀ c ∈ calls, cond c = false) (vs : List N)
    (hv : visitLoop parents fuel P V calls = some vs) :
    bfsLoop parents cond fuel P V = some (vs.find? cond) := by
  induction fuel generalizing P V calls with
  | zero =>
    cases P with
    | nil =>
      simp only [visitLoop, Option.some.injEq] at hv
      subst hv
      simp only [bfsLoop]
      congr 1; symm; rw [List.find?_eq_none]; simpa using hcalls
    | cons a l => simp [visitLoop] at hv
  | succ fuel ih =>
    cases P with
    | nil =>
      simp only [visitLoop, Option.some.injEq] at hv
      subst hv
      simp only [bfsLoop]
      congr 1; symm; rw [List.find?_eq_none]; simpa using hcalls
    | cons a l =>
      have hs := bfsLevel_spec parents cond (a :: l) V [] hV
      have hvs := visitLevel_spec parents (a :: l) V [] calls
      simp only [visitLoop, hvs, List.nil_append] at hv
      have hfr := (Prune.refl V (a :: l)).fresh.find cond hV
      cases hf : (a :: l).find? cond with
      | some n =>
        simp only [hf] at hs
        simp only [bfsLoop, hs]
        congr 1
        -- vs extends calls ++ fresh
        have hpre : ∀ (fuel : Nat) (P V calls vs : List N), visitLoop parents fuel P V calls = some vs →
            ∃ r, vs = calls ++ r := by
          intro fuel
          induction fuel with
          | zero =>
            intro P V calls vs h
            cases P with
            | nil => simp only [visitLoop, Option.some.injEq] at h; exact ⟨[], by simp [h]⟩
            | cons a l => simp [visitLoop] at h
          | succ fuel ih2 =>
            intro P V calls vs h
            cases P with
            | nil => simp only [visitLoop, Option.some.injEq] at h; exact ⟨[], by simp [h]⟩
            | cons a l =>
              simp only [visitLoop, visitLevel_spec] at h
              obtain ⟨r, hr⟩ := ih2 _ _ _ _ h
              exact ⟨fresh V (a :: l) ++ r, by rw [hr, List.append_assoc]⟩
        obtain ⟨r, hr⟩ := hpre _ _ _ _ _ hv
        have hcn : calls.find? cond = none := by rw [List.find?_eq_none]; simpa using hcalls
        rw [hr, List.find?_append, List.find?_append, hcn, hfr, hf]
        simp
      | none =>
        simp only [hf] at hs
        simp only [bfsLoop, hs, List.nil_append]
        have hff : ∀ x ∈ fresh V (a :: l), cond x = false := by
          intro x hx
          have := List.find?_eq_none.mp hf x ((mem_fresh _ _ _).mp hx).1
          simpa using this
        refine ih _ _ _ ?_ ?_ hv
        · intro v hv
          simp only [List.mem_append, List.mem_reverse] at hv
          rcases hv with h | h
          · exact hff v h
          · exact hV v h
        · intro c hc
          rcases List.mem_append.mp hc with h | h
          · exact hcalls c h
          · exact hff c h

theorem visitLoop_total (parents : N → List N) (univ : List N)
    (hcl : ∀ n ∈ univ, ∀ m ∈ parents n, m ∈ univ) (fuel : Nat) (P V calls : List N)
    (hP : ∀ x ∈ P, x ∈ univ) (hfuel : P = [] ∨ unvisited univ V + 1 ≤ fuel) :
    ∃ vs, visitLoop parents fuel P V calls = some vs := by
  induction fuel generalizing P V calls with
  | zero =>
    rcases hfuel with rfl | h
    · exact ⟨calls, rfl⟩
    · omega
  | succ fuel ih =>
    cases P with
    | nil => exact ⟨calls, rfl⟩
    | cons a l =>
      simp only [visitLoop, visitLevel_spec, List.nil_append]
      apply ih
      · intro x hx
        obtain ⟨y, hy, hxy⟩ := List.mem_flatMap.mp hx
        exact hcl y (hP y ((mem_fresh _ _ _).mp hy).1) x hxy
      · by_cases hfr : fresh V (a :: l) = []
        · left; simp [hfr]
        · right
          obtain ⟨x, hx⟩ := List.exists_mem_of_ne_nil _ hfr
          have hx' := (mem_fresh _ _ _).mp hx
          have := unvisited_lt univ V ((fresh V (a :: l)).reverse ++ V) (by simp +contextual) x
            (hP x hx'.1) hx'.2 (by simp [hx])
          rcases hfuel with h | h
          · cases h
          · omega

theorem parentBfs_visits (parents : N → List N) (cond : N → Bool) (self : N) (univ : List N)
    (hfin : FiniteFrom parents self univ) (fuel : Nat) (hfuel : univ.length + 1 ≤ fuel) :
    ∃ vs, visits parents fuel self = some vs ∧ self ∈ vs ∧
      parentBfs parents cond fuel self = some (vs.find? cond) := by
  have hu : unvisited univ ([] : List N) ≤ univ.length := by
    unfold unvisited; exact List.length_filter_le _ _
  obtain ⟨vs, hvs⟩ := visitLoop_total parents univ hfin.2 fuel (parents self) [] [self] hfin.1
    (Or.inr (by omega))
  -- vs starts with self
  have hpre : ∀ (fuel : Nat) (P V calls vs : List N), visitLoop parents fuel P V calls = some vs →
      ∃ r, vs = calls ++ r := by
    intro fuel
    induction fuel with
    | zero =>
      intro P V calls vs h
      cases P with
      | nil => simp only [visitLoop, Option.some.injEq] at h; exact ⟨[], by simp [h]⟩
      | cons a l => simp [visitLoop] at h
    | succ fuel ih2 =>
      intro P V calls vs h
      cases P with
      | nil => simp only [visitLoop, Option.some.injEq] at h; exact ⟨[], by simp [h]⟩
      | cons a l =>
        simp only [visitLoop, visitLevel_spec] at h
        obtain ⟨r, hr⟩ := ih2 _ _ _ _ h
        exact ⟨fresh V (a :: l) ++ r, by rw [hr, List.append_assoc]⟩
  obtain ⟨r, hr⟩ := hpre _ _ _ _ _ hvs
  refine ⟨vs, hvs, by simp [hr], ?_⟩
  unfold parentBfs
  by_cases hc : cond self
  · simp [hc, hr]
  · have hc' : cond self = false := by simpa using hc
    simp only [hc', Bool.false_eq_true, if_false]
    exact bfsLoop_visits parents cond fuel _ _ [self] (by simp) (by simpa using hc') vs hvs

theorem mergeInfo_get (all i : Dict Key Val) (k : Key) :
    (mergeInfo all i).get? k = match all.get? k with
      | some v => some v
      | none => i.get? k := by
  unfold mergeInfo
  induction i generalizing all with
  | nil => simp only [List.foldl_nil, Dict.get?_nil]; cases all.get? k <;> rfl
  | cons kv i ih =>
    rw [List.foldl_cons, ih]
    obtain ⟨a, b⟩ := kv
    dsimp only
    by_cases hs : (all.get? a).isSome
    · simp only [hs, if_true]
      cases hk : all.get? k with
      | some v => rfl
      | none =>
        have : a ≠ k := by rintro rfl; rw [hk] at hs; cases hs
        simp [Dict.get?, this]
    · simp only [hs, Bool.false_eq_true, if_false]
      rw [Dict.get?_set]
      by_cases hka : k = a
      · subst hka
        have : all.get? k = none := by simpa using hs
        simp [this, Dict.get?]
      · rw [if_neg hka]
        have hak : ¬ a = k := fun e => hka e.symm
        cases all.get? k with
        | some v => rfl
        | none => simp [Dict.get?, hak]

theorem foldl_mergeInfo_get (info : N → Dict Key Val) (vs : List N) (all : Dict Key Val) (k : Key) :
    (vs.foldl (fun d n => mergeInfo d (info n)) all).get? k = match all.get? k with
      | some v => some v
      | none => match vs.find? (hasInfo info k) with
        | some n => (info n).get? k
        | none => none := by
  induction vs generalizing all with
  | nil => simp only [List.foldl_nil, List.find?_nil]; cases all.get? k <;> rfl
  | cons n vs ih =>
    rw [List.foldl_cons, ih, mergeInfo_get]
    cases all.get? k with
    | some v => rfl
    | none =>
      simp only [List.find?, hasInfo]
      cases hn : (info n).get? k with
      | some v => simp [hn]
      | none => simp

end Viscid.Tree
