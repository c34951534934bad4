import Verif.Spec.Multiplot
import Verif.Props.LogValue
import Verif.Props.PlotOpts
/-!
# C227, C228: pictures of several times
-/
namespace Viscid.Props
open Viscid.Multiplot Viscid.LogValue Viscid.Spec.Multiplot Viscid.Spec.AsCotr
open Viscid.Spec.LogValue (Joined)

namespace MP

/-! ## calls -/

theorem inTurn_ok (f : Call G R → σ → Except E (Option R) × σ) (hf : ∀ c s, ∃ r, (f c s).1 = .ok r) : ∀ (cs : List (Call G R)) (s : σ),
    (inTurn f s cs).2 = none ∧ (inTurn f s cs).1.map Prod.fst = cs := by
  intro cs
  induction cs with
  | nil => intro s; exact ⟨rfl, rfl⟩
  | cons c cs ih =>
    intro s
    obtain ⟨r, hr⟩ := hf c s
    rw [inTurn]
    cases h : f c s with
    | mk a s' =>
      rw [h] at hr
      cases hr
      obtain ⟨i1, i2⟩ := ih s'
      exact ⟨i1, by simp [i2]⟩

/-- Each call finds what the one before it has left. -/
def Follows (f : Call G R → σ → Except E (Option R) × σ) (s : σ) (l : List (Call G R × σ)) : Prop :=
  (∀ x, l[0]? = some x → x.2 = s) ∧ ∀ (k : Nat) x y, l[k]? = some x → l[k + 1]? = some y → y.2 = (f x.1 x.2).2

theorem follows_cons {f : Call G R → σ → Except E (Option R) × σ} {s : σ} {c : Call G R} {l : List (Call G R × σ)}
    (h : Follows f (f c s).2 l) : Follows f s ((c, s) :: l) := by
  refine ⟨fun x hx => ?_, fun k x y hx hy => ?_⟩
  · simp only [List.getElem?_cons_zero, Option.some.injEq] at hx
    rw [← hx]
  · cases k with
    | zero =>
      simp only [List.getElem?_cons_zero, Option.some.injEq] at hx
      rw [← hx]
      exact h.1 y (by simpa using hy)
    | succ k => exact h.2 k x y (by simpa using hx) (by simpa using hy)

theorem inTurn_follows (f : Call G R → σ → Except E (Option R) × σ) : ∀ (cs : List (Call G R)) (s : σ), Follows f s (inTurn f s cs).1 := by
  intro cs
  induction cs with
  | nil => intro s; exact ⟨by simp [inTurn], by simp [inTurn]⟩
  | cons c cs ih =>
    intro s
    rw [inTurn]
    cases h : f c s with
    | mk a s' =>
      cases a with
      | error e => exact ⟨by simp, by simp⟩
      | ok r =>
        refine follows_cons ?_
        rw [h]; exact ih s'

theorem inTurn_fail (f : Call G R → σ → Except E (Option R) × σ) : ∀ (cs : List (Call G R)) (s : σ) (e : E),
    (inTurn f s cs).2 = some e → ∃ l x, (inTurn f s cs).1 = l ++ [x] ∧ (f x.1 x.2).1 = .error e ∧ (∀ y ∈ l, ∃ r, (f y.1 y.2).1 = .ok r) ∧
      (inTurn f s cs).1.map Prod.fst <+: cs := by
  intro cs
  induction cs with
  | nil => intro s e h; simp [inTurn] at h
  | cons c cs ih =>
    intro s e h
    rw [inTurn] at h ⊢
    cases hf : f c s with
    | mk a s' =>
      rw [hf] at h
      cases a with
      | error e' =>
        simp only [Option.some.injEq] at h
        subst h
        exact ⟨[], (c, s), rfl, by rw [hf], by simp, by simp⟩
      | ok r =>
        obtain ⟨l, x, h1, h2, h3, h4⟩ := ih s' e h
        refine ⟨(c, s) :: l, x, by simp [h1], h2, fun y hy => ?_, ?_⟩
        · rcases List.mem_cons.1 hy with rfl | hy
          · exact ⟨r, by rw [hf]⟩
          · exact h3 y hy
        · simp only [List.map_cons]
          exact List.cons_prefix_cons.2 ⟨rfl, h4⟩

theorem chunks_flat (cs : Nat) (l : List α) : ∀ k, ((List.range k).map (PMap.chunk cs l)).flatten = l.take (k * cs) := by
  intro k
  induction k with
  | zero => simp
  | succ k ih =>
    rw [List.range_succ, List.map_append, List.flatten_append, ih, Nat.succ_mul, List.take_add]
    simp [PMap.chunk]

theorem chunks_all (n : Nat) (hn : 0 < n) (l : List α) :
    ((List.range (PMap.nrChunks (PMap.chunkSize n l.length) l.length)).map (PMap.chunk (PMap.chunkSize n l.length) l)).flatten = l := by
  rw [chunks_flat, List.take_of_length_le]
  by_cases hl : l.length = 0
  · omega
  generalize l.length = m at hl
  have hs : 0 < PMap.chunkSize n m := by
    unfold PMap.chunkSize
    split
    · next h =>
      have := Nat.div_add_mod m (n * 4)
      by_cases hd : m / (n * 4) = 0
      · rw [hd, h] at this; omega
      · rw [Nat.add_zero]; exact Nat.pos_of_ne_zero hd
    · exact Nat.succ_pos _
  generalize PMap.chunkSize n m = cs at hs
  unfold PMap.nrChunks
  rw [if_neg (by omega)]
  have h1 := Nat.div_add_mod m cs
  have h2 := Nat.mod_lt m hs
  split
  · rw [Nat.add_zero, Nat.mul_comm]; omega
  · rw [Nat.add_mul, Nat.mul_comm (m / cs)]; omega

theorem others_get (r : Option R) (ts : List G) (t : G) (i : Nat) :
    ((⟨0, t, true, none⟩ : Call G R) :: others r ts)[i]? = picture r (t :: ts) i := by
  cases i with
  | zero => rfl
  | succ i =>
    simp only [others, List.getElem?_cons_succ, List.getElem?_map, List.getElem?_zipIdx, picture]
    cases ts[i]? <;> simp

theorem head_digit (n : Nat) : 0 < n → (Nat.toDigits 10 n).head? ≠ some '0' := by
  induction n using Nat.strongRecOn with
  | ind n ih =>
    intro hn
    rw [Nat.toDigits_eq_if (by decide)]
    split
    · next h =>
      have : n = 1 ∨ n = 2 ∨ n = 3 ∨ n = 4 ∨ n = 5 ∨ n = 6 ∨ n = 7 ∨ n = 8 ∨ n = 9 := by omega
      rcases this with rfl | rfl | rfl | rfl | rfl | rfl | rfl | rfl | rfl <;> decide
    · next h =>
      have := ih (n / 10) (by omega) (by omega)
      cases hd : Nat.toDigits 10 (n / 10) with
      | nil => exact absurd hd Nat.toDigits_ne_nil
      | cons c l => rw [hd] at this; simpa using this

/-! ## texts -/

theorem commas_split (t : Text) : commas (LogValue.split ',' t) = t := by
  have h := LV.split_joined ',' t
  generalize LogValue.split ',' t = l at h
  induction h with
  | one _ => rfl
  | @more p s l _ hj ih =>
    cases l with
    | nil => cases hj
    | cons q l => rw [commas, ih]; simp

theorem drop_hats (h f : Text) (hh : ∀ c ∈ h, c = '^') (hf : f.head? ≠ some '^') : (h ++ f).dropWhile (· = '^') = f := by
  induction h with
  | nil =>
    cases f with
    | nil => rfl
    | cons c f =>
      rw [List.nil_append, List.dropWhile_cons]
      have : c ≠ '^' := fun e => hf (by rw [e]; rfl)
      simp [this]
  | cons c h ih =>
    rw [List.cons_append, List.dropWhile_cons]
    simp [hh c (by simp)]
    exact ih fun c hc => hh c (by simp [hc])

theorem blank_strip (s : Text) : LogValue.strip s = [] ↔ ∀ c ∈ s, Blank c := by
  rw [← LV.trimmed_iff]
  constructor
  · rintro ⟨a, b, h, ha, hb, _⟩
    intro c hc
    rw [h] at hc
    simp only [List.append_nil, List.nil_append, List.mem_append] at hc
    rcases hc with hc | hc
    · exact ha c hc
    · exact hb c hc
  · intro h
    exact ⟨s, [], by simp, h, by simp, by simp, by simp⟩

open Classical in
theorem slc_both (own : Text) (all : Option Text) :
    (let slc := match all with
      | none => own
      | some s => if own ≠ [] then commas [own, s] else s
     if LogValue.strip slc = [] then none else some slc) = if ∀ c ∈ both own all, Blank c then none else some (both own all) := by
  have : (match all with
      | none => own
      | some s => if own ≠ [] then commas [own, s] else s) = both own all := by
    cases all with
    | none => cases own <;> rfl
    | some t => cases own <;> simp [both, commas]
  simp only [this, blank_strip]

theorem count_pos {vs : List Var} {v : Var} (h : vs.head? = some v) (hv : hat v = false) : 0 < (vs.filter fun v => !hat v).length := by
  cases vs with
  | nil => cases h
  | cons w vs =>
    cases h
    simp [List.filter_cons, hv]

theorem axes_eq (vs : List Var) : axes vs = (vs.filter fun v => !hat v).length := by
  unfold axes hat
  congr 2
  funext v
  by_cases h : v.name.head? = some '^' <;> simp [h]

theorem axes_cons (v : Var) (vs : List Var) : axes (v :: vs) = (if hat v then 0 else 1) + axes vs := by
  rw [axes_eq, axes_eq, List.filter_cons]
  cases hat v <;> simp [Nat.add_comm]

theorem addOpts_eq (glob : Option Text) (o : Option (Option Text)) : addOpts glob o = options o glob := by
  cases o with
  | none => cases glob <;> rfl
  | some o =>
    cases glob with
    | none => cases o <;> rfl
    | some g => cases o <;> rfl

/-- What one variable asks for, the k-th, with n axes before it. -/
def one (rows cols : Nat) (transpose share : Bool) (glob selection : Option Text) (k n : Nat) (v : Var) : Panel :=
  let n := if hat v then n else n + 1
  ⟨rows, cols, if transpose then 0 else n - 1, if transpose then n - 1 else 0, !hat v, !hat v && share && k ≠ 0, (nameSlc selection v.name).1,
    (nameSlc selection v.name).2, addOpts glob v.opts⟩

theorem loop_ok (rows cols : Nat) (transpose share : Bool) (glob selection : Option Text) : ∀ (vs : List Var) (i n : Nat),
    (∀ v, vs.head? = some v → hat v = true → 0 < n) →
    ∃ ps, loop rows cols transpose share glob selection i n vs = .ok (ps, vs.map fun v => ⟨v.name, some (addOpts glob v.opts)⟩) ∧
      ∀ k, ps[k]? = vs[k]?.map (one rows cols transpose share glob selection (i + k) (n + axes (vs.take k))) := by
  intro vs
  induction vs with
  | nil => intro i n _; exact ⟨[], rfl, by simp⟩
  | cons v vs ih =>
    intro i n hn
    have hpos : 0 < (if hat v then n else n + 1) := by
      cases h : hat v with
      | true => simpa [h] using hn v rfl h
      | false => simp
    obtain ⟨ps, hps, hk⟩ := ih (i + 1) (if hat v then n else n + 1) (fun _ _ _ => hpos)
    rw [loop]
    simp only
    rw [if_neg (by omega), hps]
    refine ⟨_, rfl, fun k => ?_⟩
    cases k with
    | zero => simp [one, axes]
    | succ k =>
      rw [List.getElem?_cons_succ, List.getElem?_cons_succ, hk k, List.take_succ_cons, axes_cons,
        show i + (k + 1) = i + 1 + k by omega]
      congr 2
      cases hat v <;> simp <;> omega

theorem panels_ok (transpose share : Bool) (glob selection : Option Text) (vs : List Var) (v : Var) (hv : vs.head? = some v) (hh : hat v = false) :
    ∃ ps, panels transpose share glob selection vs = .ok (ps, vs.map fun v => ⟨v.name, some (addOpts glob v.opts)⟩) ∧
      ∀ k, ps[k]? = vs[k]?.map (one (if transpose then 1 else axes vs) (if transpose then axes vs else 1) transpose share glob selection k
        (axes (vs.take k))) := by
  have hpos := count_pos hv hh
  obtain ⟨ps, h1, h2⟩ := loop_ok (if transpose then 1 else axes vs) (if transpose then axes vs else 1) transpose share glob selection vs 0 0
    (fun w hw hh' => by rw [hv] at hw; cases hw; rw [hh] at hh'; cases hh')
  refine ⟨ps, ?_, fun k => ?_⟩
  · unfold panels
    simp only
    rw [if_neg (by omega)]
    rw [axes_eq] at h1
    exact h1
  · rw [h2 k]; simp

/-- options of the k-th picture -/
def optsAt (glob : Option Text) (o : Option (Option Text)) : Nat → Option (Option Text)
  | 0 => o
  | k + 1 => some (addOpts glob (optsAt glob o k))

theorem left_eq (transpose share : Bool) (glob selection : Option Text) (vs : List Var) (v : Var) (hv : vs.head? = some v) (hh : hat v = false) :
    ∀ k, leftAfter transpose share glob selection vs k = vs.map fun v => ⟨v.name, optsAt glob v.opts k⟩ := by
  intro k
  induction k with
  | zero =>
    show vs = _
    conv_lhs => rw [← List.map_id vs]
    rfl
  | succ k ih =>
    rw [leftAfter, ih]
    obtain ⟨ps, h1, _⟩ := panels_ok transpose share glob selection (vs.map fun v => ⟨v.name, optsAt glob v.opts k⟩) ⟨v.name, optsAt glob v.opts k⟩
      (by cases vs with
        | nil => cases hv
        | cons w vs => cases hv; rfl) hh
    rw [h1]
    simp only [List.map_map]
    rfl

theorem again_snoc (g : Text) (k : Nat) : again g k ++ ',' :: g = again g (k + 1) := by
  induction k with
  | zero => simp [again]
  | succ k ih =>
    rw [again, List.cons_append, List.cons_append, List.append_assoc, ih]
    rfl

theorem optsAt_some (g : Text) (o : Option (Option Text)) (t : Text) (h : addOpts (some g) o = some t) : ∀ k,
    addOpts (some g) (optsAt (some g) o k) = some (t ++ again g k) := by
  intro k
  induction k with
  | zero => simpa [again, optsAt] using h
  | succ k ih =>
    rw [optsAt, addOpts, ih]
    simp only [Option.getD_some, List.append_assoc]
    rw [again_snoc]

end MP
open MP

/-! ## C227 -/

/-- C227: each time has one picture, with the number of the time; the first is the first run and the others get what it has returned.  The pictures of each
process are made in the order of the times, and the parts put together are all times, whatever the number of processes and the order in which they finish. -/
theorem C227_each (f : Call G R → σ → Except E (Option R) × σ) (s : σ) (kw : Kwopts) (hkw : kw = .missing ∨ kw = .dict false) (procs : Int) (hp : 1 ≤ procs)
    (t : G) (ts : List G) (done : List Nat) (hf : ∀ c s, ∃ r, (f c s).1 = .ok r) :
    let d := makeMultiplot f s kw procs (t :: ts) done
    d.error = none ∧ ∃ r, (f ⟨0, t, true, none⟩ s).1 = .ok r ∧ ∀ i, (d.calls.flatten.map Prod.fst)[i]? = picture r (t :: ts) i := by
  obtain ⟨r, hr⟩ := hf ⟨0, t, true, none⟩ s
  have key : ∀ d : Done G R σ E, d = makeMultiplot f s kw procs (t :: ts) done →
      d.error = none ∧ d.calls.flatten.map Prod.fst = (⟨0, t, true, none⟩ : Call G R) :: others r ts := by
    rintro d rfl
    have hm : makeMultiplot f s kw procs (t :: ts) done = makeMultiplot f s .missing procs (t :: ts) done := by
      rcases hkw with rfl | rfl <;> rfl
    rw [hm]
    unfold makeMultiplot
    simp only
    cases h : f ⟨0, t, true, none⟩ s with
    | mk a s' =>
      rw [h] at hr
      cases hr
      simp only
      rw [if_neg (by omega)]
      by_cases h1 : procs = 1
      · rw [if_pos h1]
        obtain ⟨i1, i2⟩ := inTurn_ok f hf (others r ts) s'
        exact ⟨by simp [i1], by simp [i2]⟩
      · rw [if_neg h1]
        refine ⟨?_, ?_⟩
        · have : done.findSome? (fun i => (inTurn f s (PMap.chunk (PMap.chunkSize procs.toNat (others r ts).length) (others r ts) i)).2) = none := by
            rw [List.findSome?_eq_none_iff]
            intro i _
            exact (inTurn_ok f hf _ s).1
          simp [this]
        · have hc := chunks_all procs.toNat (by omega) (others r ts)
          rw [List.flatten_cons, List.map_append, List.map_flatten, List.map_map]
          have : (List.map Prod.fst ∘ fun i => (inTurn f s (PMap.chunk (PMap.chunkSize procs.toNat (others r ts).length) (others r ts) i)).1) =
              PMap.chunk (PMap.chunkSize procs.toNat (others r ts).length) (others r ts) := by
            funext i
            exact (inTurn_ok f hf _ s).2
          rw [this, hc]
          rfl
  obtain ⟨k1, k2⟩ := key _ rfl
  refine ⟨k1, r, hr, fun i => ?_⟩
  rw [k2, others_get]

example : ((makeMultiplot (E := Empty) (fun c (s : Nat) => (.ok (some c.tind), s + 1)) 7 .missing 2 ["a", "b", "c"] [1, 0]).calls.map
    fun l => l.map fun x => (x.1.tind, x.1.grid, x.1.firstRun, x.1.firstResult, x.2)) =
    [[(0, "a", true, none, 7)], [(1, "b", false, some 0, 7)], [(2, "c", false, some 0, 7)]] := rfl

/-- C227: a slice of times without any is a ValueError; no picture is made. -/
theorem C227_empty (f : Call G R → σ → Except E (Option R) × σ) (s : σ) (kw : Kwopts) (procs : Int) (done : List Nat) :
    makeMultiplot f s kw procs [] done = ⟨[], some .value⟩ := rfl

/-- C227: pictures made by one process find what the ones before have left of the objects they are all given.  With several processes, this is so for the
pictures of each part, and each part begins with the objects as they were given. -/
theorem C227_state (f : Call G R → σ → Except E (Option R) × σ) (s : σ) (kw : Kwopts) (procs : Int) (times : List G) (done : List Nat) :
    ∀ l ∈ (makeMultiplot f s kw procs times done).calls,
      (∀ x, l[0]? = some x → x.2 = s) ∧ ∀ (k : Nat) x y, l[k]? = some x → l[k + 1]? = some y → y.2 = (f x.1 x.2).2 := by
  intro l hl
  show Follows f s l
  have h1 : ∀ c : Call G R, Follows f s [(c, s)] := fun c => ⟨by simp, by simp⟩
  unfold makeMultiplot at hl
  cases times with
  | nil => simp at hl
  | cons t ts =>
    simp only at hl
    split at hl
    · simp at hl
    · simp at hl
    · cases h : f ⟨0, t, true, none⟩ s with
      | mk a s' =>
        rw [h] at hl
        cases a with
        | error e =>
          simp only [List.mem_singleton] at hl
          rw [hl]; exact h1 _
        | ok r =>
          simp only at hl
          split at hl
          · simp only [List.mem_singleton] at hl
            rw [hl]; exact h1 _
          · split at hl
            · simp only [List.mem_singleton] at hl
              rw [hl]
              refine follows_cons ?_
              rw [h]
              exact inTurn_follows f _ s'
            · rcases List.mem_cons.1 hl with hl | hl
              · rw [hl]; exact h1 _
              · obtain ⟨i, _, rfl⟩ := List.mem_map.1 hl
                exact inTurn_follows f _ s

/-- C227: with one process all pictures are made by it, one after the other. -/
theorem C227_one (f : Call G R → σ → Except E (Option R) × σ) (s : σ) (kw : Kwopts) (times : List G) (done : List Nat) :
    (makeMultiplot f s kw 1 times done).calls.length ≤ 1 := by
  unfold makeMultiplot
  cases times with
  | nil => simp
  | cons t ts =>
    simp only
    split
    · simp
    · simp
    · cases f ⟨0, t, true, none⟩ s with
      | mk a s' => cases a <;> simp

/-- C227: with one process, a picture that fails is the last one that is made, and its exception is that of the whole call. -/
theorem C227_fails (f : Call G R → σ → Except E (Option R) × σ) (s : σ) (kw : Kwopts) (t : G) (ts : List G) (done : List Nat) (e : E)
    (h : (makeMultiplot f s kw 1 (t :: ts) done).error = some (.func e)) :
    ∃ l x, (makeMultiplot f s kw 1 (t :: ts) done).calls = [l ++ [x]] ∧ (f x.1 x.2).1 = .error e ∧ (∀ y ∈ l, ∃ r, (f y.1 y.2).1 = .ok r) ∧
      ((l ++ [x]).map fun y => (y.1.grid, y.1.tind)) <+: (t :: ts).zipIdx := by
  unfold makeMultiplot at h ⊢
  simp only at h ⊢
  split at h
  · simp at h
  · simp at h
  · cases hf : f ⟨0, t, true, none⟩ s with
    | mk a s' =>
      rw [hf] at h
      cases a with
      | error e' =>
        simp only [Option.some.injEq, Err.func.injEq] at h
        subst h
        exact ⟨[], _, rfl, by rw [hf], by simp, by simp [List.zipIdx_cons]⟩
      | ok r =>
        simp only [Int.reduceLE, if_false, if_true] at h ⊢
        cases hx : (inTurn f s' (others r ts)).2 with
        | none => rw [hx] at h; simp at h
        | some e' =>
          rw [hx] at h
          simp only [Option.map_some, Option.some.injEq, Err.func.injEq] at h
          subst h
          obtain ⟨l, x, h1, h2, h3, h4⟩ := inTurn_fail f _ s' e' hx
          refine ⟨(⟨0, t, true, none⟩, s) :: l, x, by rw [h1]; rfl, h2, fun y hy => ?_, ?_⟩
          · rcases List.mem_cons.1 hy with rfl | hy
            · exact ⟨r, by rw [hf]⟩
            · exact h3 y hy
          · rw [h1] at h4
            have h5 := h4.map fun c : Call G R => (c.grid, c.tind)
            simp only [List.cons_append, List.map_cons, List.zipIdx_cons]
            refine List.cons_prefix_cons.2 ⟨rfl, ?_⟩
            have he : (others r ts).map (fun c : Call G R => (c.grid, c.tind)) = ts.zipIdx (0 + 1) := by
              rw [others, List.map_map]
              apply List.ext_getElem?
              intro i
              simp only [List.getElem?_map, List.getElem?_zipIdx]
              cases ts[i]? <;> simp; omega
            rw [he, List.map_map] at h5
            exact h5

example : makeMultiplot (G := Nat) (R := Unit) (E := Nat) (fun c (_ : Unit) => if c.grid = 2 then (.error 9, ()) else (.ok none, ())) () .missing 1 [1, 2, 3] [] =
    ⟨[[(⟨0, 1, true, none⟩, ()), (⟨1, 2, false, none⟩, ())]], some (.func 9)⟩ := rfl

/-- C227: without processes the first picture is made, then there is a ValueError. -/
theorem C227_procs (f : Call G R → σ → Except E (Option R) × σ) (s : σ) (kw : Kwopts) (hkw : kw = .missing ∨ kw = .dict false) (procs : Int) (hp : procs ≤ 0)
    (t : G) (ts : List G) (done : List Nat) (r : Option R) (hf : (f ⟨0, t, true, none⟩ s).1 = .ok r) :
    makeMultiplot f s kw procs (t :: ts) done = ⟨[[(⟨0, t, true, none⟩, s)]], some .value⟩ := by
  have hm : makeMultiplot f s kw procs (t :: ts) done = makeMultiplot f s .missing procs (t :: ts) done := by
    rcases hkw with rfl | rfl <;> rfl
  rw [hm]
  unfold makeMultiplot
  simp only
  cases h : f ⟨0, t, true, none⟩ s with
  | mk a s' =>
    rw [h] at hf
    cases hf
    simp only
    rw [if_pos hp]

/-- C227 is false: with "subplot_params" in kwopts, which is looked for, no picture is made, whatever the times, the function and the number of processes: there
is an UnboundLocalError. -/
theorem C227_subplot_violated (f : Call G R → σ → Except E (Option R) × σ) (s : σ) (procs : Int) (t : G) (ts : List G) (done : List Nat) :
    makeMultiplot f s (.dict true) procs (t :: ts) done = ⟨[], some .unbound⟩ := rfl

/-- C227 is false: `kwopts=None`, which `_do_multiplot` takes for no options, is a TypeError, and no picture is made. -/
theorem C227_none_violated (f : Call G R → σ → Except E (Option R) × σ) (s : σ) (procs : Int) (t : G) (ts : List G) (done : List Nat) :
    makeMultiplot f s .none procs (t :: ts) done = ⟨[], some .type⟩ := rfl

/-! ## C228 -/

open Classical in
/-- C228: each variable asks for the field and the selection in its text; a selection for all variables is added to it. -/
theorem C228_field (n f s : Text) (sel : Option Text) (h : Asks n f s) :
    nameSlc sel n = (f, if ∀ c ∈ both s sel, Blank c then none else some (both s sel)) := by
  cases h with
  | @name h f hh hf hc he =>
    unfold nameSlc
    simp only [drop_hats _ _ hh hf, LV.split_none _ _ hc, List.headD_cons, if_neg he, List.tail_cons]
    exact Prod.ext rfl (slc_both [] sel)
  | @slice h f s hh hf hc he =>
    have hf' : (f ++ ',' :: s).head? ≠ some '^' := by
      cases f with
      | nil => simp
      | cons c f => simpa using hf
    unfold nameSlc
    simp only [drop_hats _ _ hh hf', LV.split_append _ _ _ hc, List.headD_cons, if_neg he, List.tail_cons, commas_split]
    exact Prod.ext rfl (slc_both s sel)
  | @equation h a b hh ha hc =>
    have ha' : (a ++ '=' :: b).head? ≠ some '^' := by
      cases a with
      | nil => simp
      | cons c a => simpa using ha
    have hfirst : '=' ∈ (LogValue.split ',' (a ++ '=' :: b)).headD [] := by
      clear ha ha'
      induction a with
      | nil =>
        rw [List.nil_append, LogValue.split, if_neg (by decide)]
        split <;> simp
      | cons c a ih =>
        have hcc : c ≠ ',' := fun e => hc (by simp [e])
        have := ih fun h => hc (by simp [h])
        rw [List.cons_append, LogValue.split, if_neg hcc]
        split
        · next h => rw [h] at this; simp at this
        · next h => rw [h] at this; simpa using .inr this
    unfold nameSlc
    simp only [drop_hats _ _ hh ha', if_pos hfirst, commas_split]
    exact Prod.ext rfl (slc_both [] sel)

/-- C228: every text asks for something. -/
theorem C228_every (n : Text) : ∃ f s, Asks n f s := by
  obtain ⟨h, m, rfl, hh, hm⟩ : ∃ h m, n = h ++ m ∧ (∀ c ∈ h, c = '^') ∧ m.head? ≠ some '^' := by
    induction n with
    | nil => exact ⟨[], [], rfl, by simp, by simp⟩
    | cons c n ih =>
      by_cases hc : c = '^'
      · obtain ⟨h, m, rfl, hh, hm⟩ := ih
        exact ⟨c :: h, m, rfl, by simpa [hc] using hh, hm⟩
      · exact ⟨[], c :: n, rfl, by simp, by simpa using hc⟩
  have first : ∀ (p : Text), ',' ∈ p → ∃ a b, p = a ++ ',' :: b ∧ ',' ∉ a := fun p hp => by
    induction p with
    | nil => simp at hp
    | cons c p ih =>
      by_cases hc : c = ','
      · exact ⟨[], p, by rw [hc]; rfl, by simp⟩
      · obtain ⟨a, b, h1, h2⟩ := ih (by simpa [Ne.symm hc] using hp)
        exact ⟨c :: a, b, by rw [h1]; rfl, by simp [h2, Ne.symm hc]⟩
  have key : ∀ (p q : Text), ',' ∉ p → p.head? ≠ some '^' → '=' ∈ p → ∃ f s, Asks (h ++ (p ++ q)) f s := by
    intro p q hp hp' he
    obtain ⟨a, b, rfl⟩ := List.append_of_mem he
    refine ⟨a ++ '=' :: (b ++ q), [], ?_⟩
    rw [List.append_assoc, List.cons_append]
    refine .equation hh ?_ (fun h => hp (by simp [h]))
    cases a with
    | nil => simp
    | cons c a => simpa using hp'
  by_cases hc : ',' ∈ m
  · obtain ⟨a, b, rfl, ha⟩ := first m hc
    have hm' : a.head? ≠ some '^' := by
      cases a with
      | nil => simp
      | cons c a => simpa using hm
    by_cases he : '=' ∈ a
    · exact key a (',' :: b) ha hm' he
    · exact ⟨a, b, .slice hh hm' ha he⟩
  · by_cases he : '=' ∈ m
    · have := key m [] hc hm he
      rwa [List.append_nil] at this
    · exact ⟨m, [], .name hh hm hc he⟩

example : nameSlc (some "z=1".toList) "^pp,y=0".toList = ("pp".toList, some "y=0,z=1".toList) := by decide
example : nameSlc none "a=min(b,c)".toList = ("a=min(b,c)".toList, none) := by decide

/-- C228: if the first variable has no hat, each variable has its panel: those without a hat have new axes, below each other (or beside each other if
transposed), as many as there are such variables; those with a hat are drawn where the one before them is.  All but the first share its limits if that is asked
for.  The options are those of the variable with those for all. -/
theorem C228_panels (transpose share : Bool) (glob sel : Option Text) (v0 : Var) (vs : List Var) (h0 : v0.name.head? ≠ some '^') :
    ∃ ps ws, panels transpose share glob sel (v0 :: vs) = .ok (ps, ws) ∧ ps.length = (v0 :: vs).length ∧
      ∀ (k : Nat) v, (v0 :: vs)[k]? = some v → ∃ p, ps[k]? = some p ∧
        1 ≤ axes ((v0 :: vs).take (k + 1)) ∧ axes ((v0 :: vs).take (k + 1)) ≤ axes (v0 :: vs) ∧
        (if transpose then (p.row, p.col) else (p.col, p.row)) = (0, axes ((v0 :: vs).take (k + 1)) - 1) ∧
        (if transpose then (p.rows, p.cols) else (p.cols, p.rows)) = (1, axes (v0 :: vs)) ∧
        (p.fresh = true ↔ v.name.head? ≠ some '^') ∧ (p.shared = true ↔ share = true ∧ k ≠ 0 ∧ v.name.head? ≠ some '^') ∧
        (p.fld, p.slc) = nameSlc sel v.name ∧ p.opts = options v.opts glob := by
  have hh : hat v0 = false := by simpa [hat] using h0
  obtain ⟨ps, h1, h2⟩ := panels_ok transpose share glob sel (v0 :: vs) v0 rfl hh
  refine ⟨ps, _, h1, ?_, fun k v hv => ?_⟩
  · have e : ∀ k : Nat, ps[k]? = none ↔ (v0 :: vs)[k]? = none := by
      intro k; rw [h2 k]; simp
    have a := e ps.length
    have b := e (v0 :: vs).length
    rw [List.getElem?_eq_none_iff, List.getElem?_eq_none_iff] at a b
    have := a.1 (Nat.le_refl _)
    have := b.2 (Nat.le_refl _)
    omega
  · have h3 := h2 k
    rw [hv] at h3
    refine ⟨_, h3, ?_, ?_, ?_⟩
    · rw [List.take_succ_cons, axes_cons, hh]; simp
    · rw [axes_eq, axes_eq]
      exact (List.Sublist.filter _ (List.take_sublist _ _)).length_le
    have hax : axes ((v0 :: vs).take (k + 1)) = if hat v then axes ((v0 :: vs).take k) else axes ((v0 :: vs).take k) + 1 := by
      rw [List.take_add_one, hv, axes_eq, List.filter_append, List.length_append, ← axes_eq]
      cases hat' : hat v <;> simp [List.filter_cons, hat']
    have hhat : (hat v = true) ↔ v.name.head? = some '^' := by simp [hat]
    refine ⟨?_, ?_, ?_, ?_, rfl, addOpts_eq _ _⟩
    · rw [hax]; cases transpose <;> rfl
    · cases transpose <;> rfl
    · simp only [one]
      rw [ne_eq, ← hhat]; cases hat v <;> simp
    · simp only [one]
      have : v.name.head? ≠ some '^' ↔ hat v = false := by rw [ne_eq, ← hhat]; simp
      rw [this]; cases hat v <;> cases share <;> simp

example : (match panels false true (some "g".toList) none [⟨"pp".toList, none⟩, ⟨"^b,y=0".toList, some (some "x".toList)⟩, ⟨"vx".toList, some none⟩] with
    | .ok x => x.1.map fun p => (p.row, p.fresh, p.shared, p.fld, p.opts)
    | .error _ => []) = [(0, true, false, "pp".toList, some "g".toList), (0, false, false, "b".toList, some "x,g".toList),
      (1, true, true, "vx".toList, some "None,g".toList)] := rfl

/-- C228: a first variable with a hat is a ValueError; if all have one, nothing is drawn. -/
theorem C228_hat (transpose share : Bool) (glob sel : Option Text) (v0 : Var) (vs : List Var) (h0 : v0.name.head? = some '^') :
    panels transpose share glob sel (v0 :: vs) = if ∃ v ∈ vs, v.name.head? ≠ some '^' then .error .value else .ok ([], v0 :: vs) := by
  have hh : hat v0 = true := by simpa [hat] using h0
  unfold panels
  simp only [List.filter_cons, hh, Bool.not_true, Bool.false_eq_true, if_false]
  split
  · next hl =>
    rw [if_neg]
    rintro ⟨v, hv, hn⟩
    have : v ∈ vs.filter fun v => !hat v := List.mem_filter.2 ⟨hv, by simpa [hat] using hn⟩
    rw [List.length_eq_zero_iff.1 hl] at this
    simp at this
  · next hl =>
    have hex : ∃ v ∈ vs, v.name.head? ≠ some '^' := by
      cases hf : vs.filter fun v => !hat v with
      | nil => rw [hf] at hl; simp at hl
      | cons v l =>
        have : v ∈ vs.filter fun v => !hat v := by rw [hf]; simp
        obtain ⟨h1, h2⟩ := List.mem_filter.1 this
        exact ⟨v, h1, by simpa [hat] using h2⟩
    rw [if_pos hex, loop]
    simp [hh]

/-- C228 is false: the options for all variables are added again for each picture the same process makes: to those of the picture number k, which are to be
those of the first picture, they are added k times more. -/
theorem C228_again_violated (transpose share : Bool) (g : Text) (sel : Option Text) (v0 : Var) (vs : List Var) (h0 : v0.name.head? ≠ some '^') (k j : Nat) (v : Var)
    (hv : (v0 :: vs)[j]? = some v) : ∃ ps ws ps' ws' p p' t,
      panels transpose share (some g) sel (v0 :: vs) = .ok (ps, ws) ∧ ps[j]? = some p ∧ p.opts = some t ∧
      panels transpose share (some g) sel (leftAfter transpose share (some g) sel (v0 :: vs) k) = .ok (ps', ws') ∧ ps'[j]? = some p' ∧
      p' = { p with opts := some (t ++ again g k) } := by
  have hh : hat v0 = false := by simpa [hat] using h0
  obtain ⟨ps, h1, h2⟩ := panels_ok transpose share (some g) sel (v0 :: vs) v0 rfl hh
  rw [left_eq transpose share (some g) sel (v0 :: vs) v0 rfl hh k]
  obtain ⟨ps', h1', h2'⟩ := panels_ok transpose share (some g) sel ((v0 :: vs).map fun v => ⟨v.name, optsAt (some g) v.opts k⟩)
    ⟨v0.name, optsAt (some g) v0.opts k⟩ rfl hh
  have ht : ∃ t, addOpts (some g) v.opts = some t := by
    cases v.opts with
    | none => exact ⟨_, rfl⟩
    | some o => exact ⟨_, rfl⟩
  obtain ⟨t, ht⟩ := ht
  have e := h2 j
  have e' := h2' j
  rw [hv] at e
  rw [List.getElem?_map, hv] at e'
  refine ⟨ps, _, ps', _, _, _, t, h1, e, ht, h1', e', ?_⟩
  have hax : ∀ l : List Var, axes (l.map fun v => ⟨v.name, optsAt (some g) v.opts k⟩) = axes l := by
    intro l
    induction l with
    | nil => rfl
    | cons w l ih => rw [List.map_cons, axes_cons, axes_cons, ih]; rfl
  simp only [one, ← List.map_take, hax]
  rw [optsAt_some g v.opts t ht k]
  rfl

example : (leftAfter false false (some "log".toList) none [⟨"pp".toList, none⟩] 3) = [⟨"pp".toList, some (some "log,log,log".toList)⟩] := by decide

/-- C228: without options for all, all pictures have the same options. -/
theorem C228_same (transpose share : Bool) (sel : Option Text) (v0 : Var) (vs : List Var) (h0 : v0.name.head? ≠ some '^') (k : Nat) :
    ∃ ps ws ws', panels transpose share none sel (v0 :: vs) = .ok (ps, ws) ∧
      panels transpose share none sel (leftAfter transpose share none sel (v0 :: vs) k) = .ok (ps, ws') := by
  have hh : hat v0 = false := by simpa [hat] using h0
  obtain ⟨ps, h1, h2⟩ := panels_ok transpose share none sel (v0 :: vs) v0 rfl hh
  rw [left_eq transpose share none sel (v0 :: vs) v0 rfl hh k]
  obtain ⟨ps', h1', h2'⟩ := panels_ok transpose share none sel ((v0 :: vs).map fun v => ⟨v.name, optsAt none v.opts k⟩)
    ⟨v0.name, optsAt none v0.opts k⟩ rfl hh
  have ho : ∀ o k, addOpts none (optsAt none o k) = addOpts none o := by
    intro o k
    induction k with
    | zero => rfl
    | succ k ih => rw [optsAt]; exact ih
  have hax : ∀ l : List Var, axes (l.map fun v => ⟨v.name, optsAt none v.opts k⟩) = axes l := by
    intro l
    induction l with
    | nil => rfl
    | cons w l ih => rw [List.map_cons, axes_cons, axes_cons, ih]; rfl
  have : ps' = ps := by
    apply List.ext_getElem?
    intro j
    rw [h2 j, h2' j, List.getElem?_map]
    cases (v0 :: vs)[j]? with
    | none => rfl
    | some v =>
      simp only [Option.map_some, one, ← List.map_take, hax, ho]
      rfl
  exact ⟨ps, _, _, h1, this ▸ h1'⟩

namespace MP
open Viscid.PlotOpts

def puts (kw : Kw V) (ms : List (Option (Text × Val V))) : Kw V := ms.foldl (fun kw m => match m with
  | none => kw
  | some (k, v) => kw.put k v) kw

theorem options_puts (w : World V) : ∀ (os : List Text) (kw : Kw V), PlotOpts.options w os kw = (os.mapM (option w)).map (puts kw) := by
  intro os
  induction os with
  | nil => intro kw; rfl
  | cons o os ih =>
    intro kw
    rw [PlotOpts.options, List.mapM_cons]
    cases ho : option w o with
    | error e => rfl
    | ok m =>
      cases m with
      | none =>
        show PlotOpts.options w os kw = _
        rw [ih]
        cases hm : List.mapM (option w) os <;> rfl
      | some p =>
        obtain ⟨k, v⟩ := p
        show PlotOpts.options w os (kw.put k v) = _
        rw [ih]
        cases hm : List.mapM (option w) os <;> rfl

theorem puts_get (ms : List (Option (Text × Val V))) : ∀ k, (∃ v, ∀ kw : Kw V, puts kw ms k = some v) ∨ ∀ kw : Kw V, puts kw ms k = kw k := by
  intro k
  induction ms with
  | nil => exact .inr fun _ => rfl
  | cons m ms ih =>
    rcases ih with ⟨v, h⟩ | h
    · exact .inl ⟨v, fun kw => h _⟩
    · cases m with
      | none => exact .inr fun kw => h _
      | some p =>
        obtain ⟨k', v⟩ := p
        by_cases hk : k = k'
        · exact .inl ⟨v, fun kw => by
            show puts (kw.put k' v) ms k = _
            rw [h]; simp [Kw.put, hk]⟩
        · exact .inr fun kw => by
            show puts (kw.put k' v) ms k = _
            rw [h]; simp [Kw.put, hk]

theorem puts_twice (ms : List (Option (Text × Val V))) (kw : Kw V) : puts (puts kw ms) ms = puts kw ms := by
  funext k
  rcases puts_get ms k with ⟨v, h⟩ | h
  · rw [h, h]
  · rw [h]

theorem options_append (w : World V) (a b : List Text) (kw : Kw V) : PlotOpts.options w (a ++ b) kw = (PlotOpts.options w a kw).bind (PlotOpts.options w b) := by
  induction a generalizing kw with
  | nil => rfl
  | cons o a ih =>
    rw [List.cons_append, PlotOpts.options, PlotOpts.options]
    cases option w o with
    | error e => rfl
    | ok m =>
      cases m with
      | none => exact ih kw
      | some p => exact ih _

theorem options_twice (w : World V) (b : List Text) (kw r : Kw V) (h : PlotOpts.options w b kw = .ok r) : PlotOpts.options w b r = .ok r := by
  rw [options_puts] at h ⊢
  cases hm : List.mapM (option w) b with
  | error e => rw [hm] at h; cases h
  | ok ms =>
    rw [hm] at h
    injection h with h
    show Except.ok (puts r ms) = _
    rw [← h, puts_twice]

theorem split_app (p s : Text) : LogValue.split ',' (p ++ ',' :: s) = LogValue.split ',' p ++ LogValue.split ',' s := by
  have h := LV.split_joined ',' p
  generalize LogValue.split ',' p = l at h
  induction h with
  | one hp => rw [LV.split_append _ _ _ hp]; rfl
  | more hp _ ih => rw [List.append_assoc, List.cons_append, LV.split_append _ _ _ hp, ih]; rfl

theorem options_more (w : World V) (kw : Kw V) (t g : Text) (ht : t = g ∨ ∃ p, t = p ++ ',' :: g) : ∀ k,
    PlotOpts.options w (LogValue.split ',' (t ++ again g k)) kw = PlotOpts.options w (LogValue.split ',' t) kw := by
  have hlast : ∀ r, PlotOpts.options w (LogValue.split ',' t) kw = .ok r → PlotOpts.options w (LogValue.split ',' g) r = .ok r := by
    intro r hr
    rcases ht with rfl | ⟨p, rfl⟩
    · exact options_twice w _ _ _ hr
    · rw [split_app, options_append] at hr
      cases hp : PlotOpts.options w (LogValue.split ',' p) kw with
      | error e => rw [hp] at hr; cases hr
      | ok q => rw [hp] at hr; exact options_twice w _ _ _ hr
  intro k
  induction k with
  | zero => simp [again]
  | succ k ih =>
    rw [← again_snoc, ← List.append_assoc, split_app, options_append, ih]
    cases hr : PlotOpts.options w (LogValue.split ',' t) kw with
    | error e => rfl
    | ok r => exact hlast r hr

end MP

open Viscid.PlotOpts Viscid.Spec.PlotOpts in
/-- C228: with options with commas the plots are the same all the same, as the last of the options with a name counts: for every text of options t, which ends
with those for all, t with those for all added k times more means the same. -/
theorem C228_meaning_partial (w : World V) (kw : Kw V) (t g : Text) (ht : t = g ∨ ∃ p, t = p ++ ',' :: g) (htrim : Trimmed t t) (hg : g ≠ [])
    (hb : ¬ Braced t) (k : Nat) : toKwargs w (t ++ again g k) kw = toKwargs w t kw := by
  have htn : t ≠ [] := by
    rcases ht with rfl | ⟨p, rfl⟩
    · exact hg
    · simp
  obtain ⟨c, u, rfl⟩ : ∃ c u, t = c :: u := by
    cases t with
    | nil => exact absurd rfl htn
    | cons c u => exact ⟨c, u, rfl⟩
  have hl : (again g k ≠ [] → (again g k).getLast? = g.getLast?) := by
    induction k with
    | zero => intro h; exact absurd rfl h
    | succ k ih =>
      intro _
      rw [← again_snoc, List.getLast?_append]
      cases g with
      | nil => exact absurd rfl hg
      | cons d g => simp [List.getLast?_cons]
  have htl : (c :: u).getLast? = g.getLast? := by
    rcases ht with h | ⟨p, h⟩
    · rw [h]
    · rw [h, List.getLast?_append]
      cases g with
      | nil => exact absurd rfl hg
      | cons d g => simp [List.getLast?_cons]
  have hlast : (c :: u ++ again g k).getLast? = (c :: u).getLast? := by
    rw [List.getLast?_append]
    by_cases ha : again g k = []
    · rw [ha]; rfl
    · rw [hl ha, htl]
      cases g with
      | nil => exact absurd rfl hg
      | cons d g => simp [List.getLast?_cons]
  have htrim' : Trimmed (c :: u ++ again g k) (c :: u ++ again g k) := by
    obtain ⟨a, b, h1, h2, h3, h4, h5⟩ := htrim
    refine ⟨[], [], by simp, by simp, by simp, ?_, ?_⟩
    · intro x hx
      exact h4 x (by simpa using hx)
    · intro x hx
      exact h5 x (by rw [hlast] at hx; exact hx)
  have hb' : ¬ Braced (c :: u ++ again g k) := by
    rintro ⟨m, h1, h2⟩
    rw [hlast] at h2
    have hc : c = '{' := by rw [List.cons_append] at h1; exact (List.cons.inj h1).1
    exact hb ⟨u, by rw [hc], h2⟩
  rw [PO.to_options w _ _ htrim' (by simp) hb' kw, PO.to_options w _ _ htrim htn hb kw]
  exact options_more w kw (c :: u) g ht k

open Viscid.PlotOpts Viscid.Spec.PlotOpts in
/-- C228 is false: with options for all in the way of yaml, the second picture is drawn with other options than the first one, as yaml is asked for the text of
two mappings with a comma between them. -/
theorem C228_yaml_violated (w : World V) (kw : Kw V) (g : Text) (htrim : Trimmed g g) (hb : Braced g) :
    toKwargs w g kw = (w.yaml g).map (fun d => d.foldl (fun kw p => kw.put p.1 (.one (if p.2.isNone then .bool true else p.2))) kw) ∧
    toKwargs w (g ++ again g 1) kw =
      (w.yaml (g ++ ',' :: g)).map (fun d => d.foldl (fun kw p => kw.put p.1 (.one (if p.2.isNone then .bool true else p.2))) kw) := by
  have key : ∀ t, Trimmed t t → Braced t → toKwargs w t kw =
      (w.yaml t).map (fun d => d.foldl (fun kw p => kw.put p.1 (.one (if p.2.isNone then .bool true else p.2))) kw) := by
    intro t ht hb
    have e := (LV.trimmed_iff t t).1 ht
    obtain ⟨m, rfl, hl⟩ := hb
    unfold toKwargs
    rw [if_neg (by simp)]
    simp only [e, List.head?_cons, hl]
    rw [if_pos ⟨trivial, trivial⟩]
    cases w.yaml ('{' :: m) <;> rfl
  refine ⟨key g htrim hb, ?_⟩
  have ha : g ++ again g 1 = g ++ ',' :: g := by simp [again]
  rw [ha]
  obtain ⟨m, rfl, hl⟩ := hb
  have hlast : ('{' :: m ++ ',' :: '{' :: m).getLast? = some '}' := by
    rw [List.getLast?_append, List.getLast?_cons, hl]
    simp
  refine key _ ?_ ⟨m ++ ',' :: '{' :: m, rfl, hlast⟩
  obtain ⟨a, b, h1, h2, h3, h4, h5⟩ := htrim
  refine ⟨[], [], by simp, by simp, by simp, ?_, ?_⟩
  · intro x hx; exact h4 x (by simpa using hx)
  · intro x hx
    exact h5 x (by rw [hlast] at hx; rw [hl]; exact hx)

/-- C228: the pictures of the times have files with the numbers 1, 2, 3, ... in six digits or more, so that no two are the same. -/
theorem C228_files (c : Char) (p fmt : Text) (i : Nat) :
    (∃ d, fileName (some (c :: p)) fmt i = some (c :: p ++ '_' :: (d ++ '.' :: fmt)) ∧ 6 ≤ d.length ∧ (∀ x ∈ d, x.isDigit) ∧
      (6 < d.length → d.head? ≠ some '0') ∧ Nat.ofDigitChars 10 d 0 = i + 1) ∧
    ∀ j, fileName (some (c :: p)) fmt i = fileName (some (c :: p)) fmt j → i = j := by
  have hz : ∀ n (u : Text), Nat.ofDigitChars 10 (List.replicate n '0' ++ u) 0 = Nat.ofDigitChars 10 u 0 := by
    intro n
    induction n with
    | zero => intro u; rfl
    | succ n ih =>
      intro u
      rw [List.replicate_succ, List.cons_append, Nat.ofDigitChars_cons]
      exact ih u
  have hv : ∀ i, Nat.ofDigitChars 10 (TimeText.zfill 6 (Nat.toDigits 10 (i + 1))) 0 = i + 1 := fun i => by
    rw [TimeText.zfill, hz, Nat.ofDigitChars_ten_toDigits]
  refine ⟨⟨_, rfl, ?_, ?_, ?_, hv i⟩, fun j hj => ?_⟩
  · simp [TimeText.zfill]; omega
  · intro x hx
    rw [TimeText.zfill, List.mem_append] at hx
    rcases hx with hx | hx
    · rw [(List.mem_replicate.1 hx).2]; decide
    · exact Nat.isDigit_of_mem_toDigits (by decide) (by decide) hx
  · intro hlen
    have h0 : 6 - (Nat.toDigits 10 (i + 1)).length = 0 := by
      simp only [TimeText.zfill, List.length_append, List.length_replicate] at hlen
      omega
    rw [TimeText.zfill, h0, List.replicate_zero, List.nil_append]
    exact head_digit (i + 1) (by omega)
  · simp only [fileName, Option.some.injEq, List.cons_append, List.cons.injEq, true_and] at hj
    have := List.append_cancel_left hj
    simp only [List.cons.injEq, true_and] at this
    have h2 := (List.append_inj' this (by simp)).1
    have := congrArg (fun d => Nat.ofDigitChars 10 d 0) h2
    simp only [hv] at this
    omega

example : fileName (some "a".toList) "png".toList 41 = some "a_000042.png".toList := by decide

/-- C228: without a prefix nothing is saved; an empty one counts as none. -/
theorem C228_show (fmt : Text) (i : Nat) : fileName none fmt i = none ∧ fileName (some []) fmt i = none := ⟨rfl, rfl⟩

/-- C228: all pictures after the first one have its subplot parameters, unless others are given. -/
theorem C228_subplots (x : P) (xs : List P) (y : P) (ys : List P) :
    subplotParams none (some (x :: xs)) = some (x :: xs) ∧ subplotParams (some []) (some (x :: xs)) = some (x :: xs) ∧
    (∀ first, subplotParams (some (y :: ys)) first = some (y :: ys)) ∧ subplotParams (P := P) none none = none := by
  refine ⟨rfl, rfl, fun first => ?_, rfl⟩
  simp [subplotParams]

end Viscid.Props
