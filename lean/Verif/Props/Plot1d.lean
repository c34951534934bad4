import Verif.Model.Plot1d
import Mathlib.Tactic.Ring
import Mathlib.Tactic.Linarith
/-!
# C254: plots of one-dimensional fields
-/
namespace Viscid.Spec.Plot1d

/-- the points of one block, scaled -/
def points (m s : ℚ) (x : List ℚ) (d : List (Option ℚ)) : List (ℚ × Option ℚ) := List.zipWith (fun x v => (x * m, v.map (· * s))) x d

/-- values shown: finite ones -/
def Shown (line : List (ℚ × Option ℚ)) (v : ℚ) : Prop := ∃ x, (x, some v) ∈ line

end Viscid.Spec.Plot1d

namespace Viscid.Props
open Viscid.Plot1d
open Viscid.Spec.Plot1d

namespace P1

theorem concat (m s : ℚ) (ps : List Patch) (h : ∀ p ∈ ps, p.x.length = p.data.length) :
    ((ps.flatMap Patch.x).map (· * m)).zip ((ps.flatMap Patch.data).map fun v => v.map (· * s)) = ps.flatMap fun p => points m s p.x p.data := by
  induction ps with
  | nil => rfl
  | cons p ps ih =>
    simp only [List.flatMap_cons, List.map_append]
    rw [List.zip_append (by simpa using h p List.mem_cons_self), ih fun q hq => h q (List.mem_cons_of_mem _ hq)]
    congr 1
    rw [points, List.zip_map]
    rw [List.zip, List.map_zipWith]
    rfl

theorem lengths (ps : List Patch) (h : ∀ p ∈ ps, p.x.length = p.data.length) : (ps.flatMap Patch.x).length = (ps.flatMap Patch.data).length := by
  induction ps with
  | nil => rfl
  | cons p ps ih =>
    simp only [List.flatMap_cons, List.length_append]
    rw [h p List.mem_cons_self, ih fun q hq => h q (List.mem_cons_of_mem _ hq)]

/-- the factor an option stands for -/
def fac : Option Factor → ℚ
  | none => 1
  | some f => f.val

theorem inPlace_x (k : Kind) (f : Option Factor) (l : List ℚ) (h0 : fac f ≠ 0) (hk : k = .int → ∀ g, f = some g → g.kind = .int) :
    inPlace k f (fun f v => v * f) l = .ok (l.map (· * fac f)) := by
  cases f with
  | none => simp [inPlace, fac]
  | some f =>
    simp only [fac] at h0
    simp only [inPlace, if_neg h0, fac]
    rw [if_neg]
    rintro ⟨h1, h2⟩
    rw [hk h1 f rfl] at h2
    cases h2

theorem inPlace_d (k : Kind) (f : Option Factor) (l : List (Option ℚ)) (h0 : fac f ≠ 0) (hk : k = .int → ∀ g, f = some g → g.kind = .int) :
    inPlace k f (fun f v => v.map (· * f)) l = .ok (l.map fun v => v.map (· * fac f)) := by
  cases f with
  | none =>
    simp only [inPlace, fac, mul_one]
    congr 1
    rw [List.map_congr_left (g := id)]
    · simp
    · intro a _; cases a <;> rfl
  | some f =>
    simp only [fac] at h0
    simp only [inPlace, if_neg h0, fac]
    rw [if_neg]
    rintro ⟨h1, h2⟩
    rw [hk h1 f rfl] at h2
    cases h2

theorem plot_eq (ps : List Patch) (kx kd : Kind) (mod scale : Option Factor) (n : Norm) (hp : ps ≠ []) (h : ∀ p ∈ ps, p.x.length = p.data.length)
    (hm : fac mod ≠ 0) (hs : fac scale ≠ 0) (hkx : kx = .int → ∀ g, mod = some g → g.kind = .int) (hkd : kd = .int → ∀ g, scale = some g → g.kind = .int) :
    plot1d ps kx kd mod scale n =
      match limits n ((ps.flatMap Patch.data).map fun v => v.map (· * fac scale)) with
      | .error e => .error e
      | .ok l => .ok ⟨ps.flatMap fun p => points (fac mod) (fac scale) p.x p.data, l⟩ := by
  have he : ps.isEmpty = false := by cases ps <;> simp_all
  have hl := lengths ps h
  unfold plot1d
  simp only [he, inPlace_x kx mod _ hm hkx, inPlace_d kd scale _ hs hkd, bind, Except.bind, Bool.false_eq_true, if_false, pure, Except.pure, List.length_map, hl, ne_eq, not_true_eq_false,
    concat _ _ ps h]
  cases limits n ((ps.flatMap Patch.data).map fun v => v.map (· * fac scale)) <;> rfl

end P1

/-- **C254** what is drawn: all points of all blocks in their order, coordinates times `mod` and values times `scale`; nothing else, whatever the limits -/
theorem C254_line (ps : List Patch) (kx kd : Kind) (mod scale : Option Factor) (n : Norm) (h : ∀ p ∈ ps, p.x.length = p.data.length)
    (m s : ℚ) (hm : m ≠ 0) (hs : s ≠ 0) (hmod : (mod = none ∧ m = 1) ∨ ∃ k, mod = some ⟨k, m⟩ ∧ (kx = .int → k = .int))
    (hscale : (scale = none ∧ s = 1) ∨ ∃ k, scale = some ⟨k, s⟩ ∧ (kd = .int → k = .int)) (d : Drawn) (hd : plot1d ps kx kd mod scale n = .ok d) :
    d.line = ps.flatMap fun p => points m s p.x p.data := by
  have hm' : P1.fac mod = m := by rcases hmod with ⟨rfl, rfl⟩ | ⟨k, rfl, -⟩ <;> rfl
  have hs' : P1.fac scale = s := by rcases hscale with ⟨rfl, rfl⟩ | ⟨k, rfl, -⟩ <;> rfl
  by_cases hp : ps = []
  · subst hp
    simp [plot1d, bind, Except.bind] at hd
  rw [P1.plot_eq ps kx kd mod scale n hp h (hm' ▸ hm) (hs' ▸ hs), hm', hs'] at hd
  · split at hd
    · cases hd
    · cases hd; rfl
  · rintro hk g rfl
    rcases hmod with ⟨h1, -⟩ | ⟨k, h1, h2⟩
    · cases h1
    · cases h1; exact h2 hk
  · rintro hk g rfl
    rcases hscale with ⟨h1, -⟩ | ⟨k, h1, h2⟩
    · cases h1
    · cases h1; exact h2 hk

/-- two blocks, one with a nan -/
example : plot1d [⟨[0, 1], [some 2, none]⟩, ⟨[2], [some (-6)]⟩] .flt .flt none (some ⟨.flt, 1 / 2⟩) ⟨some .lin, none, none, true⟩ =
    .ok ⟨[(0, some 1), (1, none), (2, some (-3))], some (some (some (-(16 / 5))), some (some (16 / 5)))⟩ := by decide +kernel

/-- **C254 is violated**: an option `mod` or `scale` of zero is not applied -/
theorem C254_zero_violated (ps : List Patch) (kx kd k k' : Kind) (n : Norm) :
    plot1d ps kx kd (some ⟨k, 0⟩) (some ⟨k', 0⟩) n = plot1d ps kx kd none none n := by
  simp [plot1d, inPlace]

/-- **C254 is violated**: integers are not scaled by a float at all: the plot raises -/
theorem C254_integer_violated (ps : List Patch) (kx : Kind) (s : ℚ) (hs : s ≠ 0) (n : Norm) (hp : ps ≠ []) :
    plot1d ps kx .int none (some ⟨.flt, s⟩) n = .error .typeError := by
  have he : ps.isEmpty = false := by cases ps <;> simp_all
  simp [plot1d, inPlace, he, hs, bind, Except.bind, pure, Except.pure]

namespace P1

theorem fold_max (l : List (Option ℚ)) (a : ℚ) : ∃ m, l.foldl (fun m v => match m, v with
    | some m, some v => if m < v then some v else some m
    | m, _ => m) (some a) = some m ∧ (m = a ∨ some m ∈ l) ∧ a ≤ m ∧ ∀ v, some v ∈ l → v ≤ m := by
  induction l generalizing a with
  | nil => exact ⟨a, rfl, .inl rfl, le_refl a, fun v h => by cases h⟩
  | cons x l ih =>
    cases x with
    | none =>
      obtain ⟨m, h1, h2, h3, h4⟩ := ih a
      refine ⟨m, h1, h2.imp_right (List.mem_cons_of_mem _), h3, fun v hv => h4 v ?_⟩
      rcases List.mem_cons.1 hv with h | h
      · cases h
      · exact h
    | some x =>
      obtain ⟨m, h1, h2, h3, h4⟩ := ih (if a < x then x else a)
      refine ⟨m, ?_, ?_, ?_, fun v hv => ?_⟩
      · rw [List.foldl_cons]
        split_ifs at h1 ⊢ <;> simpa [*] using h1
      · split_ifs at h2
        · rcases h2 with h2 | h2
          · right; rw [h2]; exact List.mem_cons_self
          · exact .inr (List.mem_cons_of_mem _ h2)
        · exact h2.imp_right (List.mem_cons_of_mem _)
      · split_ifs at h3 with hx <;> linarith
      · rcases List.mem_cons.1 hv with h | h
        · cases h
          split_ifs at h3 with hx <;> linarith
        · exact h4 v h

theorem fold_min (l : List (Option ℚ)) (a : ℚ) : ∃ m, l.foldl (fun m v => match m, v with
    | some m, some v => if v < m then some v else some m
    | m, _ => m) (some a) = some m ∧ (m = a ∨ some m ∈ l) ∧ m ≤ a ∧ ∀ v, some v ∈ l → m ≤ v := by
  induction l generalizing a with
  | nil => exact ⟨a, rfl, .inl rfl, le_refl a, fun v h => by cases h⟩
  | cons x l ih =>
    cases x with
    | none =>
      obtain ⟨m, h1, h2, h3, h4⟩ := ih a
      refine ⟨m, h1, h2.imp_right (List.mem_cons_of_mem _), h3, fun v hv => h4 v ?_⟩
      rcases List.mem_cons.1 hv with h | h
      · cases h
      · exact h
    | some x =>
      obtain ⟨m, h1, h2, h3, h4⟩ := ih (if x < a then x else a)
      refine ⟨m, ?_, ?_, ?_, fun v hv => ?_⟩
      · rw [List.foldl_cons]
        split_ifs at h1 ⊢ <;> simpa [*] using h1
      · split_ifs at h2
        · rcases h2 with h2 | h2
          · right; rw [h2]; exact List.mem_cons_self
          · exact .inr (List.mem_cons_of_mem _ h2)
        · exact h2.imp_right (List.mem_cons_of_mem _)
      · split_ifs at h3 with hx <;> linarith
      · rcases List.mem_cons.1 hv with h | h
        · cases h
          split_ifs at h3 with hx <;> linarith
        · exact h4 v h

theorem fold_none (F : ℚ → ℚ → Option ℚ) (l : List (Option ℚ)) : l.foldl (fun m v => match m, v with
    | some m, some v => F m v
    | m, _ => m) none = none := by
  induction l with
  | nil => rfl
  | cons x l ih => exact ih

end P1

/-- **C254** (partial: the first value must not be nan, see `C254_nan_violated`) symmetric limits of what is drawn: `-M` and `M`, where `M` is the greatest
absolute value shown and a twentieth of the range of the values shown; so all values shown are within -/
theorem C254_symmetric_partial (ps : List Patch) (kx kd : Kind) (mod scale : Option Factor) (d : Drawn) (lo hi : Option ℚ)
    (hd : plot1d ps kx kd mod scale ⟨some .lin, lo, hi, true⟩ = .ok d) (x0 v0 : ℚ) (rest : List (ℚ × Option ℚ)) (h0 : d.line = (x0, some v0) :: rest) :
    ∃ M a b, d.ylim = some (some (some (-M)), some (some M)) ∧ Shown d.line a ∧ Shown d.line b ∧ (∀ v, Shown d.line v → b ≤ v ∧ v ≤ a ∧ |v| ≤ M) ∧
      M = max |a| |b| + (a - b) / 20 := by
  unfold plot1d at hd
  simp only [bind, Except.bind] at hd
  split at hd
  · cases hd
  split at hd
  · cases hd
  next xs hxs =>
  split at hd
  · cases hd
  next ds hds =>
  split at hd
  · cases hd
  next hlen =>
  have hlen' : xs.length = ds.length := by
    by_contra hne
    simp [hne] at hlen
  split at hd
  · cases hd
  next lim hlim =>
  cases hd
  simp only at h0 ⊢
  match xs, ds, hlen', h0, hlim with
  | [], [], _, h0, _ => cases h0
  | x :: xs, w :: ds, hlen', h0, hlim =>
    simp only [List.zip_cons_cons, List.cons.injEq, Prod.mk.injEq] at h0
    obtain ⟨⟨rfl, rfl⟩, rfl⟩ := h0
    obtain ⟨a, a1, a2, a3, a4⟩ := P1.fold_max ds v0
    obtain ⟨b, b1, b2, b3, b4⟩ := P1.fold_min ds v0
    have hl : xs.length = ds.length := by simpa using hlen'
    have shown : ∀ v, Shown ((x, some v0) :: xs.zip ds) v ↔ v = v0 ∨ some v ∈ ds := by
      intro v
      constructor
      · rintro ⟨y, hy⟩
        rcases List.mem_cons.1 hy with hy | hy
        · simp only [Prod.mk.injEq, Option.some.injEq] at hy; exact .inl hy.2
        · exact .inr (List.of_mem_zip hy).2
      · rintro (rfl | hv)
        · exact ⟨x, List.mem_cons_self⟩
        · obtain ⟨i, hi, e⟩ := List.getElem_of_mem hv
          refine ⟨xs[i]'(hl ▸ hi), List.mem_cons_of_mem _ ?_⟩
          have : (xs.zip ds)[i]'(by simp [hl, hi]) = (xs[i]'(hl ▸ hi), some v) := by simp [e]
          rw [← this]
          exact List.getElem_mem _
    have hmv : maxval (some v0 :: ds) = .ok (some (max |a| |b| + 1 / 20 * (a - b))) := by
      have a1' : pyMax (some v0 :: ds) = .ok (some a) := congrArg Except.ok a1
      have b1' : pyMin (some v0 :: ds) = .ok (some b) := congrArg Except.ok b1
      simp only [maxval, a1', b1', bind, Except.bind]
      rfl
    have hlm : lim = some (some (some (-(max |a| |b| + 1 / 20 * (a - b)))), some (some (max |a| |b| + 1 / 20 * (a - b)))) := by
      simp only [limits, hmv, bind, Except.bind, if_true] at hlim
      simp at hlim
      rw [← hlim]
      simp
    refine ⟨max |a| |b| + 1 / 20 * (a - b), a, b, hlm, (shown a).2 a2, (shown b).2 b2, fun v hv => ?_, by ring⟩
    have hab : b ≤ v ∧ v ≤ a := by
      rcases (shown v).1 hv with rfl | hv
      · exact ⟨b3, a3⟩
      · exact ⟨b4 v hv, a4 v hv⟩
    refine ⟨hab.1, hab.2, ?_⟩
    have h1 := le_max_left |a| |b|
    have h2 := le_max_right |a| |b|
    have h3 := le_abs_self a
    have h4 := neg_abs_le b
    rw [abs_le]
    constructor <;> linarith [hab.1, hab.2]

/-- **C254 is violated**: if the first value is nan the symmetric limits are not numbers, whatever finite values follow -/
theorem C254_nan_violated (x : ℚ) (xs : List ℚ) (ds : List (Option ℚ)) (h : xs.length = ds.length) (kx kd : Kind) (lo hi : Option ℚ) :
    plot1d [⟨x :: xs, none :: ds⟩] kx kd none none ⟨some .lin, lo, hi, true⟩ = .ok ⟨(x, none) :: xs.zip ds, some (some none, some none)⟩ := by
  have e1 : pyMax (none :: ds) = .ok none := congrArg Except.ok (P1.fold_none (fun m v => if m < v then some v else some m) ds)
  have e2 : pyMin (none :: ds) = .ok none := congrArg Except.ok (P1.fold_none (fun m v => if v < m then some v else some m) ds)
  simp [plot1d, inPlace, h, limits, maxval, e1, e2, bind, Except.bind, pure, Except.pure]

/-- **C254** limits that are not symmetric are those given, both or one of them; without any, or if the values are not to be rescaled, none are set -/
theorem C254_limits (n : Norm) (dat : List (Option ℚ)) (hs : n.symmetric = false) :
    (n.vscale = none → limits n dat = .ok none) ∧
    (n.vscale ≠ none → n.vmin = none → n.vmax = none → limits n dat = .ok none) ∧
    (n.vscale ≠ none → (n.vmin ≠ none ∨ n.vmax ≠ none) → limits n dat = .ok (some (n.vmin.map some, n.vmax.map some))) := by
  obtain ⟨vs, lo, hi, sym⟩ := n
  subst hs
  refine ⟨?_, ?_, ?_⟩
  · rintro rfl
    simp [limits, bind, Except.bind]
  · rintro - h1 h2
    simp only at h1 h2
    subst h1 h2
    simp [limits, bind, Except.bind]
  · intro h1 h2
    cases vs with
    | none => exact absurd rfl h1
    | some s =>
      cases lo <;> cases hi <;> simp [limits, bind, Except.bind] at h2 ⊢

/-- **C254** symmetric limits of a logarithmic scale are refused -/
theorem C254_log (ps : List Patch) (kx kd : Kind) (mod scale : Option Factor) (lo hi : Option ℚ) (d : Drawn) :
    plot1d ps kx kd mod scale ⟨some .log, lo, hi, true⟩ ≠ .ok d := by
  intro hd
  unfold plot1d at hd
  simp only [bind, Except.bind] at hd
  split at hd
  · cases hd
  split at hd
  · cases hd
  split at hd
  · cases hd
  split at hd
  · cases hd
  simp [limits, bind, Except.bind] at hd

/-- **C254** plots with times: limits of an axis of times are converted, those of others are not; settings of the aspect are left out exactly if they are the default and
some axis has times; all else is kept, in its order -/
theorem C254_times (conv : L → L) (datefmt timefmt : String) (hd : datefmt ≠ "") (ht : timefmt ≠ "") (tx ty : Times) (isDefault : Bool) (acts : List (Action L)) :
    prepareTimes conv (timeFmt datefmt timefmt tx) (timeFmt datefmt timefmt ty) isDefault acts =
      acts.filterMap fun a => match a with
        | .axis s => if isDefault ∧ (tx ≠ .plain ∨ ty ≠ .plain) then none else some (.axis s)
        | .aspect => if isDefault ∧ (tx ≠ .plain ∨ ty ≠ .plain) then none else some .aspect
        | .xlim l => some (.xlim (if tx = .plain then l else conv l))
        | .ylim l => some (.ylim (if ty = .plain then l else conv l))
        | a => some a := by
  induction acts with
  | nil => cases tx <;> cases ty <;> cases isDefault <;> simp [prepareTimes, timeFmt, hd, ht]
  | cons a acts ih =>
    cases tx <;> cases ty <;> cases isDefault <;> cases a <;> simp [prepareTimes, timeFmt, hd, ht] at ih ⊢ <;> exact ih

example : prepareTimes (fun n : Nat => n + 100) (timeFmt "%Y" "%H" .dates) (timeFmt "%Y" "%H" .plain) true [.aspect, .xlim 1, .ylim 2] = [.xlim 101, .ylim 2] := by decide +kernel

/-- **C254** a space before the colour bar is set where none is given: exactly one dict of options is changed, one that is given if there is one, and a space that is
given in it is kept -/
theorem C254_pad (k : Kwargs) (pad : ℚ) (inplace : Bool) :
    (∀ d, k.colorbar = some (.dict d) → (setPad k pad inplace).1 = { k with colorbar := some (.dict (if d.lookup "pad" = none then d ++ [("pad", pad)] else d)) }) ∧
    (∀ d, (∀ d', k.colorbar ≠ some (.dict d')) → k.cbarKwargs = some d →
      (setPad k pad inplace).1 = { k with cbarKwargs := some (if d.lookup "pad" = none then d ++ [("pad", pad)] else d) }) ∧
    (∀ d, (∀ d', k.colorbar ≠ some (.dict d')) → k.cbarKwargs = none → k.colorbarKwargs = some d →
      (setPad k pad inplace).1 = { k with colorbarKwargs := some (if d.lookup "pad" = none then d ++ [("pad", pad)] else d) }) ∧
    ((∀ d', k.colorbar ≠ some (.dict d')) → k.cbarKwargs = none → k.colorbarKwargs = none →
      (setPad k pad inplace).1 = { k with cbarKwargs := some [("pad", pad)] } ∧ (inplace = false → (setPad k pad inplace).2 = k)) ∧
    (inplace = true → (setPad k pad inplace).2 = (setPad k pad inplace).1) := by
  have hp : ∀ d : Dict, addPad pad d = if d.lookup "pad" = none then d ++ [("pad", pad)] else d := fun d => by
    simp only [addPad]
    cases d.lookup "pad" <;> rfl
  obtain ⟨c, d1, d2⟩ := k
  refine ⟨?_, ?_, ?_, ?_, ?_⟩
  · rintro d rfl
    simp only [setPad, hp]
  · rintro d hc rfl
    match c, hc with
    | none, _ => simp only [setPad, hp]
    | some (.flag b), _ => simp only [setPad, hp]
    | some (.dict d'), hc => exact absurd rfl (hc d')
  · rintro d hc h1 rfl
    simp only at h1
    subst h1
    match c, hc with
    | none, _ => simp only [setPad, hp]
    | some (.flag b), _ => simp only [setPad, hp]
    | some (.dict d'), hc => exact absurd rfl (hc d')
  · rintro hc h1 h2
    simp only at h1 h2
    subst h1 h2
    match c, hc with
    | none, _ => exact ⟨rfl, fun h => by simp [setPad, h]⟩
    | some (.flag b), _ => exact ⟨rfl, fun h => by simp [setPad, h]⟩
    | some (.dict d'), hc => exact absurd rfl (hc d')
  · rintro rfl
    unfold setPad
    split
    · rfl
    · split
      · rfl
      · split <;> rfl

/-- **C254 is violated**: `inplace=False` does not keep the options of the caller as they are, if options of the colour bar are given without a space -/
theorem C254_inplace_violated (d : Dict) (k1 k2 : Option Dict) (pad : ℚ) (hd : d.lookup "pad" = none) :
    (setPad ⟨some (.dict d), k1, k2⟩ pad false).2 = ⟨some (.dict (d ++ [("pad", pad)])), k1, k2⟩ ∧
    (setPad ⟨some (.dict d), k1, k2⟩ pad false).2 ≠ ⟨some (.dict d), k1, k2⟩ := by
  constructor
  · simp [setPad, addPad, hd]
  · simp [setPad, addPad, hd]

example : ([("ticks", 3)] : Dict).lookup "pad" = none := rfl

end Viscid.Props
