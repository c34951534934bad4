import Verif.Spec.Athena
import Mathlib.Tactic.Positivity
/-!
# C195: fields of Athena grids
-/
namespace Viscid.Props
open Viscid.Athena
open Viscid.Spec.Athena

namespace Ath
variable {ι : Type}

/-- the numbers of a stored field -/
def vv (g : Grid ι) (k : String) : Option (ι → ℝ) := (g.stored k).map (·.1.val)

def E (r : Grid ι × Except Exc (Ref ι)) : Except Exc (ι → ℝ) := r.1.vals r.2

def ok? : Option (ι → ℝ) → Except Exc (ι → ℝ)
  | some v => .ok v
  | none => .error .key

theorem vals_raw (g : Grid ι) (k : String) : g.vals (g.raw k) = ok? (vv g k) := by
  unfold Grid.raw vv
  cases h : g.stored k with
  | none => rfl
  | some x =>
    obtain ⟨f, l⟩ := x
    cases l with
    | false => rfl
    | true => simp [Grid.vals, Grid.deref, h, ok?]

theorem vals_orElse (g : Grid ι) (a : String) (b : Except Exc (Ref ι)) :
    g.vals (g.orElse a b) = match vv g a with | some v => .ok v | none => g.vals b := by
  have h := vals_raw g a
  unfold Grid.orElse
  cases hr : g.raw a with
  | ok r =>
    rw [hr] at h
    simp only
    rw [h]
    unfold Grid.raw at hr
    unfold vv
    cases hs : g.stored a with
    | none => rw [hs] at hr; cases hr
    | some x => rfl
  | error x =>
    unfold Grid.raw at hr
    unfold vv
    cases hs : g.stored a with
    | none => rfl
    | some y => rw [hs] at hr; cases hr

theorem E_orGet (g : Grid ι) (k : String) (f : Grid ι × Except Exc (Ref ι)) :
    E (g.orGet k f) = match vv g k with | some v => .ok v | none => E f := by
  have h := vals_raw g k
  unfold Grid.orGet
  cases hr : g.raw k with
  | ok r =>
    rw [hr] at h
    show g.vals (.ok r) = _
    rw [h]
    unfold Grid.raw at hr
    unfold vv
    cases hs : g.stored k with
    | none => rw [hs] at hr; cases hr
    | some x => rfl
  | error x =>
    unfold Grid.raw at hr
    unfold vv
    cases hs : g.stored k with
    | none => rfl
    | some y => rw [hs] at hr; cases hr

theorem combine_raw (g : Grid ι) (op : ℝ → ℝ → ℝ) (a b : String) :
    g.vals (g.combine op (g.raw a) (g.raw b)) =
      match vv g a, vv g b with | some x, some y => .ok fun i => op (x i) (y i) | _, _ => .error .key := by
  unfold Grid.raw vv
  cases ha : g.stored a with
  | none => rfl
  | some x =>
    obtain ⟨f, l⟩ := x
    cases hb : g.stored b with
    | none => rfl
    | some y =>
      obtain ⟨f', l'⟩ := y
      cases l <;> cases l' <;> simp [Grid.combine, Grid.deref, Grid.vals, ha, hb]

theorem E_named (g : Grid ι) (n : String) (e : Except Exc (Ref ι)) : E (g.named n e) = g.vals e := by
  cases e with
  | error x => rfl
  | ok r =>
    cases r with
    | fresh f => rfl
    | stored k =>
      unfold E Grid.named Grid.rename
      simp only [Grid.vals, Grid.deref, if_true]
      cases g.stored k <;> rfl

/-- the same fields, with the same numbers -/
def Same (g g' : Grid ι) : Prop := ∀ k, vv g k = vv g' k

theorem Same.rfl' (g : Grid ι) : Same g g := fun _ => rfl
theorem Same.trans' {a b c : Grid ι} (h : Same a b) (h' : Same b c) : Same a c := fun k => (h k).trans (h' k)

theorem rename_same (g : Grid ι) (n : String) (r : Ref ι) : Same g (g.rename n r).1 := by
  cases r with
  | fresh f => exact Same.rfl' g
  | stored k =>
    intro j
    unfold vv Grid.rename
    simp only
    split
    · cases g.stored j <;> rfl
    · rfl

theorem named_same (g : Grid ι) (n : String) (e : Except Exc (Ref ι)) : Same g (g.named n e).1 := by
  cases e with
  | error x => exact Same.rfl' g
  | ok r => exact rename_same g n r

theorem orGet_same (g : Grid ι) (k : String) (f : Grid ι × Except Exc (Ref ι)) (h : Same g f.1) : Same g (g.orGet k f).1 := by
  unfold Grid.orGet
  cases g.raw k with
  | ok r => exact Same.rfl' g
  | error x => exact h

theorem comp_same (g : Grid ι) (b : Bool) (i : Fin 3) : Same g (g.comp b i).1 := by
  unfold Grid.comp
  split <;> split <;> exact orGet_same g _ _ (named_same g _ _)

/-- the numbers of a component, by the numbers that are stored -/
noncomputable def compV (u : String → Option (ι → ℝ)) (b : Bool) (i : Fin 3) : Except Exc (ι → ℝ) :=
  let q : String × String × String := match i, b with
    | 0, true => ("bx", "B1c", "B1")
    | 1, true => ("by", "B2c", "B2")
    | 2, true => ("bz", "B3c", "B3")
    | 0, false => ("vx", "V1", "M1")
    | 1, false => ("vy", "V2", "M2")
    | 2, false => ("vz", "V3", "M3")
  match u q.1 with
  | some v => .ok v
  | none =>
    match u q.2.1 with
    | some v => .ok v
    | none =>
      if b then ok? (u q.2.2)
      else match u q.2.2, u "d" with | some x, some y => .ok fun i => x i / y i | _, _ => .error .key

theorem E_getB (g : Grid ι) (k c f : String) : E (g.getB k c f) =
    match vv g k with | some v => .ok v | none => match vv g c with | some v => .ok v | none => ok? (vv g f) := by
  unfold Grid.getB
  rw [E_orGet, E_named, vals_orElse, vals_raw]

theorem E_getV (g : Grid ι) (k v m n : String) : E (g.getV k v m n) =
    match vv g k with
    | some v => .ok v
    | none => match vv g v with
      | some v => .ok v
      | none => match vv g m, vv g "d" with | some x, some y => .ok fun i => x i / y i | _, _ => .error .key := by
  unfold Grid.getV
  rw [E_orGet, E_named, vals_orElse, combine_raw]

theorem E_getM (g : Grid ι) (k m v : String) : E (g.getM k m v) =
    match vv g k with
    | some v => .ok v
    | none => match vv g m with
      | some v => .ok v
      | none => match vv g v, vv g "d" with | some x, some y => .ok fun i => x i * y i | _, _ => .error .key := by
  unfold Grid.getM
  rw [E_orGet, E_named, vals_orElse, combine_raw]

theorem E_comp (g : Grid ι) (b : Bool) (i : Fin 3) : E (g.comp b i) = compV (vv g) b i := by
  match i, b with
  | 0, true => exact E_getB ..
  | 1, true => exact E_getB ..
  | 2, true => exact E_getB ..
  | 0, false => exact E_getV ..
  | 1, false => exact E_getV ..
  | 2, false => exact E_getV ..

noncomputable def threeV (u : String → Option (ι → ℝ)) (b : Bool) : Except Exc (Fin 3 → ι → ℝ) :=
  match compV u b 0, compV u b 1, compV u b 2 with
  | .ok x, .ok y, .ok z => .ok ![x, y, z]
  | .error e, _, _ => .error e
  | .ok _, .error e, _ => .error e
  | .ok _, .ok _, .error e => .error e

theorem same_vv {g g' : Grid ι} (h : Same g g') : vv g = vv g' := funext h

theorem three_spec (g : Grid ι) (b : Bool) : Same g (g.three b).1 ∧ (g.three b).2 = threeV (vv g) b := by
  have s0 := comp_same g b 0
  have s1 := s0.trans' (comp_same (g.comp b 0).1 b 1)
  have s2 := s1.trans' (comp_same ((g.comp b 0).1.comp b 1).1 b 2)
  have e0 := E_comp g b 0
  have e1 := E_comp (g.comp b 0).1 b 1
  have e2 := E_comp ((g.comp b 0).1.comp b 1).1 b 2
  rw [← same_vv s0] at e1
  rw [← same_vv s1] at e2
  unfold E at e0 e1 e2
  unfold Grid.three threeV
  simp only
  rw [e0, e1, e2]
  cases compV (vv g) b 0 <;> cases compV (vv g) b 1 <;> cases compV (vv g) b 2 <;>
    first
    | exact ⟨s0, rfl⟩
    | exact ⟨s1, rfl⟩
    | exact ⟨s2, rfl⟩

/-- the numbers of what was asked for -/
def outV (r : Grid ι × Except Exc (Out ι)) : Except Exc (Bool × (Fin 3 → ι → ℝ)) :=
  match r.2 with
  | .error x => .error x
  | .ok (.vector _ v) => .ok (true, v)
  | .ok (.scalar x) => match r.1.deref x with | some f => .ok (false, fun _ => f.val) | none => .error .key

theorem outV_scal (r : Grid ι × Except Exc (Ref ι)) : outV (scal r) = (E r).map fun v => (false, fun _ => v) := by
  obtain ⟨g, e⟩ := r
  cases e with
  | error x => rfl
  | ok r =>
    simp only [outV, scal, E, Except.map, Grid.vals]
    cases g.deref r <;> rfl

theorem E_getP (g : Grid ι) : E g.getP = match vv g "p" with | some v => .ok v | none => ok? (vv g "P") := by
  unfold Grid.getP
  rw [E_orGet]
  show _ = _
  have : E (g, g.raw "P") = ok? (vv g "P") := vals_raw g "P"
  rw [this]

theorem raw_ok_of {g : Grid ι} {k v} (h : vv g k = some v) : ∃ r f, g.raw k = .ok r ∧ g.deref r = some f ∧ f.val = v := by
  unfold vv at h
  cases hs : g.stored k with
  | none => rw [hs] at h; cases h
  | some x =>
    obtain ⟨f, l⟩ := x
    rw [hs] at h
    simp only [Option.map_some, Option.some.injEq] at h
    cases l with
    | false => exact ⟨.fresh f, f, by simp [Grid.raw, hs], rfl, h⟩
    | true => exact ⟨.stored k, f, by simp [Grid.raw, hs], by simp [Grid.deref, hs], h⟩

theorem raw_err_of {g : Grid ι} {k} (h : vv g k = none) : g.raw k = .error .key := by
  unfold vv at h
  cases hs : g.stored k with
  | none => simp [Grid.raw, hs]
  | some x => rw [hs] at h; cases h

theorem get_same (g : Grid ι) (s : String) : Same g (g.get s).1 := by
  unfold Grid.get
  cases g.raw s with
  | ok r => exact Same.rfl' g
  | error x =>
    simp only
    split <;> first
      | exact Same.rfl' g
      | exact comp_same g _ _
      | exact (three_spec g _).1
      | exact orGet_same g _ _ (named_same g _ _)
      | exact orGet_same g _ _ (Same.rfl' g)

/-- what a name gives, by the numbers that are stored -/
noncomputable def getV (u : String → Option (ι → ℝ)) (s : String) : Except Exc (Bool × (Fin 3 → ι → ℝ)) :=
  let sc (e : Except Exc (ι → ℝ)) : Except Exc (Bool × (Fin 3 → ι → ℝ)) := e.map fun v => (false, fun _ => v)
  let pv := match u "p" with | some v => .ok v | none => ok? (u "P")
  let mom (k m v : String) : Except Exc (ι → ℝ) :=
    match u k with
    | some v => .ok v
    | none => match u m with
      | some v => .ok v
      | none => match u v, u "d" with | some x, some y => .ok fun i => x i * y i | _, _ => .error .key
  match u s with
  | some v => .ok (false, fun _ => v)
  | none =>
    match method s with
    | .density => sc (ok? (u "d"))
    | .pressure => sc pv
    | .comp b i => sc (compV u b i)
    | .momentum k m v => sc (mom k m v)
    | .vector b => (threeV u b).map fun v => (true, v)
    | .magnitude b => (threeV u b).map fun v => (false, fun _ => mag v)
    | .current => .error .notImplemented
    | .missing => .error .key

theorem outV_get (g : Grid ι) (s : String) : outV (g.get s) = getV (vv g) s := by
  unfold Grid.get getV
  cases hv : vv g s with
  | some v =>
    obtain ⟨r, f, h1, h2, h3⟩ := raw_ok_of hv
    rw [h1]
    simp only [outV, h2, h3]
  | none =>
    rw [raw_err_of hv]
    simp only
    cases method s with
    | density => exact (outV_scal _).trans (congrArg _ (vals_raw g "d"))
    | pressure => exact (outV_scal _).trans (congrArg _ (E_getP g))
    | comp b i => exact (outV_scal _).trans (congrArg _ (E_comp g b i))
    | momentum k m v => exact (outV_scal _).trans (congrArg _ (E_getM g k m v))
    | vector b =>
      simp only [(three_spec g b).2]
      cases threeV (vv g) b <;> rfl
    | magnitude b =>
      simp only [(three_spec g b).2]
      cases threeV (vv g) b <;> rfl
    | current => rfl
    | missing => rfl

theorem run_same (g : Grid ι) (l : List String) : Same g (g.run l) := by
  unfold Grid.run
  induction l generalizing g with
  | nil => exact Same.rfl' g
  | cons s l ih => exact (get_same g s).trans' (ih (g.get s).1)

theorem gives_iff (r : Grid ι × Except Exc (Out ι)) (v : ι → ℝ) : Gives r v ↔ outV r = .ok (false, fun _ => v) := by
  obtain ⟨g, e⟩ := r
  unfold Gives outV
  match e with
  | .error x => simp
  | .ok (.vector n w) => simp
  | .ok (.scalar x) =>
    simp only [Except.ok.injEq, Out.scalar.injEq]
    cases h : g.deref x with
    | none =>
      simp only [reduceCtorEq, iff_false]
      rintro ⟨_, f, rfl, h', -⟩
      rw [h] at h'; cases h'
    | some f =>
      simp only [Except.ok.injEq, Prod.mk.injEq, true_and]
      constructor
      · rintro ⟨_, f', rfl, h', h3⟩
        rw [h] at h'
        injection h' with h'
        subst h'
        rw [h3]
      · intro h'
        exact ⟨x, f, rfl, h, congrFun h' 0⟩

theorem has_iff (g : Grid ι) (k v) : Has g k v ↔ vv g k = some v := by
  unfold Has vv
  cases h : g.stored k with
  | none => simp
  | some x =>
    obtain ⟨f, l⟩ := x
    simp only [Option.some.injEq, Prod.mk.injEq, Option.map_some]
    constructor
    · rintro ⟨_, _, ⟨rfl, rfl⟩, h⟩; exact h
    · intro h; exact ⟨f, l, ⟨rfl, rfl⟩, h⟩

theorem lacks_iff (g : Grid ι) (k) : Lacks g k ↔ vv g k = none := by
  unfold Lacks vv
  cases g.stored k <;> simp

end Ath
open Ath

variable {ι : Type}

/-- a field of the file is what its name gives -/
theorem C195_stored (g : Grid ι) (k : String) (v : ι → ℝ) (h : Has g k v) : Gives (g.get k) v := by
  rw [gives_iff, outV_get]
  rw [has_iff] at h
  unfold getV
  rw [h]

/-- velocities: those of the file, or else momentum by density; without these a KeyError -/
theorem C195_velocity (g : Grid ι) (a n : String) (ha : Axis a n) (hk : Lacks g ("v" ++ a)) :
    (∀ v, Has g ("V" ++ n) v → Gives (g.get ("v" ++ a)) v) ∧
    (∀ m d, Lacks g ("V" ++ n) → Has g ("M" ++ n) m → Has g "d" d → Gives (g.get ("v" ++ a)) fun i => m i / d i) ∧
    (Lacks g ("V" ++ n) → Lacks g ("M" ++ n) ∨ Lacks g "d" → (g.get ("v" ++ a)).2 = .error .key) := by
  simp only [gives_iff, outV_get, has_iff, lacks_iff] at *
  have key : ∀ k vn mn nm, vv g k = none → vv g vn = none → vv g mn = none ∨ vv g "d" = none →
      (scal (g.getV k vn mn nm)).2 = .error .key := by
    intro k vn mn nm h1 h2 h3
    unfold Grid.getV Grid.orGet Grid.orElse
    rw [raw_err_of h1, raw_err_of h2]
    simp only
    rcases h3 with h3 | h3
    · rw [raw_err_of h3]; rfl
    · rw [raw_err_of h3]
      cases hm : vv g mn with
      | none => rw [raw_err_of hm]; rfl
      | some v => obtain ⟨r, f, h, _⟩ := raw_ok_of hm; rw [h]; rfl
  have e (i : Fin 3) (s k vn mn nm : String) (h0 : vv g s = none) (hm : method s = .comp false i)
      (hc : g.comp false i = g.getV k vn mn nm) (h2 : vv g k = none → vv g vn = none → vv g mn = none ∨ vv g "d" = none →
      (scal (g.getV k vn mn nm)).2 = .error .key) (h3 : k = s) (h4 : vv g vn = none) (h5 : vv g mn = none ∨ vv g "d" = none) :
      (g.get s).2 = .error .key := by
    unfold Grid.get
    rw [raw_err_of h0, hm]
    simp only
    rw [hc]
    exact h2 (h3 ▸ h0) h4 h5
  have gv (i : Fin 3) (s vn mn : String) (hm : method s = .comp false i) (h0 : vv g s = none)
      (hc : compV (vv g) false i = match vv g s with
        | some v => .ok v
        | none => match vv g vn with
          | some v => .ok v
          | none => match vv g mn, vv g "d" with | some x, some y => .ok fun i => x i / y i | _, _ => .error .key) :
      (∀ v, vv g vn = some v → getV (vv g) s = .ok (false, fun _ => v)) ∧
      (∀ m d, vv g vn = none → vv g mn = some m → vv g "d" = some d → getV (vv g) s = .ok (false, fun _ i => m i / d i)) := by
    constructor
    · intro v hv
      unfold getV
      rw [h0]
      simp only
      rw [hm]
      simp only
      rw [hc, h0, hv]
      rfl
    · intro m d h1 h2 h3
      unfold getV
      rw [h0]
      simp only
      rw [hm]
      simp only
      rw [hc, h0, h1, h2, h3]
      rfl
  cases ha with
  | x => exact ⟨(gv 0 "vx" "V1" "M1" rfl hk rfl).1, (gv 0 "vx" "V1" "M1" rfl hk rfl).2,
      fun h1 h2 => e 0 "vx" "vx" "V1" "M1" "vx" hk rfl rfl (key _ _ _ _) rfl h1 h2⟩
  | y => exact ⟨(gv 1 "vy" "V2" "M2" rfl hk rfl).1, (gv 1 "vy" "V2" "M2" rfl hk rfl).2,
      fun h1 h2 => e 1 "vy" "vy" "V2" "M2" "vy" hk rfl rfl (key _ _ _ _) rfl h1 h2⟩
  | z => exact ⟨(gv 2 "vz" "V3" "M3" rfl hk rfl).1, (gv 2 "vz" "V3" "M3" rfl hk rfl).2,
      fun h1 h2 => e 2 "vz" "vz" "V3" "M3" "bz" hk rfl rfl (key _ _ _ _) rfl h1 h2⟩

/-- momenta: those of the file, or else velocity times density -/
theorem C195_momentum (g : Grid ι) (a n : String) (ha : Axis a n) (hk : Lacks g ("m" ++ a)) :
    (∀ m, Has g ("M" ++ n) m → Gives (g.get ("m" ++ a)) m) ∧
    (∀ v d, Lacks g ("M" ++ n) → Has g ("V" ++ n) v → Has g "d" d → Gives (g.get ("m" ++ a)) fun i => v i * d i) := by
  simp only [gives_iff, outV_get, has_iff, lacks_iff] at *
  have gm (s vn mn : String) (hm : method s = .momentum s mn vn) (h0 : vv g s = none) :
      (∀ m, vv g mn = some m → getV (vv g) s = .ok (false, fun _ => m)) ∧
      (∀ v d, vv g mn = none → vv g vn = some v → vv g "d" = some d → getV (vv g) s = .ok (false, fun _ i => v i * d i)) := by
    constructor
    · intro m hv
      unfold getV
      rw [h0]
      simp only
      rw [hm]
      simp only
      rw [h0, hv]
      rfl
    · intro v d h1 h2 h3
      unfold getV
      rw [h0]
      simp only
      rw [hm]
      simp only
      rw [h0, h1, h2, h3]
      rfl
  cases ha with
  | x => exact gm "mx" "V1" "M1" rfl hk
  | y => exact gm "my" "V2" "M2" rfl hk
  | z => exact gm "mz" "V3" "M3" rfl hk

/-- the momentum is density times velocity, whichever of them the file has (and both, if it has both and they agree),
where the density is not zero -/
theorem C195_consistent (g : Grid ι) (a n : String) (ha : Axis a n) (hk : Lacks g ("m" ++ a)) (hk' : Lacks g ("v" ++ a))
    (d : ι → ℝ) (hd : Has g "d" d) (hp : ∀ i, d i ≠ 0)
    (hone : (∃ m, Has g ("M" ++ n) m ∧ Lacks g ("V" ++ n)) ∨ ∃ v, Has g ("V" ++ n) v ∧ Lacks g ("M" ++ n)) :
    ∃ m v, Gives (g.get ("m" ++ a)) m ∧ Gives (g.get ("v" ++ a)) v ∧ ∀ i, m i = v i * d i := by
  rcases hone with ⟨m, h1, h2⟩ | ⟨v, h1, h2⟩
  · exact ⟨m, _, (C195_momentum g a n ha hk).1 m h1, (C195_velocity g a n ha hk').2.1 m d h2 h1 hd,
      fun i => (div_mul_cancel₀ _ (hp i)).symm⟩
  · exact ⟨_, v, (C195_momentum g a n ha hk).2 v d h2 h1 hd, (C195_velocity g a n ha hk').1 v h1, fun _ => rfl⟩

/-- the magnetic field: that at cell centers if the file has it, or else that of the faces -/
theorem C195_magnetic (g : Grid ι) (a n : String) (ha : Axis a n) (hk : Lacks g ("b" ++ a)) :
    (∀ v, Has g ("B" ++ n ++ "c") v → Gives (g.get ("b" ++ a)) v) ∧
    (∀ v, Lacks g ("B" ++ n ++ "c") → Has g ("B" ++ n) v → Gives (g.get ("b" ++ a)) v) := by
  simp only [gives_iff, outV_get, has_iff, lacks_iff] at *
  have gb (i : Fin 3) (s cn fn : String) (hm : method s = .comp true i) (h0 : vv g s = none)
      (hc : compV (vv g) true i = match vv g s with
        | some v => .ok v
        | none => match vv g cn with
          | some v => .ok v
          | none => ok? (vv g fn)) :
      (∀ v, vv g cn = some v → getV (vv g) s = .ok (false, fun _ => v)) ∧
      (∀ v, vv g cn = none → vv g fn = some v → getV (vv g) s = .ok (false, fun _ => v)) := by
    constructor
    · intro v hv
      unfold getV
      rw [h0]
      simp only
      rw [hm]
      simp only
      rw [hc, h0, hv]
      rfl
    · intro v h1 h2
      unfold getV
      rw [h0]
      simp only
      rw [hm]
      simp only
      rw [hc, h0, h1, h2]
      rfl
  cases ha with
  | x => exact gb 0 "bx" "B1c" "B1" rfl hk rfl
  | y => exact gb 1 "by" "B2c" "B2" rfl hk rfl
  | z => exact gb 2 "bz" "B3c" "B3" rfl hk rfl

namespace Ath
theorem comp_of_get (g : Grid ι) (b : Bool) (i : Fin 3) (s : String) (hm : method s = .comp b i)
    (hs : ∀ v, vv g s = some v → compV (vv g) b i = .ok v) (v : ι → ℝ) (h : Gives (g.get s) v) : compV (vv g) b i = .ok v := by
  rw [gives_iff, outV_get] at h
  unfold getV at h
  cases hv : vv g s with
  | some w =>
    rw [hv] at h
    simp only [Except.ok.injEq, Prod.mk.injEq, true_and] at h
    have : w = v := congrFun h 0
    rw [← this]
    exact hs w hv
  | none =>
    rw [hv] at h
    simp only at h
    rw [hm] at h
    simp only at h
    cases hc : compV (vv g) b i with
    | error x => rw [hc] at h; cases h
    | ok w =>
      rw [hc] at h
      simp only [Except.map, Except.ok.injEq, Prod.mk.injEq, true_and] at h
      have : w = v := congrFun h 0
      rw [this]

theorem comp_stored (u : String → Option (ι → ℝ)) : (∀ v, u "bx" = some v → compV u true 0 = .ok v) ∧
    (∀ v, u "by" = some v → compV u true 1 = .ok v) ∧ (∀ v, u "bz" = some v → compV u true 2 = .ok v) ∧
    (∀ v, u "vx" = some v → compV u false 0 = .ok v) ∧ (∀ v, u "vy" = some v → compV u false 1 = .ok v) ∧
    (∀ v, u "vz" = some v → compV u false 2 = .ok v) := by
  refine ⟨?_, ?_, ?_, ?_, ?_, ?_⟩ <;> (intro v h; simp only [compV, h])
end Ath

/-- vectors have the components that their names give, and magnitudes are the roots of the sums of their squares -/
theorem C195_vector (g : Grid ι) (x y z : ι → ℝ) :
    (Gives (g.get "bx") x → Gives (g.get "by") y → Gives (g.get "bz") z →
      (Lacks g "b" → GivesVec (g.get "b") ![x, y, z]) ∧
      (Lacks g "bmag" → ∃ m, Gives (g.get "bmag") m ∧ ∀ i, 0 ≤ m i ∧ m i ^ 2 = x i ^ 2 + y i ^ 2 + z i ^ 2)) ∧
    (Gives (g.get "vx") x → Gives (g.get "vy") y → Gives (g.get "vz") z →
      (Lacks g "v" → GivesVec (g.get "v") ![x, y, z]) ∧
      (Lacks g "speed" → ∃ m, Gives (g.get "speed") m ∧ ∀ i, 0 ≤ m i ∧ m i ^ 2 = x i ^ 2 + y i ^ 2 + z i ^ 2)) := by
  have key : ∀ b s t, method s = .vector b → method t = .magnitude b → compV (vv g) b 0 = .ok x → compV (vv g) b 1 = .ok y →
      compV (vv g) b 2 = .ok z → (Lacks g s → GivesVec (g.get s) ![x, y, z]) ∧
      (Lacks g t → ∃ m, Gives (g.get t) m ∧ ∀ i, 0 ≤ m i ∧ m i ^ 2 = x i ^ 2 + y i ^ 2 + z i ^ 2) := by
    intro b s t hs ht h0 h1 h2
    have h3 : threeV (vv g) b = .ok ![x, y, z] := by unfold threeV; rw [h0, h1, h2]
    constructor
    · intro hl
      rw [lacks_iff] at hl
      unfold GivesVec Grid.get
      rw [raw_err_of hl, hs]
      simp only
      rw [(three_spec g b).2, h3]
      exact ⟨_, rfl⟩
    · intro hl
      rw [lacks_iff] at hl
      refine ⟨mag ![x, y, z], ?_, ?_⟩
      · rw [gives_iff, outV_get]
        unfold getV
        rw [hl]
        simp only
        rw [ht]
        simp only
        rw [h3]
        rfl
      · intro i
        refine ⟨Real.sqrt_nonneg _, ?_⟩
        have : 0 ≤ x i ^ 2 + y i ^ 2 + z i ^ 2 := by positivity
        exact Real.sq_sqrt this
  obtain ⟨c0, c1, c2, c3, c4, c5⟩ := comp_stored (vv g)
  constructor
  · intro h0 h1 h2
    exact key true "b" "bmag" rfl rfl (comp_of_get g _ _ _ rfl c0 _ h0) (comp_of_get g _ _ _ rfl c1 _ h1) (comp_of_get g _ _ _ rfl c2 _ h2)
  · intro h0 h1 h2
    exact key false "v" "speed" rfl rfl (comp_of_get g _ _ _ rfl c3 _ h0) (comp_of_get g _ _ _ rfl c4 _ h1) (comp_of_get g _ _ _ rfl c5 _ h2)

/-- density and pressure -/
theorem C195_scalars (g : Grid ι) (v : ι → ℝ) :
    (Lacks g "rr" → Has g "d" v → Gives (g.get "rr") v) ∧
    (Lacks g "p" → Has g "P" v → Gives (g.get "p") v) ∧
    (Lacks g "pp" → Gives (g.get "p") v → Gives (g.get "pp") v) := by
  simp only [gives_iff, outV_get, has_iff, lacks_iff]
  refine ⟨?_, ?_, ?_⟩
  · intro h0 h1
    have hm : method "rr" = .density := rfl
    unfold getV
    rw [h0]; simp only
    rw [hm]; simp only
    rw [h1]; rfl
  · intro h0 h1
    have hm : method "p" = .pressure := rfl
    unfold getV
    rw [h0]; simp only
    rw [hm]; simp only
    rw [h1]; rfl
  · intro h0 h1
    have hm : method "pp" = .pressure := rfl
    have hm' : method "p" = .pressure := rfl
    unfold getV at h1 ⊢
    rw [h0]; simp only
    rw [hm]; simp only
    cases hp : vv g "p" with
    | some w => rw [hp] at h1; simpa [Except.map] using h1
    | none => rw [hp] at h1; simp only at h1; rw [hm'] at h1; simpa using h1

/-- after any history of names that were asked for, a name gives the same numbers as at first -/
theorem C195_history (g : Grid ι) (l : List String) (s : String) (v : ι → ℝ) (w : Fin 3 → ι → ℝ) :
    (Gives ((g.run l).get s) v ↔ Gives (g.get s) v) ∧ (GivesVec ((g.run l).get s) w ↔ GivesVec (g.get s) w) := by
  have e : outV ((g.run l).get s) = outV (g.get s) := by rw [outV_get, outV_get, same_vv (run_same g l)]
  constructor
  · rw [gives_iff, gives_iff, e]
  · have vec : ∀ r : Grid ι × Except Exc (Out ι), GivesVec r w ↔ outV r = .ok (true, w) := by
      rintro ⟨g, e⟩
      unfold GivesVec outV
      match e with
      | .error x => simp
      | .ok (.vector n v) => simp
      | .ok (.scalar x) => cases hd : g.deref x <;> simp [hd]
    rw [vec, vec, e]

namespace Ath
theorem named_called (g : Grid ι) (n : String) (e : Except Exc (Ref ι)) (v : ι → ℝ) (h : g.vals e = .ok v) :
    Called (scal (g.named n e)) n := by
  cases e with
  | error x => cases h
  | ok r =>
    cases r with
    | fresh f => exact ⟨_, _, rfl, rfl, rfl⟩
    | stored k =>
      simp only [Grid.vals, Grid.deref] at h
      cases hs : g.stored k with
      | none => rw [hs] at h; cases h
      | some x =>
        refine ⟨.stored k, ⟨n, x.1.val⟩, rfl, ?_, rfl⟩
        simp [scal, Grid.named, Grid.rename, Grid.deref, hs]
end Ath

/-- computed components are called as they were asked for, except for `vz`, which is called "bz" -/
theorem C195_names_violated (g : Grid ι) (v : ι → ℝ) :
    (Lacks g "vz" → Gives (g.get "vz") v → Called (g.get "vz") "bz") ∧
    (Lacks g "vx" → Gives (g.get "vx") v → Called (g.get "vx") "vx") ∧
    (Lacks g "vy" → Gives (g.get "vy") v → Called (g.get "vy") "vy") ∧
    (Lacks g "bx" → Gives (g.get "bx") v → Called (g.get "bx") "bx") ∧
    (Lacks g "by" → Gives (g.get "by") v → Called (g.get "by") "by") ∧
    (Lacks g "bz" → Gives (g.get "bz") v → Called (g.get "bz") "bz") := by
  have key : ∀ s n b i e, method s = .comp b i → g.comp b i = g.orGet s (g.named n e) →
      Lacks g s → Gives (g.get s) v → Called (g.get s) n := by
    intro s n b i e hm hc hl hg
    rw [lacks_iff] at hl
    have hget : g.get s = scal (g.named n e) := by
      unfold Grid.get
      rw [raw_err_of hl, hm]
      simp only
      rw [hc]
      unfold Grid.orGet
      rw [raw_err_of hl]
    rw [hget] at hg ⊢
    rw [gives_iff, outV_scal, E_named] at hg
    cases hv : g.vals e with
    | error x => rw [hv] at hg; cases hg
    | ok w => exact named_called g n e w hv
  exact ⟨key "vz" "bz" false 2 _ rfl rfl, key "vx" "vx" false 0 _ rfl rfl, key "vy" "vy" false 1 _ rfl rfl,
    key "bx" "bx" true 0 _ rfl rfl, key "by" "by" true 1 _ rfl rfl, key "bz" "bz" true 2 _ rfl rfl⟩

/-- asking for `bx` renames the field of the file, if its data is loaded -/
theorem C195_renamed_violated (g : Grid ι) (f : Fld ι) (hk : Lacks g "bx") (h : g.stored "B1c" = some (f, true)) :
    ((g.get "bx").1.stored "B1c").map (·.1.name) = some "bx" := by
  rw [lacks_iff] at hk
  have hm : method "bx" = .comp true 0 := rfl
  unfold Grid.get
  rw [raw_err_of hk, hm]
  simp only
  show (((g.getB "bx" "B1c" "B1").1.stored "B1c").map (·.1.name)) = _
  unfold Grid.getB Grid.orGet
  rw [raw_err_of hk]
  simp [Grid.orElse, Grid.raw, h, Grid.named, Grid.rename]

/-- the current density cannot be had -/
theorem C195_current_violated (g : Grid ι) (s : String) (hs : s = "j" ∨ s = "jx" ∨ s = "jy" ∨ s = "jz" ∨ s = "jmag") (h : Lacks g s) :
    (g.get s).2 = .error .notImplemented := by
  rw [lacks_iff] at h
  unfold Grid.get
  rw [raw_err_of h]
  rcases hs with rfl | rfl | rfl | rfl | rfl <;> rfl

/-- a file with density, momenta and fields at faces -/
noncomputable def exAthena : Grid Unit where
  stored
    | "d" => some (⟨"d", fun _ => 2⟩, false)
    | "M1" => some (⟨"M1", fun _ => 6⟩, false)
    | "M2" => some (⟨"M2", fun _ => 4⟩, true)
    | "M3" => some (⟨"M3", fun _ => 2⟩, false)
    | "B1c" => some (⟨"B1c", fun _ => 3⟩, true)
    | "B2" => some (⟨"B2", fun _ => 4⟩, true)
    | "B3c" => some (⟨"B3c", fun _ => 0⟩, false)
    | _ => none

example : Gives (exAthena.get "vx") (fun _ => 6 / 2) :=
  (C195_velocity exAthena "x" "1" .x rfl).2.1 _ _ rfl ⟨_, _, rfl, rfl⟩ ⟨_, _, rfl, rfl⟩
example : Gives (exAthena.get "by") (fun _ => 4) :=
  (C195_magnetic exAthena "y" "2" .y rfl).2 _ rfl ⟨_, _, rfl, rfl⟩
example : ((exAthena.get "bx").1.stored "B1c").map (·.1.name) = some "bx" := C195_renamed_violated _ _ rfl rfl
example : Called (exAthena.get "vz") "bz" :=
  (C195_names_violated exAthena _).1 rfl ((C195_velocity exAthena "z" "3" .z rfl).2.1 _ _ rfl ⟨_, _, rfl, rfl⟩ ⟨_, _, rfl, rfl⟩)
example : ∃ m v, Gives (exAthena.get "mx") m ∧ Gives (exAthena.get "vx") v ∧ ∀ i, m i = v i * 2 :=
  C195_consistent exAthena "x" "1" .x rfl rfl (fun _ => 2) ⟨_, _, rfl, rfl⟩ (by norm_num) (.inl ⟨_, ⟨_, _, rfl, rfl⟩, rfl⟩)

end Viscid.Props
