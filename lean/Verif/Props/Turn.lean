import Verif.Props.LazySlice
import Verif.Lemmas.Crds
import Verif.Model.Turn
import Verif.Spec.Turn
import Mathlib.Tactic.Ring
/-!
# C192: half a turn from MHD to GSE
-/
namespace Viscid.Props
open Viscid.Turn
open Viscid.LazySlice (Fld Idx Center Le put full)
open Viscid.Spec.LazySlice (Valid Same stored mirror)
open Viscid.Spec.Turn
open Viscid.Layout (Arr)
open Viscid.Crds (Axis reflectArr mid reflectArr_length reflectArr_get mid_reflect)

/-- The coordinates along an axis with the nodes `l`, for values at the nodes or in the cells -/
def along (c : Center) (l : List ℚ) : List ℚ := if c = .node then l else (Axis.mk l none false).centres

/-- A field as it is found in a file: on three axes x, y and z with the nodes given, at the nodes or in the cells, with as many values as there
    are points, the components (if any) first or last, stored x first or z first -/
structure InFile (f : Field) (xs ys zs : List ℚ) : Prop where
  axes : f.axes = [("x", ⟨xs, none, false⟩), ("y", ⟨ys, none, false⟩), ("z", ⟨zs, none, false⟩)]
  center : f.center = .node ∨ f.center = .cell
  shape : f.src.shape =
    (let s := [(along f.center xs).length, (along f.center ys).length, (along f.center zs).length]
     let s := if f.zyx then s.reverse else s
     match f.comps with
     | none => s
     | some (true, n) => n :: s
     | some (false, n) => s ++ [n])

/-- The number in a file for the point `i`, `j`, `k` -/
def numberAt (f : Field) (i j k : Nat) : ℚ := f.src.get (if f.zyx then [k, j, i] else [i, j, k])

/-- The vector at a point of an array, the components first or last -/
def vecAt (first : Bool) (d : Arr ℚ) (i j k : Nat) : ℚ × ℚ × ℚ :=
  if first then (d.get [0, i, j, k], d.get [1, i, j, k], d.get [2, i, j, k])
  else (d.get [i, j, k, 0], d.get [i, j, k, 1], d.get [i, j, k, 2])

/-- The vector in a file for the point `i`, `j`, `k` -/
def vectorAt (first : Bool) (f : Field) (i j k : Nat) : ℚ × ℚ × ℚ :=
  if f.zyx then vecAt first f.src k j i else vecAt first f.src i j k

/-! ## The turned grid -/

theorem mid_le (l : List ℚ) : (mid l).length ≤ l.length := by
  unfold mid; split
  · exact le_refl _
  · simp

theorem reflect_nodes (l : List ℚ) (r : Bool) : (Axis.mk l none r).nodes.length = l.length := by
  cases r
  · rfl
  · exact reflectArr_length l

theorem reflect_centres (l : List ℚ) (r : Bool) : (Axis.mk l none r).centres.length = (mid l).length := by
  cases r
  · rfl
  · show (mid (reflectArr l)).length = _
    rw [mid_reflect, reflectArr_length]

/-- The axes of a turned grid, or of one that is not turned -/
theorem setCrds_file (turn : Bool) (xs ys zs : List ℚ) :
    setCrds turn [("x", ⟨xs, none, false⟩), ("y", ⟨ys, none, false⟩), ("z", ⟨zs, none, false⟩)] =
      [("x", ⟨xs, none, turn⟩), ("y", ⟨ys, none, turn⟩), ("z", ⟨zs, none, false⟩)] := by
  cases turn <;> simp [setCrds]

/-- What was opened has the source of the file, on the axes of the grid. -/
theorem load_fld (turn copy : Bool) (f g : Field) (xs ys zs : List ℚ) (hf : InFile f xs ys zs) (h : load turn copy f = .ok g) :
    g.axes = [("x", ⟨xs, none, turn⟩), ("y", ⟨ys, none, turn⟩), ("z", ⟨zs, none, false⟩)] ∧ g.center = f.center ∧ g.zyx = f.zyx ∧
      g.comps = f.comps ∧ g.src = f.src ∧ g.name = f.name := by
  unfold load addField at h
  rw [hf.axes, setCrds_file] at h
  cases turn with
  | false =>
    simp only [Bool.false_eq_true, if_false, Except.ok.injEq] at h
    subst h
    exact ⟨rfl, rfl, rfl, rfl, rfl, rfl⟩
  | true =>
    simp only [if_true, bind, Except.bind] at h
    split at h
    · cases h
    · simp only [Except.ok.injEq] at h
      subst h
      exact ⟨rfl, rfl, rfl, rfl, rfl, rfl⟩

/-- The source of what was opened fits its grid. -/
theorem load_wf (turn copy : Bool) (f g : Field) (xs ys zs : List ℚ) (hf : InFile f xs ys zs) (h : load turn copy f = .ok g) :
    WF g.fld ∧ g.fld.sshape = [(along f.center xs).length, (along f.center ys).length, (along f.center zs).length] ∧
      g.fld.reflect = [turn, turn, false] := by
  obtain ⟨e1, e2, e3, e4, e5, _⟩ := load_fld turn copy f g xs ys zs hf h
  have hs : g.fld.sshape = [(along f.center xs).length, (along f.center ys).length, (along f.center zs).length] := by
    unfold Fld.sshape Field.fld
    dsimp only
    rw [e1, e2]
    unfold along
    split
    · simp only [List.map_cons, List.map_nil, reflect_nodes]
    · simp only [List.map_cons, List.map_nil, reflect_centres]
  have hr : g.fld.reflect = [turn, turn, false] := by
    unfold Field.fld
    dsimp only
    rw [e1]
    rfl
  refine ⟨⟨?_, ?_, ?_⟩, hs, hr⟩
  · have : g.fld.src = f.src := e5
    rw [this, hf.shape]
    unfold Fld.nativeShape Fld.withComp
    rw [hs]
    have c1 : g.fld.comps = f.comps := e4
    have c2 : g.fld.zyx = f.zyx := e3
    rw [c1, c2]
    cases f.comps with
    | none => rfl
    | some p => obtain ⟨b, n⟩ := p; cases b <;> rfl
  · rw [hs, hr]; rfl
  · unfold Field.fld
    dsimp only
    rw [e1]
    simp only [List.map_cons, List.map_nil, reflect_nodes, reflect_centres]
    exact ⟨mid_le _, mid_le _, mid_le _, trivial⟩

/-- The coordinates of what was opened -/
theorem load_points (turn copy : Bool) (f g : Field) (xs ys zs : List ℚ) (hf : InFile f xs ys zs) (h : load turn copy f = .ok g) :
    g.points = [if turn then reflectArr (along f.center xs) else along f.center xs,
      if turn then reflectArr (along f.center ys) else along f.center ys, along f.center zs] := by
  obtain ⟨e1, e2, _⟩ := load_fld turn copy f g xs ys zs hf h
  unfold Field.points
  rw [e1, e2]
  unfold along
  cases turn with
  | false =>
    simp only [List.map_cons, List.map_nil, Axis.applyReflections, Bool.false_eq_true, if_false]
    split <;> rfl
  | true =>
    simp only [List.map_cons, List.map_nil, Axis.applyReflections, Bool.false_eq_true, if_false, if_true]
    split
    · rfl
    · show [mid (reflectArr xs), mid (reflectArr ys), mid zs] = [reflectArr (mid xs), reflectArr (mid ys), mid zs]
      rw [mid_reflect, mid_reflect]

/-- Index along an axis that is turned, or not -/
def back (turn : Bool) (n i : Nat) : Nat := if turn then n - 1 - i else i

theorem stored_three (zyx turn : Bool) (a b c i j k : Nat) :
    stored zyx [a, b, c] [turn, turn, false] [i, j, k] =
      if zyx then [k, back turn b j, back turn a i] else [back turn a i, back turn b j, k] := by
  cases zyx <;> cases turn <;> rfl

theorem reflectArr_some (l : List ℚ) (i : Nat) (x : ℚ) : (reflectArr l)[i]? = some (-x) ↔ i < l.length ∧ l[l.length - 1 - i]? = some x := by
  constructor
  · intro h
    have hi : i < l.length := by
      have := (List.getElem?_eq_some_iff.mp h).1
      rwa [reflectArr_length] at this
    rw [reflectArr_get l i hi] at h
    obtain ⟨y, hy, he⟩ := Option.map_eq_some_iff.mp h
    refine ⟨hi, ?_⟩
    rw [hy, ← neg_neg x, ← he, neg_neg]
  · rintro ⟨hi, h⟩
    rw [reflectArr_get l i hi, h]; rfl

/-- If the values are those mirrored in x and y, changed by `w`, then the grid is turned. -/
theorem at_turn {β γ : Type} (xs ys zs : List ℚ) (v : Nat → Nat → Nat → β) (u : Nat → Nat → Nat → γ) (r : β → γ) (inj : ∀ a b, r a = r b → a = b)
    (h : ∀ i j k, i < xs.length → j < ys.length → k < zs.length → u i j k = r (v (xs.length - 1 - i) (ys.length - 1 - j) k))
    (p : ℚ × ℚ × ℚ) (w : β) : At (reflectArr xs) (reflectArr ys) zs u (half p) (r w) ↔ At xs ys zs v p w := by
  constructor
  · rintro ⟨i, j, k, h1, h2, h3, h4⟩
    obtain ⟨i1, i2⟩ := (reflectArr_some _ _ _).mp h1
    obtain ⟨j1, j2⟩ := (reflectArr_some _ _ _).mp h2
    refine ⟨_, _, k, i2, j2, h3, inj _ _ ?_⟩
    rw [← h4, ← h i j k i1 j1 (List.getElem?_eq_some_iff.mp h3).1]
  · rintro ⟨i, j, k, h1, h2, h3, h4⟩
    have i1 := (List.getElem?_eq_some_iff.mp h1).1
    have j1 := (List.getElem?_eq_some_iff.mp h2).1
    have ei : xs.length - 1 - (xs.length - 1 - i) = i := by omega
    have ej : ys.length - 1 - (ys.length - 1 - j) = j := by omega
    refine ⟨xs.length - 1 - i, ys.length - 1 - j, k, (reflectArr_some _ _ _).mpr ⟨by omega, by rw [ei]; exact h1⟩,
      (reflectArr_some _ _ _).mpr ⟨by omega, by rw [ej]; exact h2⟩, h3, ?_⟩
    rw [h _ _ k (by omega) (by omega) (List.getElem?_eq_some_iff.mp h3).1, ei, ej, h4]

theorem half_inj (a b : ℚ × ℚ × ℚ) (h : half a = half b) : a = b := by
  obtain ⟨a1, a2, a3⟩ := a
  obtain ⟨b1, b2, b3⟩ := b
  simp only [half, Prod.mk.injEq, neg_inj] at h
  obtain ⟨rfl, rfl, rfl⟩ := h
  rfl

theorem points_three {a b c a' b' c' : List ℚ} (h : [a, b, c] = [a', b', c']) : a = a' ∧ b = b' ∧ c = c' := by
  simpa using h

/-! ## Vectors -/

/-- The array of a vector field that was opened, before the signs are changed -/
theorem vector_data (turn copy first : Bool) (f g : Field) (xs ys zs : List ℚ) (hf : InFile f xs ys zs) (hc : f.comps = some (first, 3))
    (h : load turn copy f = .ok g) : ∃ d, g.fld.data = .ok d ∧
      d.shape = put first 3 [(along f.center xs).length, (along f.center ys).length, (along f.center zs).length] ∧
      ∀ i j k, i < (along f.center xs).length → j < (along f.center ys).length → k < (along f.center zs).length →
        vecAt first d i j k = vectorAt first f (back turn (along f.center xs).length i) (back turn (along f.center ys).length j) k := by
  obtain ⟨w, hs, hr⟩ := load_wf turn copy f g xs ys zs hf h
  obtain ⟨_, _, e3, e4, e5, _⟩ := load_fld turn copy f g xs ys zs hf h
  obtain ⟨d, d1, d2, d3⟩ := C96_loaded_values g.fld w
  have c1 : g.fld.comps = some (first, 3) := by rw [← hc]; exact e4
  have c2 : g.fld.zyx = f.zyx := e3
  have c3 : g.fld.src = f.src := e5
  refine ⟨d, d1, ?_, ?_⟩
  · rw [d2]; unfold Fld.shape Fld.withComp; rw [c1, hs]; rfl
  · intro i j k hi hj hk
    have hv : Valid g.fld.sshape [i, j, k] := by rw [hs]; exact ⟨hi, hj, hk, trivial⟩
    have := d3 _ hv
    rw [c1, hs, hr, c2, c3, stored_three] at this
    cases first with
    | true =>
      dsimp only at this
      unfold vecAt vectorAt
      rw [if_pos rfl, this 0 (by omega), this 1 (by omega), this 2 (by omega)]
      cases f.zyx <;> rfl
    | false =>
      dsimp only at this
      unfold vecAt vectorAt
      have t0 := this 0 (by omega)
      have t1 := this 1 (by omega)
      have t2 := this 2 (by omega)
      simp only [List.cons_append, List.nil_append] at t0 t1 t2
      rw [if_neg (by simp), t0, t1, t2]
      cases f.zyx <;> rfl

/-- C192, vector fields: a vector field of a grid that is turned can be read, and it is what the file holds, turned by half a turn about z: there
    is a vector `half w` at the point `half p` exactly if the file has the vector `w` at `p`. -/
theorem C192_vector (copy first : Bool) (f : Field) (xs ys zs : List ℚ) (hf : InFile f xs ys zs) (hc : f.comps = some (first, 3)) :
    ∃ g d, load true copy f = .ok g ∧ g.read = .ok d ∧ ∃ X Y Z, g.points = [X, Y, Z] ∧
      d.shape = put first 3 [X.length, Y.length, Z.length] ∧
      ∀ p w, At X Y Z (vecAt first d) (half p) (half w) ↔
        At (along f.center xs) (along f.center ys) (along f.center zs) (vectorAt first f) p w := by
  have hl : ∃ g, load true copy f = .ok g ∧ g.tf = some .vector := by
    refine ⟨{ f with axes := setCrds true f.axes, tf := some .vector, copy := copy }, ?_, rfl⟩
    simp [load, addField, choose, hc, bind, Except.bind]
  obtain ⟨g, hg, ht⟩ := hl
  obtain ⟨d, d1, d2, d3⟩ := vector_data true copy first f g xs ys zs hf hc hg
  obtain ⟨_, _, _, e4, _, _⟩ := load_fld true copy f g xs ys zs hf hg
  have hn : (if first then d.shape.headD 0 else d.shape.getLastD 0) = 3 := by
    rw [d2]; cases first <;> simp [put]
  have hread : g.read = .ok ⟨d.shape, fun idx => d.get idx * factor (if first then idx.headD 0 else idx.getLastD 0)⟩ := by
    unfold Field.read
    rw [d1, ht]
    simp only [ofLazy, bind, Except.bind, Tf.apply, e4, hc, vectorTf]
    rw [if_pos hn]
  refine ⟨g, _, hg, hread, _, _, _, load_points true copy f g xs ys zs hf hg, ?_, ?_⟩
  · simp only [if_true, reflectArr_length]
    exact d2
  · intro p w
    rw [if_pos rfl, if_pos rfl]
    refine at_turn _ _ _ _ _ half half_inj ?_ p w
    intro i j k hi hj hk
    have := d3 i j k hi hj hk
    simp only [back, if_true] at this
    rw [← this]
    cases first <;> simp [vecAt, half, factor]

/-- C192, grids that are not turned: vectors are where they are in the file. -/
theorem C192_vector_as_is (copy first : Bool) (f : Field) (xs ys zs : List ℚ) (hf : InFile f xs ys zs) (hc : f.comps = some (first, 3))
    (ht : f.tf = none) : ∃ g d, load false copy f = .ok g ∧ g.read = .ok d ∧
      g.points = [along f.center xs, along f.center ys, along f.center zs] ∧
      ∀ i j k, i < (along f.center xs).length → j < (along f.center ys).length → k < (along f.center zs).length →
        vecAt first d i j k = vectorAt first f i j k := by
  have hg : load false copy f = .ok { f with axes := setCrds false f.axes } := rfl
  obtain ⟨d, d1, d2, d3⟩ := vector_data false copy first f _ xs ys zs hf hc hg
  refine ⟨_, d, hg, ?_, by rw [load_points false copy f _ xs ys zs hf hg]; simp, fun i j k hi hj hk => d3 i j k hi hj hk⟩
  unfold Field.read
  rw [d1]
  simp [ofLazy, bind, Except.bind, ht]

/-! ## Scalar fields -/

/-- The array of a scalar field that was opened, before the sign is changed -/
theorem scalar_data (turn copy : Bool) (f g : Field) (xs ys zs : List ℚ) (hf : InFile f xs ys zs) (hc : f.comps = none)
    (h : load turn copy f = .ok g) : ∃ d, g.fld.data = .ok d ∧
      d.shape = [(along f.center xs).length, (along f.center ys).length, (along f.center zs).length] ∧
      ∀ i j k, i < (along f.center xs).length → j < (along f.center ys).length → k < (along f.center zs).length →
        d.get [i, j, k] = numberAt f (back turn (along f.center xs).length i) (back turn (along f.center ys).length j) k := by
  obtain ⟨w, hs, hr⟩ := load_wf turn copy f g xs ys zs hf h
  obtain ⟨_, _, e3, e4, e5, _⟩ := load_fld turn copy f g xs ys zs hf h
  obtain ⟨d, d1, d2, d3⟩ := C96_loaded_values g.fld w
  have c1 : g.fld.comps = none := by rw [← hc]; exact e4
  have c2 : g.fld.zyx = f.zyx := e3
  have c3 : g.fld.src = f.src := e5
  refine ⟨d, d1, ?_, ?_⟩
  · rw [d2]; unfold Fld.shape Fld.withComp; rw [c1, hs]
  · intro i j k hi hj hk
    have hv : Valid g.fld.sshape [i, j, k] := by rw [hs]; exact ⟨hi, hj, hk, trivial⟩
    have := d3 _ hv
    rw [c1, hs, hr, c2, c3, stored_three] at this
    rw [this]
    rfl

/-- The name of a component along x or y of one of OpenGGCM's vectors -/
def Across (name : String) : Prop := ∃ v ∈ vectors, name = v.1 ++ "x" ++ v.2 ∨ name = v.1 ++ "y" ++ v.2

theorem across_iff (name : String) : Across name ↔ name ∈ flipComps := by
  constructor
  · rintro ⟨v, hv, h⟩
    revert hv
    have : ∀ v ∈ vectors, v.1 ++ "x" ++ v.2 ∈ flipComps ∧ v.1 ++ "y" ++ v.2 ∈ flipComps := by decide +kernel
    intro hv
    rcases h with rfl | rfl
    · exact (this v hv).1
    · exact (this v hv).2
  · intro h
    have : ∀ n ∈ flipComps, ∃ v ∈ vectors, n = v.1 ++ "x" ++ v.2 ∨ n = v.1 ++ "y" ++ v.2 := by decide +kernel
    exact this name h

/-- How a scalar field's value changes when it is turned -/
def sign (name : String) (x y : ℚ) : Prop := (Across name ∧ y = -x) ∨ (¬ Across name ∧ y = x)

/-- C192, scalar fields: a scalar field of a grid that is turned, unless it has the name of a vector, can be read, and it is what the file holds,
    turned by half a turn about z; the components of vectors along x and y, under the names OpenGGCM's files have for them, change their sign,
    everything else keeps it. -/
theorem C192_scalar (copy : Bool) (f : Field) (xs ys zs : List ℚ) (hf : InFile f xs ys zs) (hc : f.comps = none)
    (hn : f.name ∉ ["v", "b", "b1", "b2", "b_cc", "b_fc", "e_cc", "e_ec", "efl", "j", "xj"]) :
    ∃ g d, load true copy f = .ok g ∧ g.read = .ok d ∧ ∃ X Y Z, g.points = [X, Y, Z] ∧ d.shape = [X.length, Y.length, Z.length] ∧
      ∃ r : ℚ → ℚ, (∀ x, sign f.name x (r x)) ∧ ∀ p w, At X Y Z (fun i j k => d.get [i, j, k]) (half p) (r w) ↔
        At (along f.center xs) (along f.center ys) (along f.center zs) (numberAt f) p w := by
  by_cases ha : f.name ∈ flipComps
  · have hl : ∃ g, load true copy f = .ok g ∧ g.tf = some .minus := by
      refine ⟨{ f with axes := setCrds true f.axes, tf := some .minus, copy := copy }, ?_, rfl⟩
      simp [load, addField, choose, hc, ha, bind, Except.bind]
    obtain ⟨g, hg, ht⟩ := hl
    obtain ⟨d, d1, d2, d3⟩ := scalar_data true copy f g xs ys zs hf hc hg
    refine ⟨g, ⟨d.shape, fun idx => d.get idx * -1⟩, hg, ?_, _, _, _, load_points true copy f g xs ys zs hf hg, ?_, fun x => -x,
      fun x => Or.inl ⟨(across_iff _).mpr ha, rfl⟩, ?_⟩
    · unfold Field.read
      rw [d1, ht]
      rfl
    · simp only [if_true, reflectArr_length]
      exact d2
    · intro p w
      rw [if_pos rfl, if_pos rfl]
      refine at_turn _ _ _ _ _ (fun x => -x) (fun a b h => neg_inj.mp h) ?_ p w
      intro i j k hi hj hk
      dsimp only
      rw [d3 i j k hi hj hk, mul_neg, mul_one]
      rfl
  · have hl : ∃ g, load true copy f = .ok g ∧ g.tf = some .same := by
      refine ⟨{ f with axes := setCrds true f.axes, tf := some .same, copy := copy }, ?_, rfl⟩
      have hn' : f.name ∉ flipNames := hn
      simp [load, addField, choose, hc, ha, hn', bind, Except.bind]
    obtain ⟨g, hg, ht⟩ := hl
    obtain ⟨d, d1, d2, d3⟩ := scalar_data true copy f g xs ys zs hf hc hg
    refine ⟨g, d, hg, ?_, _, _, _, load_points true copy f g xs ys zs hf hg, ?_, fun x => x,
      fun x => Or.inr ⟨fun h => ha ((across_iff _).mp h), rfl⟩, ?_⟩
    · unfold Field.read
      rw [d1, ht]
      rfl
    · simp only [if_true, reflectArr_length]
      exact d2
    · intro p w
      rw [if_pos rfl, if_pos rfl]
      refine at_turn _ _ _ _ _ (fun x => x) (fun a b h => h) ?_ p w
      intro i j k hi hj hk
      exact d3 i j k hi hj hk

/-- C192: a scalar field with the name of a vector is refused. -/
theorem C192_reserved (copy : Bool) (f : Field) (hc : f.comps = none)
    (hn : f.name ∈ ["v", "b", "b1", "b2", "b_cc", "b_fc", "e_cc", "e_ec", "efl", "j", "xj"]) : load true copy f = .error .notImplemented := by
  have h1 : f.name ∈ flipNames := hn
  have h2 : f.name ∉ flipComps := by
    have : ∀ n ∈ flipNames, n ∉ flipComps := by decide +kernel
    exact this _ h1
  simp [load, addField, choose, hc, h1, h2, bind, Except.bind]

/-- C192, violated: the components of vectors under other names do not change their sign; a component of the background field `b0x` is 5 at
    (1, 1, 1), and -5 it should be at (-1, -1, 1). -/
theorem C192_names_violated : ∃ f g d, InFile f [1, 2] [1, 2] [1, 2] ∧ f.name = "b0x" ∧ (∀ i j k, numberAt f i j k = 5) ∧
    load true false f = .ok g ∧ g.read = .ok d ∧ ∀ i j k, i < 2 → j < 2 → k < 2 → d.get [i, j, k] = 5 := by
  let f : Field := ⟨"b0x", [("x", ⟨[1, 2], none, false⟩), ("y", ⟨[1, 2], none, false⟩), ("z", ⟨[1, 2], none, false⟩)], .node, false, none,
    ⟨[2, 2, 2], fun _ => 5⟩, none, false⟩
  have hf : InFile f [1, 2] [1, 2] [1, 2] := ⟨rfl, Or.inl rfl, rfl⟩
  have hl : load true false f = .ok { f with axes := setCrds true f.axes, tf := some .same } := rfl
  obtain ⟨d, d1, _, d3⟩ := scalar_data true false f _ _ _ _ hf rfl hl
  exact ⟨f, _, d, hf, rfl, fun _ _ _ => rfl, hl, by unfold Field.read; rw [d1]; rfl, fun i j k hi hj hk => by rw [d3 i j k hi hj hk]; rfl⟩

/-! ## Vectors made of scalar fields -/

/-- What reading a scalar field of a turned grid gives -/
theorem scalar_read (copy : Bool) (f : Field) (xs ys zs : List ℚ) (hf : InFile f xs ys zs) (hc : f.comps = none) (hn : f.name ∉ flipNames) :
    ∃ g d, load true copy f = .ok g ∧ g.read = .ok d ∧
      d.shape = [(along f.center xs).length, (along f.center ys).length, (along f.center zs).length] ∧
      ∀ i j k, i < (along f.center xs).length → j < (along f.center ys).length → k < (along f.center zs).length →
        d.get [i, j, k] = (if f.name ∈ flipComps then -1 else 1) *
          numberAt f ((along f.center xs).length - 1 - i) ((along f.center ys).length - 1 - j) k := by
  by_cases ha : f.name ∈ flipComps
  · have hg : load true copy f = .ok { f with axes := setCrds true f.axes, tf := some .minus, copy := copy } := by
      simp [load, addField, choose, hc, ha, bind, Except.bind]
    obtain ⟨d, d1, d2, d3⟩ := scalar_data true copy f _ xs ys zs hf hc hg
    refine ⟨_, ⟨d.shape, fun idx => d.get idx * -1⟩, hg, by unfold Field.read; rw [d1]; rfl, d2, ?_⟩
    intro i j k hi hj hk
    have := d3 i j k hi hj hk
    simp only [back, if_true] at this
    dsimp only
    rw [this, if_pos ha]; ring
  · have hg : load true copy f = .ok { f with axes := setCrds true f.axes, tf := some .same, copy := copy } := by
      simp [load, addField, choose, hc, ha, hn, bind, Except.bind]
    obtain ⟨d, d1, d2, d3⟩ := scalar_data true copy f _ xs ys zs hf hc hg
    refine ⟨_, d, hg, by unfold Field.read; rw [d1]; rfl, d2, ?_⟩
    intro i j k hi hj hk
    have := d3 i j k hi hj hk
    simp only [back, if_true] at this
    rw [this, if_neg ha]; ring

/-- C192, vectors made of their components: the vector field that is made of the three components in a file, under any of the names that
    OpenGGCM's files have for them, is the vector field that the file holds, turned by half a turn about z, whichever place the components get. -/
theorem C192_assembled (copy interlaced : Bool) (v : String × String) (hv : v ∈ vectors) (fx fy fz : Field) (xs ys zs : List ℚ)
    (hx : InFile fx xs ys zs) (hy : InFile fy xs ys zs) (hz : InFile fz xs ys zs)
    (cx : fx.comps = none) (cy : fy.comps = none) (cz : fz.comps = none) (ey : fy.center = fx.center) (ez : fz.center = fx.center)
    (nx : fx.name = v.1 ++ "x" ++ v.2) (ny : fy.name = v.1 ++ "y" ++ v.2) (nz : fz.name = v.1 ++ "z" ++ v.2) :
    ∃ gx gy gz d, load true copy fx = .ok gx ∧ load true copy fy = .ok gy ∧ load true copy fz = .ok gz ∧
      assemble interlaced [gx, gy, gz] = .ok d ∧ ∃ X Y Z, ({ gx with axes := assembled gx } : Field).points = [X, Y, Z] ∧
      d.shape = put (!interlaced) 3 [X.length, Y.length, Z.length] ∧
      ∀ p w, At X Y Z (vecAt (!interlaced) d) (half p) (half w) ↔
        At (along fx.center xs) (along fx.center ys) (along fx.center zs) (fun i j k => (numberAt fx i j k, numberAt fy i j k, numberAt fz i j k)) p w := by
  have hnames : ∀ v ∈ vectors, (v.1 ++ "x" ++ v.2 ∈ flipComps ∧ v.1 ++ "y" ++ v.2 ∈ flipComps ∧ v.1 ++ "z" ++ v.2 ∉ flipComps) ∧
      (v.1 ++ "x" ++ v.2 ∉ flipNames ∧ v.1 ++ "y" ++ v.2 ∉ flipNames ∧ v.1 ++ "z" ++ v.2 ∉ flipNames) := by decide +kernel
  obtain ⟨⟨f1, f2, f3⟩, m1, m2, m3⟩ := hnames v hv
  obtain ⟨gx, dx, lx, rx, sx, vx⟩ := scalar_read copy fx xs ys zs hx cx (by rw [nx]; exact m1)
  obtain ⟨gy, dy, ly, ry, sy, vy⟩ := scalar_read copy fy xs ys zs hy cy (by rw [ny]; exact m2)
  obtain ⟨gz, dz, lz, rz, sz, vz⟩ := scalar_read copy fz xs ys zs hz cz (by rw [nz]; exact m3)
  rw [ey] at sy vy
  rw [ez] at sz vz
  rw [nx, if_pos f1] at vx
  rw [ny, if_pos f2] at vy
  rw [nz, if_neg f3] at vz
  obtain ⟨e1, e2, _⟩ := load_fld true copy fx gx xs ys zs hx lx
  have hp : ({ gx with axes := assembled gx } : Field).points =
      [reflectArr (along fx.center xs), reflectArr (along fx.center ys), along fx.center zs] := by
    unfold Field.points assembled
    dsimp only
    rw [e1, e2]
    unfold along
    simp only [List.map_cons, List.map_nil, Axis.applyReflections, Bool.false_eq_true, if_false]
    split
    · rfl
    · show [mid (reflectArr xs), mid (reflectArr ys), mid zs] = [reflectArr (mid xs), reflectArr (mid ys), mid zs]
      rw [mid_reflect, mid_reflect]
  have hm : [gx, gy, gz].mapM Field.read = .ok [dx, dy, dz] := by
    simp [List.mapM_cons, rx, ry, rz, bind, Except.bind, pure, Except.pure]
  have hall : ∀ d ∈ [dx, dy, dz], d.shape = dx.shape := by simp [sx, sy, sz]
  have hst : assemble interlaced [gx, gy, gz] = stack interlaced [dx, dy, dz] dx.shape := by
    unfold assemble
    rw [hm]
    rfl
  cases interlaced with
  | true =>
    refine ⟨gx, gy, gz, _, lx, ly, lz, by rw [hst, stack, if_pos hall, if_pos rfl], _, _, _, hp, ?_, ?_⟩
    · simp [put, sx, reflectArr_length]
    · intro p w
      refine at_turn _ _ _ _ _ half half_inj ?_ p w
      intro i j k hi hj hk
      simp [vecAt, half, vx i j k hi hj hk, vy i j k hi hj hk, vz i j k hi hj hk]
  | false =>
    refine ⟨gx, gy, gz, _, lx, ly, lz, by rw [hst, stack, if_pos hall, if_neg (by simp)], _, _, _, hp, ?_, ?_⟩
    · simp [put, sx, reflectArr_length]
    · intro p w
      refine at_turn _ _ _ _ _ half half_inj ?_ p w
      intro i j k hi hj hk
      simp [vecAt, half, vx i j k hi hj hk, vy i j k hi hj hk, vz i j k hi hj hk]

/-! ## Slices of what has not been read -/

/-- The signs of a part are those of the whole. -/
theorem index_minus (d : Arr ℚ) (idx : List Idx) : LazySlice.index (⟨d.shape, fun i => d.get i * -1⟩ : Arr ℚ) idx =
    (LazySlice.index d idx).map fun b => ⟨b.shape, fun i => b.get i * -1⟩ := by
  unfold LazySlice.index
  dsimp only
  cases LazySlice.sels d.shape idx <;> rfl

/-- Slicing a scalar field is slicing it without the transform function, then that. -/
theorem lazy_scalar (f : Field) (w : WF f.fld) (hc : f.comps = none) (slices : List Idx) (c : Idx) (hlen : slices.length = f.fld.sshape.length) :
    f.lazy slices c = (ofLazy (f.fld.lazy slices c)).bind fun a => match f.tf with
      | none => .ok a
      | some t => t.apply f a := by
  have c1 : f.fld.comps = none := hc
  unfold Field.lazy Fld.lazy
  cases hx : LazySlice.fwd f.fld.sshape slices f.fld.reflect with
  | error e => rfl
  | ok xs =>
    obtain ⟨rows, r1, _, _, r4, _⟩ := LazySlice.fwd_rows _ _ _ _ hlen w.rev hx
    have l1 : xs.length = f.fld.sshape.length := by rw [← r4, ← r1]; simp
    have l2 : f.fld.src.shape.length = f.fld.sshape.length := by
      rw [w.src]; unfold Fld.nativeShape Fld.withComp; rw [c1]; dsimp only; split <;> simp
    have l3 : (f.fld.native xs c).1.length = f.fld.sshape.length := by
      rw [← l1]; unfold Fld.native; rw [c1]; dsimp only; split <;> simp
    have l4 : f.src.shape.length = (f.fld.native xs c).1.length := by rw [l3]; exact l2
    have l5 : f.fld.src.shape.length = (f.fld.native xs c).1.length := l4
    have h2 : f.fld.src = f.src := rfl
    simp only [ofLazy, bind, Except.bind, l4, l5, ne_eq, not_true_eq_false, if_false, if_true]
    rw [h2]
    cases LazySlice.h5index f.src (f.fld.native xs c).1 with
    | error e => rfl
    | ok a =>
      dsimp only
      cases LazySlice.index a ((f.fld.native xs c).2.filterMap LazySlice.second) with
      | error e => rfl
      | ok b =>
        dsimp only
        cases f.tf with
        | none => rfl
        | some t => simp [hc]

/-- C192, slices of scalar fields: a slice of a scalar field that has not been read gives what slicing it after reading gives, whether its grid is
    turned or not. Missing: vector fields, and selections for which C96 fails. -/
theorem C192_sliced_partial (f : Field) (w : WF f.fld) (hc : f.comps = none) (slices : List Idx) (c : Idx)
    (hlen : slices.length = f.fld.sshape.length)
    (hgood : ∀ (k L : Nat) (v : Bool) (i : Idx), f.fld.sshape[k]? = some L → f.fld.reflect[k]? = some v → slices[k]? = some i → LazySlice.Good L v i)
    (a : Arr ℚ) (h : f.lazy slices c = .ok a) : ∃ b, f.loaded slices c = .ok b ∧ Same a b := by
  rw [lazy_scalar f w hc slices c hlen] at h
  cases hl : f.fld.lazy slices c with
  | error e => rw [hl] at h; cases h
  | ok a0 =>
    rw [hl] at h
    obtain ⟨b0, h1, h2⟩ := C96_same_partial f.fld w (Or.inr hc) slices c hlen hgood a0 hl
    unfold Fld.loaded at h1
    cases hd : f.fld.data with
    | error e => rw [hd] at h1; cases h1
    | ok d =>
      rw [hd] at h1
      simp only [bind, Except.bind] at h1
      unfold Field.loaded Field.read
      rw [hd]
      cases ht : f.tf with
      | none =>
        rw [ht] at h
        simp only [ofLazy, Except.bind, Except.ok.injEq] at h
        subst h
        exact ⟨b0, by simp only [ofLazy, bind, Except.bind]; rw [h1], h2⟩
      | some t =>
        rw [ht] at h
        cases t with
        | same =>
          simp only [ofLazy, Except.bind, Tf.apply, Except.ok.injEq] at h
          subst h
          exact ⟨b0, by simp only [ofLazy, bind, Except.bind, Tf.apply]; rw [h1], h2⟩
        | minus =>
          simp only [ofLazy, Except.bind, Tf.apply, Except.ok.injEq] at h
          subst h
          refine ⟨⟨b0.shape, fun i => b0.get i * -1⟩, by simp only [ofLazy, bind, Except.bind, Tf.apply]; rw [index_minus, h1]; rfl, h2.1, ?_⟩
          intro idx hv
          dsimp only
          rw [h2.2 idx hv]
        | vector =>
          simp only [ofLazy, Except.bind, Tf.apply, hc] at h
          cases h

/-- A vector field in a file of 2 x 2 x 2 values, stored z first with the components last -/
def exVec : Field :=
  ⟨"b", [("x", ⟨[1, 2], none, false⟩), ("y", ⟨[1, 3], none, false⟩), ("z", ⟨[0, 5], none, false⟩)], .node, true, some (false, 3),
    ⟨[2, 2, 2, 3], fun idx => 1 + 2 * (idx.getLastD 0 : ℚ)⟩, none, false⟩

/-- Non-vacuity: it is one of a file, and so is one that is cell centred. -/
example : InFile exVec [1, 2] [1, 3] [0, 5] := ⟨rfl, Or.inl rfl, rfl⟩

/-- A scalar field in a file of one cell: a component of the electric field -/
def exComp : Field :=
  ⟨"ex_cc", [("x", ⟨[1, 2], none, false⟩), ("y", ⟨[1, 3], none, false⟩), ("z", ⟨[0, 5], none, false⟩)], .cell, true, none,
    ⟨[1, 1, 1], fun _ => 7⟩, none, false⟩

example : InFile exComp [1, 2] [1, 3] [0, 5] ∧ Across exComp.name ∧ exComp.name ∉ flipNames ∧
    At (along exComp.center [1, 2]) (along exComp.center [1, 3]) (along exComp.center [0, 5]) (numberAt exComp) (3 / 2, 2, 5 / 2) 7 := by
  refine ⟨⟨rfl, Or.inr rfl, rfl⟩, ⟨("e", "_cc"), by decide +kernel, Or.inl (by decide +kernel)⟩, by decide +kernel, 0, 0, 0, ?_, ?_, ?_, rfl⟩ <;>
    decide +kernel

/-- C192, violated: `fld[1]` of a vector field of a turned grid raises AttributeError if the field has not been read; it has a value if it has. -/
theorem C192_sliced_violated : ∃ f g, InFile f [1, 2] [1, 3] [0, 5] ∧ load true false f = .ok g ∧
    g.lazy [.int 1, full, full] full = .error .attribute ∧ ∃ b, g.loaded [.int 1, full, full] full = .ok b := by
  have hl : load true false exVec = .ok { exVec with axes := setCrds true exVec.axes, tf := some .vector } := rfl
  refine ⟨exVec, _, ⟨rfl, Or.inl rfl, rfl⟩, hl, rfl, ⟨_, rfl⟩⟩

/-! ## Fields that are not read from files -/

/-- C192, violated: an array that is assigned to the data of a field of a turned grid is not what the field then shows. Assigning 1, 2 along x to
    `bx` gives -2, -1. -/
theorem C192_assign_violated : ∃ (f g : Field) (d : Arr ℚ), InFile f [1, 2] [1] [0] ∧ f.name = "bx" ∧ load true false f = .ok g ∧
    (g.assign ⟨[2, 1, 1], fun idx => 1 + idx.headD 0⟩).read = .ok d ∧ d.get [0, 0, 0] = -2 ∧ d.get [1, 0, 0] = -1 := by
  let f : Field := ⟨"bx", [("x", ⟨[1, 2], none, false⟩), ("y", ⟨[1], none, false⟩), ("z", ⟨[0], none, false⟩)], .node, true, none,
    ⟨[1, 1, 2], fun _ => 0⟩, none, false⟩
  have hl : load true false f = .ok { f with axes := setCrds true f.axes, tf := some .minus } := rfl
  exact ⟨f, _, _, ⟨rfl, Or.inl rfl, rfl⟩, rfl, hl, rfl, by decide +kernel, by decide +kernel⟩

/-- C192: an array that is assigned to the data of a field of a grid that is not turned is what it shows. -/
theorem C192_assign_partial (copy : Bool) (f g : Field) (xs ys zs : List ℚ) (hf : InFile f xs ys zs) (hc : f.comps = none) (ht : f.tf = none)
    (hl : load false copy f = .ok g) (a : Arr ℚ)
    (ha : a.shape = [(along f.center xs).length, (along f.center ys).length, (along f.center zs).length]) :
    ∃ d, (g.assign a).read = .ok d ∧ Same d a := by
  have hg : g = { f with axes := setCrds false f.axes } := by
    have : load false copy f = .ok { f with axes := setCrds false f.axes } := rfl
    rw [this] at hl; exact (Except.ok.inj hl).symm
  subst hg
  let f' : Field := { f with src := a, zyx := false }
  have hf' : InFile f' xs ys zs := ⟨hf.axes, hf.center, by
    have : f'.src = a := rfl
    rw [this, ha]
    simp [f', hc]⟩
  have hl' : load false copy f' = .ok { f' with axes := setCrds false f'.axes } := rfl
  obtain ⟨d, d1, d2, d3⟩ := scalar_data false copy f' _ xs ys zs hf' hc hl'
  refine ⟨d, ?_, by rw [d2, ha], ?_⟩
  · unfold Field.read
    have : (Field.assign { f with axes := setCrds false f.axes } a) = { f' with axes := setCrds false f'.axes } := rfl
    rw [this, d1]
    simp [ofLazy, bind, Except.bind, f', ht]
  · intro idx hv
    rw [d2] at hv
    match idx, hv with
    | [i, j, k], ⟨h1, h2, h3, _⟩ => exact d3 i j k h1 h2 h3

/-- C192, violated: a field that was computed from fields of a turned grid changes its sign when it is added to the grid. -/
theorem C192_added_violated : ∃ (f g h : Field) (d e : Arr ℚ), InFile f [1, 2] [1] [0] ∧ load true false f = .ok g ∧
    (g.wrap "bx" ⟨[2, 1, 1], fun _ => 3⟩).read = .ok d ∧ d.get [0, 0, 0] = 3 ∧
    addField true false (g.wrap "bx" ⟨[2, 1, 1], fun _ => 3⟩) = .ok h ∧ h.read = .ok e ∧ e.get [0, 0, 0] = -3 := by
  let f : Field := ⟨"bx", [("x", ⟨[1, 2], none, false⟩), ("y", ⟨[1], none, false⟩), ("z", ⟨[0], none, false⟩)], .node, true, none,
    ⟨[1, 1, 2], fun _ => 0⟩, none, false⟩
  have hl : load true false f = .ok { f with axes := setCrds true f.axes, tf := some .minus } := rfl
  exact ⟨f, _, _, _, _, ⟨rfl, Or.inl rfl, rfl⟩, hl, rfl, by decide +kernel, rfl, rfl, by decide +kernel⟩

end Viscid.Props
