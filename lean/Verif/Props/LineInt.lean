import Verif.Model.LineInt
import Verif.Spec.LineInt
import Mathlib.Tactic.Ring
import Mathlib.Tactic.FieldSimp
import Mathlib.Analysis.SpecialFunctions.Pow.Real
/-!
# C42: line integrals
-/
namespace Viscid.LineInt
open Viscid.Spec.LineInt
variable {K : Type} [Field K] [DecidableEq K]

omit [Field K] [DecidableEq K] in
/-- In the concatenation, the first slice of a nonempty line is its vertices but the last. -/
theorem slice_init {α : Type} (pre l post : List α) (hl : l ≠ []) :
    slice (pre ++ l ++ post) pre.length (((pre.length + l.length : Nat) : Int) - 1) = l.dropLast := by
  have h0 : 0 < l.length := List.length_pos_iff.mpr hl
  unfold slice
  rw [if_pos (by omega), show (((pre.length + l.length : Nat) : Int) - 1).toNat = pre.length + (l.length - 1) by omega,
    List.append_assoc, List.take_length_add_append, List.drop_left, List.take_append_of_le_length (by omega),
    List.dropLast_eq_take]

omit [Field K] [DecidableEq K] in
/-- The second slice is its vertices but the first. -/
theorem slice_tail {α : Type} (pre l post : List α) :
    slice (pre ++ l ++ post) (pre.length + 1) ((pre.length + l.length : Nat) : Int) = l.tail := by
  unfold slice
  rw [if_pos (by omega), Int.toNat_natCast, ← List.length_append, List.take_left,
    show pre.length + 1 = pre.length + 1 from rfl, List.drop_length_add_append, List.drop_one]

omit [Field K] [DecidableEq K] in
theorem bcast_eq {α β γ : Type} (f : α → β → γ) (a : List α) (b : List β) (h : a.length = b.length) :
    bcast f a b = .ok (List.zipWith f a b) := by
  unfold bcast; rw [if_pos h]

theorem fold_some (l : List K) (s : K) :
    (l.map some).foldl addNan (some s) =
      some (l.foldl (· + ·) s) := by
  induction l generalizing s with
  | nil => rfl
  | cons a l ih => rw [List.map_cons, List.foldl_cons, List.foldl_cons]; exact ih (s + a)

theorem foldl_add (l : List K) (s : K) : l.foldl (· + ·) s = s + l.sum := by
  induction l generalizing s with
  | nil => simp
  | cons a l ih => rw [List.foldl_cons, ih, List.sum_cons, add_assoc]

theorem total_some (vs ds : List K) (h : vs.length = ds.length) :
    total (vs.map some) ds = .ok (some (List.zipWith (· * ·) vs ds).sum) := by
  unfold total
  rw [bcast_eq _ _ _ (by rw [List.length_map, h])]
  dsimp only
  rw [show List.zipWith (fun (v : Option K) d => Option.map (fun x => x * d) v) (vs.map some) ds =
      (List.zipWith (· * ·) vs ds).map some by
    rw [List.zipWith_map_left, List.map_zipWith]; rfl]
  rw [fold_some, foldl_add, zero_add]

/-- Sums over consecutive vertices. -/
theorem sum_segments {P : Type} (q : P → P → K) (l : List P) :
    (List.zipWith q l.dropLast l.tail).sum = overSegments q l := by
  induction l with
  | nil => rfl
  | cons a l ih =>
    cases l with
    | nil => rfl
    | cons b r =>
      rw [List.dropLast_cons_cons, List.tail_cons, List.zipWith_cons_cons, List.sum_cons]
      rw [List.tail_cons] at ih
      rw [ih]
      rfl

omit [Field K] [DecidableEq K] in
theorem zip_zip {P A B C : Type} (f : P → P → A) (g : P → P → B) (h : A → B → C) (a b : List P) :
    List.zipWith h (List.zipWith f a b) (List.zipWith g b a) = List.zipWith (fun p q => h (f p q) (g q p)) a b := by
  induction a generalizing b with
  | nil => simp
  | cons x a ih =>
    cases b with
    | nil => simp
    | cons y b => simp only [List.zipWith_cons_cons, ih]

omit [Field K] [DecidableEq K] in
theorem len_tail {α : Type} (l : List α) : l.dropLast.length = l.tail.length := by
  rw [List.length_dropLast, List.length_tail]

/-- One line of a scalar field. -/
theorem oneLine_scalar (nrm : V K → K) (f : V K → K) (red : Red) (pre post line : List (V K)) (hl : line ≠ []) :
    oneLine nrm (.scalar f) red (pre ++ line ++ post) line pre.length (pre.length + line.length) =
      .ok (some (trapezoid nrm f line)) := by
  unfold oneLine
  dsimp only
  have e1 := slice_init (pre.map f) (line.map f) (post.map f) (by simpa using hl)
  have e2 := slice_tail (pre.map f) (line.map f) (post.map f)
  rw [List.length_map, List.length_map] at e1 e2
  rw [List.map_append, List.map_append, e1, e2, bcast_eq _ _ _ (len_tail _)]
  dsimp only
  have hlen : (List.zipWith (fun a b => (1 / 2) * (a + b)) (line.map f).dropLast (line.map f).tail).length =
      ((segs line).map nrm).length := by
    unfold segs; simp
  rw [total_some _ _ hlen]
  congr 2
  unfold segs
  rw [← List.map_dropLast, ← List.map_tail, List.zipWith_map, List.map_zipWith, zip_zip, sum_segments]
  unfold trapezoid
  congr 1
  funext a b
  unfold sub
  ring

/-- One line of a vector field, component along the line. -/
theorem oneLine_dot (nrm : V K → K) (F : V K → V K) (pre post line : List (V K)) (hl : line ≠ [])
    (hn : ∀ d ∈ segs line, nrm d ≠ 0) :
    oneLine nrm (.vector F) .dot (pre ++ line ++ post) line pre.length (pre.length + line.length) =
      .ok (some (trapezoidDot F line)) := by
  unfold oneLine
  dsimp only
  have e1 := slice_init (pre.map F) (line.map F) (post.map F) (by simpa using hl)
  have e2 := slice_tail (pre.map F) (line.map F) (post.map F)
  rw [List.length_map, List.length_map] at e1 e2
  rw [List.map_append, List.map_append, e1, e2, bcast_eq _ _ _ (len_tail _)]
  dsimp only
  rw [bcast_eq _ _ _ (by unfold segs; simp)]
  dsimp only
  have hu : (segs line).map (fun d => if nrm d = 0 then none else some (d.1 / nrm d, d.2.1 / nrm d, d.2.2 / nrm d)) =
      ((segs line).map fun d => (d.1 / nrm d, d.2.1 / nrm d, d.2.2 / nrm d)).map some := by
    rw [List.map_map]
    refine List.map_congr_left fun d hd => ?_
    rw [if_neg (hn d hd)]; rfl
  rw [hu, ← List.map_dropLast, ← List.map_tail, List.zipWith_map, List.zipWith_map_right]
  dsimp only [Option.map_some]
  rw [← List.map_zipWith (f := some)]
  rw [total_some _ _ (by unfold segs; simp)]
  congr 2
  have hz : ∀ (vs : List (V K)) (ss : List (V K)), (∀ d ∈ ss, nrm d ≠ 0) →
      List.zipWith (· * ·) (List.zipWith (fun (v : V K) (u : V K) => v.1 * u.1 + v.2.1 * u.2.1 + v.2.2 * u.2.2) vs
        (ss.map fun d => (d.1 / nrm d, d.2.1 / nrm d, d.2.2 / nrm d))) (ss.map nrm) =
      List.zipWith (fun (v : V K) (d : V K) => v.1 * d.1 + v.2.1 * d.2.1 + v.2.2 * d.2.2) vs ss := by
    intro vs
    induction vs with
    | nil => intro ss _; simp
    | cons v vs ih =>
      intro ss hss
      cases ss with
      | nil => simp
      | cons s ss =>
        simp only [List.map_cons, List.zipWith_cons_cons]
        rw [ih ss fun d hd => hss d (List.mem_cons_of_mem _ hd)]
        congr 1
        have := hss s List.mem_cons_self
        field_simp
  rw [hz _ _ hn]
  unfold segs
  rw [zip_zip, sum_segments]
  unfold trapezoidDot
  congr 1
  funext a b
  unfold sub
  ring

/-- The loop gives each line its own value if each line does. -/
theorem loop_ok (nrm : V K → K) (fld : Fld K) (red : Red) (val : List (V K) → K) (lines : List (List (V K)))
    (h : ∀ line ∈ lines, ∀ pre post, oneLine nrm fld red (pre ++ line ++ post) line pre.length (pre.length + line.length) =
      .ok (some (val line))) :
    ∀ pre, loop nrm fld red (pre ++ lines.flatten) pre.length lines = .ok (lines.map fun l => some (val l)) := by
  induction lines with
  | nil => intro pre; rfl
  | cons line rest ih =>
    intro pre
    unfold loop
    rw [List.flatten_cons, ← List.append_assoc, h line List.mem_cons_self pre rest.flatten]
    dsimp only
    have := ih (fun l hl => h l (List.mem_cons_of_mem _ hl)) (pre ++ line)
    rw [List.length_append] at this
    rw [this]
    rfl

/-- C42, scalar fields: each line gets the trapezoid sum over its own vertices, whatever the other lines and
the reduction. -/
theorem C42_scalar (nrm : V K → K) (f : V K → K) (red : Red) (lines : List (List (V K))) (h0 : lines ≠ [])
    (hl : ∀ l ∈ lines, l ≠ []) :
    integrate nrm (.scalar f) red lines = .ok (lines.map fun l => some (trapezoid nrm f l)) := by
  have := loop_ok nrm (.scalar f) red (trapezoid nrm f) lines
    (fun line h pre post => oneLine_scalar nrm f red pre post line (hl line h)) []
  rw [List.nil_append] at this
  unfold integrate
  cases lines with
  | nil => exact absurd rfl h0
  | cons a b => exact this

/-- C42, dot reduction: the same with the component along the line, if consecutive vertices differ. -/
theorem C42_dot_partial (nrm : V K → K) (hnrm : ∀ v, nrm v = 0 → v = (0, 0, 0)) (F : V K → V K) (lines : List (List (V K)))
    (h0 : lines ≠ []) (hl : ∀ l ∈ lines, l ≠ []) (hd : ∀ l ∈ lines, l.IsChain (· ≠ ·)) :
    integrate nrm (.vector F) .dot lines = .ok (lines.map fun l => some (trapezoidDot F l)) := by
  have seg : ∀ l : List (V K), l.IsChain (· ≠ ·) → ∀ d ∈ segs l, nrm d ≠ 0 := by
    intro l
    induction l with
    | nil => intro _ d hd; cases hd
    | cons a l ih =>
      intro hc d hd
      cases l with
      | nil => cases hd
      | cons b r =>
        have e : segs (a :: b :: r) = sub b a :: segs (b :: r) := by
          unfold segs
          rw [List.tail_cons, List.dropLast_cons_cons, List.zipWith_cons_cons]; rfl
        rw [e] at hd
        rw [List.isChain_cons_cons] at hc
        rcases List.mem_cons.mp hd with rfl | hd
        · intro h
          have := hnrm _ h
          unfold sub at this
          simp only [Prod.mk.injEq, sub_eq_zero] at this
          exact hc.1 (Prod.ext this.1.symm (Prod.ext this.2.1.symm this.2.2.symm))
        · exact ih hc.2 d hd
  have := loop_ok nrm (.vector F) .dot (trapezoidDot F) lines
    (fun line h pre post => oneLine_dot nrm F pre post line (hl line h) (seg line (hd line h))) []
  rw [List.nil_append] at this
  unfold integrate
  cases lines with
  | nil => exact absurd rfl h0
  | cons a b => exact this

/-- C42, dot reduction, fails for a repeated vertex: the whole integral of the line is nan, instead of a
zero contribution. -/
theorem C42_dot_repeated_vertex_violated (nrm : V K → K) (h0 : nrm (0, 0, 0) = 0) (F : V K → V K) (p q : V K) :
    integrate nrm (.vector F) .dot [[p, p, q]] = .ok [none] ∧ trapezoidDot F [p, p, q] = trapezoidDot F [p, q] := by
  constructor
  · have hs : sub p p = (0, 0, 0) := by unfold sub; simp
    show loop nrm (.vector F) .dot [p, p, q] 0 [[p, p, q]] = _
    unfold loop
    have : oneLine nrm (.vector F) .dot [p, p, q] [p, p, q] 0 (0 + [p, p, q].length) = .ok none := by
      unfold oneLine
      simp [slice, bcast, segs, total, addNan, hs, h0]
    rw [this]
    rfl
  · simp only [trapezoidDot, overSegments]
    ring

/-- C42, mag reduction, holds for the first line only, hence for a call with a single line. -/
theorem C42_mag_first_partial (nrm : V K → K) (F : V K → V K) (line : List (V K)) (hl : line ≠ []) :
    integrate nrm (.vector F) .mag [line] = .ok [some (trapezoid nrm (fun v => nrm (F v)) line)] := by
  have h := oneLine_scalar nrm (fun v => nrm (F v)) .mag [] [] line hl
  have h2 : oneLine nrm (.vector F) .mag line line 0 (0 + line.length) =
      oneLine nrm (.scalar fun v => nrm (F v)) .mag line line 0 (0 + line.length) := by
    unfold oneLine
    dsimp only
    have : slice (line.map F) 0 ((0 + line.length : Nat) : Int) = line.map F := by
      unfold slice
      rw [if_pos (by omega), Int.toNat_natCast, Nat.zero_add, ← List.length_map (f := F), List.take_length, List.drop_zero]
    rw [this, List.map_map]
    rfl
  unfold integrate
  simp only [List.flatten_cons, List.flatten_nil, List.append_nil]
  unfold loop
  rw [h2]
  rw [List.nil_append, List.append_nil, List.length_nil] at h
  rw [h]
  rfl

/-- C42, mag reduction, fails from the second line on: a second line of two vertices gets 0 whatever the
field, after any first line of at least two vertices. -/
theorem C42_mag_second_violated (nrm : V K → K) (F : V K → V K) (l : List (V K)) (hl : 2 ≤ l.length) (p q : V K) (vs : List (Option K))
    (h : integrate nrm (.vector F) .mag [l, [p, q]] = .ok vs) : vs[1]? = some (some 0) := by
  unfold integrate at h
  dsimp only at h
  unfold loop at h
  cases h1 : oneLine nrm (.vector F) .mag [l, [p, q]].flatten l 0 (0 + l.length) with
  | error e => rw [h1] at h; cases h
  | ok v =>
    rw [h1] at h
    dsimp only at h
    unfold loop at h
    have h2 : oneLine nrm (.vector F) .mag [l, [p, q]].flatten [p, q] (0 + l.length) (0 + l.length + [p, q].length) = .ok (some 0) := by
      unfold oneLine
      dsimp only
      have e : slice ([l, [p, q]].flatten.map F) (0 + l.length) ((0 + l.length + [p, q].length : Nat) : Int) = [F p, F q] := by
        unfold slice
        rw [if_pos (by omega), Int.toNat_natCast]
        simp [List.take_of_length_le]
      rw [e]
      have e1 : ∀ n : Int, 0 ≤ n → slice ([F p, F q].map nrm) (0 + l.length) n = [] := by
        intro n hn
        unfold slice
        rw [if_pos hn, List.drop_eq_nil_iff, List.length_take]
        simp; omega
      have e2 : ∀ n : Int, 0 ≤ n → slice ([F p, F q].map nrm) (0 + l.length + 1) n = [] := by
        intro n hn
        unfold slice
        rw [if_pos hn, List.drop_eq_nil_iff, List.length_take]
        simp; omega
      rw [e1 _ (by omega), e2 _ (by omega)]
      simp [bcast, total, segs]
    rw [h2] at h
    dsimp only at h
    unfold loop at h
    cases h
    rfl

/-- C42, mag reduction: and two lines of three vertices raise. -/
theorem C42_mag_raises_violated (nrm : V K → K) (F : V K → V K) (a b c d e f : V K) :
    integrate nrm (.vector F) .mag [[a, b, c], [d, e, f]] = .error .value := by
  simp [integrate, loop, oneLine, slice, bcast, segs, total]

/-- C42 fails for a first line without vertices: `stop - 1` is -1, and the call raises although the other line is fine. -/
theorem C42_empty_first_line_violated (nrm : V K → K) (f : V K → K) (red : Red) (a b c : V K) :
    integrate nrm (.scalar f) red [[], [a, b, c]] = .error .value := by
  simp [integrate, loop, oneLine, slice, bcast]

/-- C42, error branches: an unknown reduction of a vector field, and an empty list of lines, raise ValueError. -/
theorem C42_errors (nrm : V K → K) (F : V K → V K) (l : List (V K)) (ls : List (List (V K))) (fld : Fld K) (red : Red) :
    integrate nrm (.vector F) .other (l :: ls) = .error .value ∧ integrate nrm fld red [] = .error .value :=
  ⟨rfl, rfl⟩

/-- The Euclidean norm meets the hypotheses. -/
noncomputable def euclid (v : V ℝ) : ℝ := Real.sqrt (v.1 * v.1 + v.2.1 * v.2.1 + v.2.2 * v.2.2)

theorem euclid_zero (v : V ℝ) (h : euclid v = 0) : v = (0, 0, 0) := by
  unfold euclid at h
  have h1 := mul_self_nonneg v.1
  have h2 := mul_self_nonneg v.2.1
  have h3 := mul_self_nonneg v.2.2
  have h := (Real.sqrt_eq_zero (by linarith)).mp h
  exact Prod.ext (mul_self_eq_zero.mp (by linarith)) (Prod.ext (mul_self_eq_zero.mp (by linarith)) (mul_self_eq_zero.mp (by linarith)))

open Classical in
/-- Non-vacuity: the field (x, 0, 0) along a line of three vertices and one of two, passed together. -/
example : integrate euclid (.vector fun v => (v.1, 0, 0)) .dot [[(0, 0, 0), (1, 0, 0), (3, 4, 0)], [(5, 0, 0), (7, 0, 0)]] =
    .ok [some (9 / 2), some 12] := by
  rw [C42_dot_partial euclid euclid_zero _ _ (by simp) (by simp) (by simp)]
  simp only [List.map_cons, List.map_nil, trapezoidDot, overSegments]
  norm_num

open Classical in
/-- Non-vacuity for mag: the second line of a constant unit field should give 2, and gives 0. -/
example : trapezoid euclid (fun v => euclid ((fun _ => (1, 0, 0) : V ℝ → V ℝ) v)) [(5, 0, 0), (7, 0, 0)] = 2 := by
  have h1 : euclid (1, 0, 0) = 1 := by unfold euclid; norm_num
  have h2 : euclid ((7:ℝ) - 5, 0 - 0, 0 - 0) = 2 := by
    unfold euclid
    rw [show ((7:ℝ) - 5) * (7 - 5) + (0 - 0) * (0 - 0) + (0 - 0) * (0 - 0) = 2 * 2 by norm_num]
    exact Real.sqrt_mul_self (by norm_num)
  simp only [trapezoid, overSegments]
  rw [h1, h2]; norm_num

end Viscid.LineInt
