import Verif.Model.Basic
import Mathlib.Algebra.Order.Ring.Rat
/-!
# Model of `viscid/fluidtrace.py`: following fluid elements, and curators of seeds

Times are rational numbers (rounding is not modelled). Where the streamlines end that begin at the seeds, `viscid.calc_streamlines`,
is a parameter, and so are the fields of the grids. Not modelled: the callback, options for streamlines, and vector fields with less
than three axes.
-/
namespace Viscid.Fluid

inductive Err
  | index
  | runtime
deriving DecidableEq, Repr

def sign (q : ℚ) : ℚ := if q < 0 then -1 else if q = 0 then 0 else 1

/-- what is known before the main loop -/
structure Setup where
  tdir : ℚ
  times : List ℚ
  tstart : ℚ
  tstop : ℚ
  dt : ℚ
  dtInterp : ℚ
deriving DecidableEq, Repr

def diffs : List ℚ → List ℚ
  | a :: b :: l => (b - a) :: diffs (b :: l)
  | _ => []

/-- `np.min` of one number or more -/
def minOf : ℚ → List ℚ → ℚ
  | m, [] => m
  | m, x :: l => minOf (if x < m then x else m) l

/-- fluidtrace.py:187 -/
def sliceMinDt (times : List ℚ) : ℚ :=
  match (diffs times).map fun d => |d| with
  | [] => 1
  | d :: l => minOf d l

/-- fluidtrace.py:189-195: forward or backward -/
def direction (sliceDir : ℚ) (tstart tstop dt duration : Option ℚ) : ℚ :=
  match tstart, tstop with
  | some a, some b => sign (b - a)
  | _, _ =>
    if (∃ d ∈ dt, d < 0) ∨ ∃ d ∈ duration, d < 0 then -1
    else if sliceDir = 0 then 1 else sliceDir

/-- fluidtrace.py:182-224. `slc` is `dset.tslc_range(time_slice)`, and `times` are those of the grids. -/
def setup (times : List ℚ) (slc : ℚ × ℚ) (tstart tstop dt duration dtInterp : Option ℚ) : Except Err Setup :=
  match times, times.getLast? with
  | first :: _, some last =>
    let sliceDir := sign (last - first)
    let tdir := direction sliceDir tstart tstop dt duration
    let flip : Bool := (0 < tdir ∧ sliceDir < 0) ∨ (tdir < 0 ∧ 0 < sliceDir)
    let times' := if flip then times.reverse else times
    let slc := if flip then (slc.2, slc.1) else slc
    let a := tstart.getD slc.1
    let b := match tstop with
      | some b => b
      | none => match duration with
        | some d => a + tdir * |d|
        | none => slc.2
    let dt := match dt with | some d => |d| | none => sliceMinDt times
    let dtI := match dtInterp with | some d => |d| | none => dt
    if (diffs times').any fun d => sign d ≠ tdir then .error .runtime
    else .ok ⟨tdir, times', a, b, dt, dtI⟩
  | _, _ => .error .index

variable {S : Type}

/-- A pass of the inner loop: the time, that of the fields, and the seeds, as the callback has them -/
structure Step (S : Type) where
  t : ℚ
  tfld : ℚ
  seeds : S

/-- fluidtrace.py:249-267: the inner loop, up to `tn`, with the fields of `tf`. `next tf t s` is where the streamlines of `s` end, after
    the curator has been asked (lines 263-266). -/
def inner (u : Setup) (next : ℚ → ℚ → S → S) (tn tf : ℚ) : Nat → ℚ → S → List (Step S) × ℚ × S
  | 0, t, s => ([], t, s)
  | n + 1, t, s =>
    if u.tdir * (t - tn) < 0 ∧ u.tdir * (t - u.tstop) ≤ 0 then
      let (l, t', s') := inner u next tn tf n (t + u.tdir * u.dt) (next tf t s)
      (⟨t, tf, s⟩ :: l, t', s')
    else ([], t, s)

/-- fluidtrace.py:229-267: the outer loop. Neither loop is bounded in the code; here they are, by a number. -/
def outer (u : Setup) (next : ℚ → ℚ → S → S) : Nat → ℚ → S → List (Step S)
  | 0, _, _ => []
  | n + 1, t, s =>
    if u.tdir * (t - u.tstop) ≤ 0 then
      let (l, t', s') := inner u next (t + u.tdir * u.dtInterp) t (n + 1) t s
      l ++ outer u next n t' s'
    else []

/-- fluidtrace.py:155-267: what the callback is called with, and what is returned, which is None -/
def follow (u : Setup) (next : ℚ → ℚ → S → S) (n : Nat) (s : S) : List (Step S) × Option S := (outer u next n u.tstart s, none)

/-! ### fields at some time -/

/-- fluidtrace.py:230 -/
def idx0 (tdir : ℚ) (times : List ℚ) (t : ℚ) : Nat := times.countP (fun x => tdir * (x - t) < 0) - 1

/-- fluidtrace.py:231 -/
def idx1 (tdir : ℚ) (times : List ℚ) (t : ℚ) : Nat := min (idx0 tdir times t + 1) (times.length - 1)

/-- fluidtrace.py:235 -/
def frac (tdir : ℚ) (times : List ℚ) (t : ℚ) : ℚ :=
  let a := times.getD (idx0 tdir times t) 0
  let b := times.getD (idx1 tdir times t) 0
  if a = b then 0 else (t - a) / (b - a)

/-- fluidtrace.py:237-244: a value of the field at `t`, where `vals` are its values in the grids -/
def fieldAt (tdir : ℚ) (times vals : List ℚ) (t : ℚ) : ℚ :=
  let i := idx0 tdir times t
  let j := idx1 tdir times t
  if i = j then vals.getD i 0
  else
    let a := frac tdir times t
    let b := 1 - frac tdir times t
    a * vals.getD i 0 + b * vals.getD j 0

/-! ### curators -/

structure Pt where
  x : ℚ
  y : ℚ
  z : ℚ
deriving DecidableEq, Repr

/-- Bounds; none if there is no such bound -/
structure Bounds where
  lo : Option ℚ × Option ℚ × Option ℚ
  hi : Option ℚ × Option ℚ × Option ℚ
  ibound : Option ℚ
  oboundR : Option ℚ

/-- one axis of fluidtrace.py:39-65: the bounds given, or those of the field; axes with one point have none -/
def axisBounds (lo hi : Option ℚ) (xl xh : ℚ) (n : Nat) : Option ℚ × Option ℚ :=
  if n = 1 then (none, none) else (some (lo.getD xl), some (hi.getD xh))

def beyond (lo hi : Option ℚ) (x : ℚ) : Bool := decide (∃ l ∈ lo, x < l) || decide (∃ h ∈ hi, h < x)

/-- fluidtrace.py:68-85 `_update_delmask_oob`, for one seed; radii of zero are none (`if self.ibound`) -/
def oob (b : Bounds) (p : Pt) : Bool :=
  let rsq := p.x ^ 2 + p.y ^ 2 + p.z ^ 2
  beyond b.lo.1 b.hi.1 p.x || beyond b.lo.2.1 b.hi.2.1 p.y || beyond b.lo.2.2 b.hi.2.2 p.z ||
    decide (∃ r ∈ b.ibound, r ≠ 0 ∧ rsq < r ^ 2) || decide (∃ r ∈ b.oboundR, r ≠ 0 ∧ r ^ 2 < rsq)

/-- fluidtrace.py:87-90 `SeedCurator.update` -/
def remove (b : Bounds) (seeds : List Pt) : List Pt := seeds.filter fun p => !oob b p

/-- fluidtrace.py:101-111 `ContinuousCurator.update`: the time it last added seeds, and the seeds -/
def continuous (b : Bounds) (new : List Pt) (cadence : ℚ) (last : Option ℚ) (time : ℚ) (seeds : List Pt) : Option ℚ × List Pt :=
  let last := last.getD time
  if time - last > cadence then (some time, remove b seeds ++ new) else (some last, seeds)

/-- fluidtrace.py:120-128 `ReplacementCurator.update`: the originals, and the seeds -/
def replacement (b : Bounds) (orig : Option (List Pt)) (seeds : List Pt) : List Pt × List Pt :=
  let orig := orig.getD seeds
  (orig, List.zipWith (fun o p => if oob b p then o else p) orig seeds)

end Viscid.Fluid
