import Mathlib.Algebra.Order.Field.Basic
import Mathlib.Algebra.Order.Ring.Abs
/-!
# Model of `viscid/cython/streamline.pyx`: tracing one direction, one line, many lines

Coordinates, step sizes and times live in an arbitrary linearly ordered field (floating point rounding,
NaN, infinities and the width of C `int` are not modelled).  The integrator together with the
activation of an AMR patch is an arbitrary state transformer: nothing about it is assumed unless a
theorem says so.
-/
namespace Viscid.Streamline

/-- A C array `real_t x[3]`. -/
structure P3 (K : Type) where
  x : K
  y : K
  z : K
  deriving DecidableEq, Repr

/-- streamline.pyx:70-87 -/
def END_NONE : Nat := 0
def END_IBOUND : Nat := 1
def END_IBOUND_NORTH : Nat := 2 ||| END_IBOUND
def END_IBOUND_SOUTH : Nat := 4 ||| END_IBOUND
def END_OBOUND : Nat := 8
def END_OBOUND_XL : Nat := 16 ||| END_OBOUND
def END_OBOUND_XH : Nat := 32 ||| END_OBOUND
def END_OBOUND_YL : Nat := 64 ||| END_OBOUND
def END_OBOUND_YH : Nat := 128 ||| END_OBOUND
def END_OBOUND_ZL : Nat := 256 ||| END_OBOUND
def END_OBOUND_ZH : Nat := 512 ||| END_OBOUND
def END_OBOUND_R : Nat := 1024 ||| END_OBOUND
def END_OTHER : Nat := 4096
def END_MAXIT : Nat := 8192 ||| END_OTHER
def END_MAX_LENGTH : Nat := 16384 ||| END_OTHER
def END_MAX_T : Nat := 32768 ||| END_OTHER
def END_ZERO_LENGTH : Nat := 65536 ||| END_OTHER

/-- streamline.pyx:98-102 -/
def TOPOLOGY_MS_CLOSED : Nat := 1
def TOPOLOGY_MS_OPEN_NORTH : Nat := 2
def TOPOLOGY_MS_OPEN_SOUTH : Nat := 4
def TOPOLOGY_MS_SW : Nat := 8

/-- streamline.pyx:59-61 -/
def DIR_FORWARD : Nat := 1
def DIR_BACKWARD : Nat := 2

/-- streamline.pyx:674-693 end_flags_to_topology_msphere -/
def topologyMsphere (flags : Nat) : Nat :=
  if flags &&& END_OTHER ≠ 0 then flags
  else if flags &&& (END_IBOUND_NORTH ||| END_OBOUND) = (END_IBOUND_NORTH ||| END_OBOUND) then
    TOPOLOGY_MS_OPEN_NORTH
  else if flags &&& (END_IBOUND_SOUTH ||| END_OBOUND) = (END_IBOUND_SOUTH ||| END_OBOUND) then
    TOPOLOGY_MS_OPEN_SOUTH
  else if flags = 3 ∨ flags = 5 ∨ flags = 7 then TOPOLOGY_MS_CLOSED
  else TOPOLOGY_MS_SW

section
variable {K : Type} [Field K] [LinearOrder K]

/-- Arguments of `_py_streamline` after the defaults were filled in (streamline.pyx:320-328, 406-441). -/
structure Cfg (K : Type) where
  maxit : Nat
  ds0 : K
  ibound : K
  lo : P3 K
  hi : P3 K
  oboundR : K
  maxLength : K
  maxT : K
  streamDir : Nat
  /-- `output & OUTPUT_STREAMLINES` -/
  lines : Bool

/-- streamline.pyx:633-672 classify_endpoint -/
def classify (c : Cfg K) (p : P3 K) (len t : K) : Nat :=
  let rsq := p.x ^ 2 + p.y ^ 2 + p.z ^ 2
  if rsq < c.ibound ^ 2 then
    if p.z ≥ 0 then END_IBOUND_NORTH else END_IBOUND_SOUTH
  else if c.oboundR ≠ 0 ∧ rsq > c.oboundR ^ 2 then END_OBOUND_R
  else if p.x < c.lo.x then END_OBOUND_XL
  else if p.y < c.lo.y then END_OBOUND_YL
  else if p.z < c.lo.z then END_OBOUND_ZL
  else if p.x > c.hi.x then END_OBOUND_XH
  else if p.y > c.hi.y then END_OBOUND_YH
  else if p.z > c.hi.z then END_OBOUND_ZH
  else if c.maxLength > 0 ∧ len ≥ c.maxLength then END_MAX_LENGTH
  else if c.maxT > 0 ∧ t ≥ c.maxT then END_MAX_T
  else END_NONE

/-- What an integrator call leaves behind: the return value, the new point, the new `*ds`, the new
`*dt`, and whatever else it changes (cached interpolation index, active patch). -/
structure Out (σ K : Type) where
  ret : Nat
  x : P3 K
  ds : K
  dt : K
  st : σ

/-- `integrate_func` (streamline.pyx:456-470), with the patch activation before it (541-550). -/
abbrev Integ (σ K : Type) := σ → P3 K → K → K → Out σ K

/-- The scalar variables of one direction (streamline.pyx:516-530). -/
structure Acc (σ K : Type) where
  s : P3 K
  ds : K
  len : K
  t : K
  dt : K
  absDt : K
  trim : K
  st : σ

/-- streamline.pyx:538-588: call the integrator, shorten the segment if a limit is exceeded,
accumulate.  The Boolean is `ret != 0`.  `absDt` keeps its previous (possibly uninitialised) value when
max_t is not positive, as in the code. -/
def advance (c : Cfg K) (integ : Integ σ K) (a : Acc σ K) : Acc σ K × Bool :=
  let preDs := |a.ds|
  let o := integ a.st a.s a.ds a.dt
  let dt := if c.maxT > 0 then o.dt else a.dt
  let absDs := if |o.ds| ≥ preDs then preDs else |o.ds|
  let absDt := if c.maxT > 0 then |dt| else a.absDt
  let trim1 := if c.maxLength > 0 ∧ a.len + absDs > c.maxLength then (c.maxLength - a.len) / absDs else a.trim
  let trim2 :=
    if c.maxT > 0 ∧ a.t + absDt > c.maxT then
      if (c.maxT - a.t) / absDt < trim1 then (c.maxT - a.t) / absDt else trim1
    else trim1
  let s : P3 K :=
    if trim2 < 1 then
      ⟨a.s.x + trim2 * (o.x.x - a.s.x), a.s.y + trim2 * (o.x.y - a.s.y), a.s.z + trim2 * (o.x.z - a.s.z)⟩
    else o.x
  (⟨s, o.ds, a.len + absDs, a.t + absDt, dt, absDt, trim2, o.st⟩, o.ret != 0)

/-- Failures the C code would not notice: a write outside the buffer; `fuel` marks a loop that the
model stopped because the number of iterations exceeded the given bound. -/
inductive Err where
  | outOfBounds
  | fuel
  deriving DecidableEq, Repr

/-- State that outlives a direction and a line: the shared line buffer (streamline.pyx:480, `np.empty`,
`none` = never written), the uninitialised-or-stale `abs_dt`, the integrator's state, `nr_segs`. -/
structure Glob (σ K : Type) where
  buf : List (Option (P3 K))
  absDt : K
  st : σ
  nrSegs : Nat

/-- `line_mv[:, i] = s` (streamline.pyx:594-597), boundscheck off. -/
def write (buf : List (Option (P3 K))) (i : Int) (p : P3 K) : Except Err (List (Option (P3 K))) :=
  if 0 ≤ i ∧ i < (buf.length : Int) then .ok (buf.set i.toNat (some p)) else .error .outOfBounds

/-- Variables of the while loop of one direction. -/
structure Loop (σ K : Type) where
  a : Acc σ K
  it : Int
  buf : List (Option (P3 K))
  nrSegs : Nat

/-- One pass through streamline.pyx:536-606; the number is `done`. -/
def body (c : Cfg K) (integ : Integ σ K) (d : Int) (L : Loop σ K) : Except Err (Loop σ K × Nat) :=
  let r := advance c integ L.a
  if r.2 then .ok (⟨r.1, L.it, L.buf, L.nrSegs + 1⟩, END_ZERO_LENGTH)
  else
    match (if c.lines then write L.buf L.it r.1.s else .ok L.buf) with
    | .error e => .error e
    | .ok buf => .ok (⟨r.1, L.it + d, buf, L.nrSegs + 1⟩, classify c r.1.s r.1.len r.1.t)

/-- streamline.pyx:535-606 `while 0 <= it and it < maxit2` -/
def loop (c : Cfg K) (integ : Integ σ K) (d : Int) : Nat → Loop σ K → Except Err (Loop σ K × Nat)
  | 0, L => if 0 ≤ L.it ∧ L.it < 2 * (c.maxit : Int) + 1 then .error .fuel else .ok (L, END_NONE)
  | f + 1, L =>
    if 0 ≤ L.it ∧ L.it < 2 * (c.maxit : Int) + 1 then
      match body c integ d L with
      | .error e => .error e
      | .ok (L', done) => if done ≠ END_NONE then .ok (L', done) else loop c integ d f L'
    else .ok (L, END_NONE)

/-- streamline.pyx:516-612: one direction of one line; `le` is `line_ends[i]`.  Returns the new
`line_ends[i]` and `done`. -/
def runDir (c : Cfg K) (integ : Integ σ K) (fuel : Nat) (d : Int) (le : Int) (x0 : P3 K) (g : Glob σ K) :
    Except Err (Glob σ K × Int × Nat) :=
  match loop c integ d fuel ⟨⟨x0, d * c.ds0, 0, 0, 0, g.absDt, 1, g.st⟩, le, g.buf, g.nrSegs⟩ with
  | .error e => .error e
  | .ok (L, done) =>
    .ok (⟨L.buf, L.a.absDt, L.a.st, L.nrSegs⟩, L.it, if done = END_NONE then END_OTHER ||| END_MAXIT else done)

/-- What one line contributes to the output. -/
structure Line (K : Type) where
  /-- `lines[i_stream]`, a copy of the slice `line_ends[0] + 1 : line_ends[1]` -/
  pts : List (Option (P3 K))
  flags : Nat
  deriving DecidableEq, Repr

/-- streamline.pyx:490-622: one seed.  The skipped directions leave `line_ends` and the flags alone
(511-514). -/
def runLine (c : Cfg K) (integ : Integ σ K) (fuel : Nat) (x0 : P3 K) (g : Glob σ K) :
    Except Err (Glob σ K × Line K) :=
  match (if c.lines then write g.buf c.maxit x0 else .ok g.buf) with
  | .error e => .error e
  | .ok buf0 =>
    match (if c.streamDir &&& DIR_BACKWARD ≠ 0 then runDir c integ fuel (-1) (c.maxit - 1) x0 { g with buf := buf0 }
           else .ok ({ g with buf := buf0 }, (c.maxit : Int) - 1, END_NONE)) with
    | .error e => .error e
    | .ok (g1, le0, f0) =>
      match (if c.streamDir &&& DIR_FORWARD ≠ 0 then runDir c integ fuel 1 (c.maxit + 1) x0 g1
             else .ok (g1, (c.maxit : Int) + 1, END_NONE)) with
      | .error e => .error e
      | .ok (g2, le1, f1) =>
        .ok (g2, ⟨(g2.buf.take le1.toNat).drop (le0 + 1).toNat, END_NONE ||| f0 ||| f1⟩)

/-- streamline.pyx:488-622: all seeds of one chunk, in order. -/
def runLines (c : Cfg K) (integ : Integ σ K) (fuel : Nat) : List (P3 K) → Glob σ K → Except Err (Glob σ K × List (Line K))
  | [], g => .ok (g, [])
  | x0 :: xs, g =>
    match runLine c integ fuel x0 g with
    | .error e => .error e
    | .ok (g', l) =>
      match runLines c integ fuel xs g' with
      | .error e => .error e
      | .ok (g'', ls) => .ok (g'', l :: ls)

/-- `_py_streamline` (streamline.pyx:396-480, 488-631): a fresh buffer, any initial `abs_dt`. -/
def pyStreamline (c : Cfg K) (integ : Integ σ K) (junk : K) (st : σ) (seeds : List (P3 K)) :
    Except Err (Glob σ K × List (Line K)) :=
  runLines c integ c.maxit seeds
    ⟨if c.lines then List.replicate (2 * c.maxit + 1) none else [], junk, st, 0⟩

end

/-! ### Colours -/

/-- An RGB triple in tenths: (0.0, 0.8, 0.0) is (0, 8, 0). -/
abbrev Rgb := Nat × Nat × Nat

/-- calculator/topology.py:19-23 color_map_msphere -/
def colorMapMsphere : List (Nat × Rgb) :=
  [(TOPOLOGY_MS_CLOSED, (0, 8, 0)), (TOPOLOGY_MS_OPEN_NORTH, (0, 0, 7)),
   (TOPOLOGY_MS_OPEN_SOUTH, (7, 0, 0)), (TOPOLOGY_MS_SW, (7, 7, 7))]

/-- calculator/topology.py:29-68 topology2color on a list of topologies (the scalar branch 63-67 is the
one-element case); `style` is the dict given by the user, or `none` for "msphere". -/
def topology2color (style : Option (List (Nat × Rgb))) (bad : Option Rgb) (topo : List Nat) : List Rgb :=
  topo.map fun t => ((style.getD colorMapMsphere).lookup t).getD (bad.getD (0, 0, 0))

/-! ### The module-level lock -/

/-- What a call to calc_streamlines meets.  Failures before the lock is taken (streamline.pyx:229-261:
not three dimensional, bad field type, an unknown method name, ...), and failures inside the mapped
tracing function (268-269: unknown keyword, unknown method number, no seeds, seeds that are not three
dimensional, a failing worker). -/
structure Call where
  failsBefore : Bool
  failsInside : Bool
  deriving DecidableEq, Repr

inductive CallResult where
  | ok
  | argError
  | innerError
  /-- RuntimeError "Another process is doing streamlines in this global memory space" -/
  | locked
  deriving DecidableEq, Repr

/-- streamline.pyx:229-270; `true`: `_global_fld` is not None. -/
def calcStreamlines (lock : Bool) (c : Call) : Bool × CallResult :=
  if c.failsBefore then (lock, .argError)
  else if lock then (lock, .locked)
  else if c.failsInside then (true, .innerError)
  else (false, .ok)

/-- A history of calls, each seeing the lock the previous one left. -/
def calls : Bool → List Call → List CallResult
  | _, [] => []
  | lock, c :: cs => (calcStreamlines lock c).2 :: calls (calcStreamlines lock c).1 cs

end Viscid.Streamline
