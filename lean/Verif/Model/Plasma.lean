import Mathlib.Algebra.Field.Basic
import Mathlib.Analysis.Real.Sqrt
/-!
# Model of `viscid/calculator/plasma.py`: the flux function and the plasma beta

Numbers are those of a field (rounding is not modelled). Arrays are functions of their indices, with sizes beside them.
-/
namespace Viscid.Plasma

inductive Err
  | value
  | index
deriving DecidableEq, Repr

variable {K : Type} [Field K]

/-- plasma.py:93-95: `A[i, 0]`, summed up along the first axis -/
def fwdEdge (y : Nat → K) (hz : Nat → Nat → K) : Nat → K
  | 0 => 0
  | i + 1 => fwdEdge y hz i + (y (i + 1) - y i) * (1 / 2) * (hz (i + 1) 0 + hz i 0)

/-- plasma.py:92-98: `A[i, j]` from that edge on -/
def fwd (y z : Nat → K) (hy hz : Nat → Nat → K) (i : Nat) : Nat → K
  | 0 => fwdEdge y hz i
  | j + 1 => fwd y z hy hz i j - (z (j + 1) - z j) * (1 / 2) * (hy i j + hy i (j + 1))

/-- plasma.py:85-87: `A[ny - 1 - k, -1]` -/
def revEdge (ny nz : Nat) (y : Nat → K) (hz : Nat → Nat → K) : Nat → K
  | 0 => 0
  | k + 1 => revEdge ny nz y hz k -
      (y (ny - 1 - k) - y (ny - 2 - k)) * (1 / 2) * (hz (ny - 2 - k) (nz - 1) + hz (ny - 1 - k) (nz - 1))

/-- plasma.py:84-90: `A[i, nz - 1 - l]` -/
def revGo (ny nz : Nat) (y z : Nat → K) (hy hz : Nat → Nat → K) (i : Nat) : Nat → K
  | 0 => revEdge ny nz y hz (ny - 1 - i)
  | l + 1 => revGo ny nz y z hy hz i l + (z (nz - 1 - l) - z (nz - 2 - l)) * (1 / 2) * (hy i (nz - 1 - l) + hy i (nz - 2 - l))

/-- plasma.py:82-98: the array `A` -/
def integrate (rev : Bool) (ny nz : Nat) (y z : Nat → K) (hy hz : Nat → Nat → K) (i j : Nat) : K :=
  if rev then revGo ny nz y z hy hz i (nz - 1 - j) else fwd y z hy hz i j

/-- A vector field with two axes, in the order of its arrays -/
structure Fld (K : Type) where
  ax0 : Char
  ax1 : Char
  n0 : Nat
  n1 : Nat
  c0 : Nat → K
  c1 : Nat → K
  b : Char → Nat → Nat → K

/-- plasma.py:66-98: axes in the order of "xyz", whatever that of the arrays is. The names of axes may not be among "xyz": then too few
    coordinates are unpacked, ValueError. If the arrays are the other way round, `hz[i, 0]` takes `i` for the wrong axis: IndexError if
    there are too few; otherwise, unless the sizes are the same, shapes differ when columns are added (forward, ValueError) or there are
    too few columns (backward, IndexError). -/
def calcPsi (rev : Bool) (f : Fld K) : Except Err (Nat → Nat → K) :=
  if f.ax0 ∉ ['x', 'y', 'z'] ∨ f.ax1 ∉ ['x', 'y', 'z'] ∨ f.ax0 = f.ax1 then .error .value
  else if f.ax0 < f.ax1 then .ok (integrate rev f.n0 f.n1 f.c0 f.c1 (f.b f.ax0) (f.b f.ax1))
  else if f.n0 < f.n1 then .error .index
  else if f.n1 < f.n0 then .error (if rev then .index else .value)
  else .ok (integrate rev f.n1 f.n0 f.c1 f.c0 (f.b f.ax1) (f.b f.ax0))

/-- plasma.py:43-64: the axes that are left, given as names and sizes. `slice_reduce(":")` leaves out axes of one point. With three
    or more, `B[slcs]` is an index by a *list*, which `raw_sel2sel_list` (sliceutil.py:88-93, 113-127) takes for an array of
    objects: IndexError, always. -/
def axesOf (sh : List (Char × Nat)) : Except Err (List Char) :=
  let sh := sh.filter fun a => a.2 ≠ 1
  if sh.length > 2 then .error .index
  else if sh.length ≠ 2 then .error .value
  else .ok (sh.map (·.1))

/-- plasma.py:112-136 `calc_beta`, at one point -/
noncomputable def calcBeta (scale p bx b_y bz : ℝ) : ℝ := scale * 2 * p / Real.sqrt (bx ^ 2 + b_y ^ 2 + bz ^ 2)

end Viscid.Plasma
