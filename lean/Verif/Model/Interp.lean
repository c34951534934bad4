import Mathlib.Algebra.Order.Floor.Ring
import Mathlib.Data.Rat.Floor
/-!
# Model of `viscid/cython/cycalc.pyx`: interpolation on a rectilinear grid

Coordinates, data and query points are rationals (floating point rounding, NaN and the overflow of
`<int> floor(...)` are not modelled).  The file is compiled with boundscheck=False and
wraparound=False, so an index outside an array is undefined behaviour: a read is modelled as an
`Option`, `none` being a read outside the axis (cyfield.pyx:56-71 pads shorter axes with NaN; such
reads are counted as outside too).
-/
namespace Viscid.Interp

/-- One axis of a CyField: cyfield.pyx:21-112.  `crds` is `crds[m, d, :n[d]]`; xl and xh are its first
and last entries (cyfield.pyx:92-95), `uniform` is `uniform_crds`. -/
structure Axis where
  crds : List ℚ
  uniform : Bool
  deriving Repr, DecidableEq

namespace Axis
/-- `fld.n[d]` -/
def n (a : Axis) : Nat := a.crds.length
/-- cyfield.pyx:93 -/
def xl (a : Axis) : ℚ := a.crds.headD 0
/-- cyfield.pyx:94 -/
def xh (a : Axis) : ℚ := a.crds.getLastD 0
/-- cyfield.pyx:95 -/
def L (a : Axis) : ℚ := a.xh - a.xl
end Axis

/-- cycalc.pyx:269-275: `for i in range(startidx, n - 1): if crds[i + 1] > value: break`; `k` counts
the remaining values of i.  If the loop is exhausted, i = n - 1. -/
def scanUp (c : List ℚ) (v : ℚ) (i : Nat) : Nat → Option Nat
  | 0 => some (c.length - 1)
  | k + 1 =>
    match c[i + 1]? with
    | none => none
    | some y => if y > v then some i else scanUp c v (i + 1) k

/-- cycalc.pyx:277-284: `for i in range(startidx - 1, -1, -1): if crds[i] <= value: break`; the
argument is i + 1.  If the loop is exhausted, i = 0. -/
def scanDown (c : List ℚ) (v : ℚ) : Nat → Option Nat
  | 0 => some 0
  | i + 1 =>
    match c[i]? with
    | none => none
    | some y => if y ≤ v then some i else scanDown c v i

/-- cycalc.pyx:240-289 closest_preceeding_ind; the result is also the new cached index, except that
nothing else is stored (`cached_idx3[d] = ind`).  `none`: read outside the coordinate array. -/
def preceding (a : Axis) (v : ℚ) (start : Nat) : Option Nat :=
  if a.n = 1 then some 0
  else if a.uniform then
    let frac := (v - a.xl) / a.L
    let i : Int := ⌊((a.n : ℚ) - 1) * frac⌋
    some (min (max i 0) ((a.n : Int) - 2)).toNat
  else
    match a.crds[start]? with
    | none => none
    | some x => if x ≤ v then scanUp a.crds v start (a.n - 1 - start) else scanDown a.crds v start

/-- cycalc.pyx:291-303 closest_ind. -/
def closest (a : Axis) (v : ℚ) (start : Nat) : Option Nat :=
  match preceding a v start with
  | none => none
  | some i =>
    if i = a.n - 1 then some (a.n - 1)
    else
      match a.crds[i]?, a.crds[i + 1]? with
      | some x, some y => if |x - v| ≤ |y - v| then some i else some (i + 1)
      | _, _ => none

/-- What the loop at cycalc.pyx:158-177 computes for one axis. -/
structure Loc where
  ix : Nat
  p : Nat
  xd : ℚ
  deriving Repr, DecidableEq

/-- cycalc.pyx:158-177, one pass; also the cached index afterwards. -/
def locate (a : Axis) (x : ℚ) (start : Nat) : Option (Loc × Nat) :=
  if a.n = 1 ∨ x ≤ a.xl then some (⟨0, 0, 0⟩, start)
  else if x ≥ a.xh then some (⟨a.n - 1, 0, 0⟩, start)
  else
    match preceding a x start with
    | none => none
    | some i =>
      match a.crds[i]?, a.crds[i + 1]? with
      | some c0, some c1 => some (⟨i, 1, (x - c0) / (c1 - c0)⟩, i)
      | _, _ => none

/-- cycalc.pyx:180-194: the eight point formula, on the data of one component. -/
def blend (f : Nat → Nat → Nat → ℚ) (a b c : Loc) : ℚ :=
  let c00 := f a.ix b.ix c.ix + a.xd * (f (a.ix + a.p) b.ix c.ix - f a.ix b.ix c.ix)
  let c10 := f a.ix (b.ix + b.p) c.ix + a.xd * (f (a.ix + a.p) (b.ix + b.p) c.ix - f a.ix (b.ix + b.p) c.ix)
  let c01 := f a.ix b.ix (c.ix + c.p) + a.xd * (f (a.ix + a.p) b.ix (c.ix + c.p) - f a.ix b.ix (c.ix + c.p))
  let c11 := f a.ix (b.ix + b.p) (c.ix + c.p) +
    a.xd * (f (a.ix + a.p) (b.ix + b.p) (c.ix + c.p) - f a.ix (b.ix + b.p) (c.ix + c.p))
  let c0 := c00 + b.xd * (c10 - c00)
  let c1 := c01 + b.xd * (c11 - c01)
  c0 + c.xd * (c1 - c0)

/-- A field component on a grid of three axes: `data[i, j, k, m]`; a cell outside is `none`. -/
structure Grid where
  ax : Axis
  ay : Axis
  az : Axis
  data : Nat → Nat → Nat → ℚ

/-- A data read that knows the array bounds. -/
def Grid.inside (g : Grid) (i j k : Nat) : Bool := decide (i < g.ax.n) && decide (j < g.ay.n) && decide (k < g.az.n)

abbrev Cache := Nat × Nat × Nat

/-- cycalc.pyx:149-208 _c_interp_trilin: value and new cache; `none`: a read outside an array. The
eight reads of the formula are all within the box spanned by the two extreme corners. -/
def trilin (g : Grid) (x y z : ℚ) (c : Cache) : Option (ℚ × Cache) :=
  match locate g.ax x c.1, locate g.ay y c.2.1, locate g.az z c.2.2 with
  | some (a, ca), some (b, cb), some (d, cd) =>
    if g.inside (a.ix + a.p) (b.ix + b.p) (d.ix + d.p) then some (blend g.data a b d, (ca, cb, cd)) else none
  | _, _, _ => none

/-- cycalc.pyx:230-238 _c_interp_nearest; the cache holds the preceding indices. -/
def nearest (g : Grid) (x y z : ℚ) (c : Cache) : Option (ℚ × Cache) :=
  match preceding g.ax x c.1, preceding g.ay y c.2.1, preceding g.az z c.2.2 with
  | some pa, some pb, some pd =>
    match closest g.ax x c.1, closest g.ay y c.2.1, closest g.az z c.2.2 with
    | some i, some j, some k => if g.inside i j k then some (g.data i j k, (pa, pb, pd)) else none
    | _, _, _ => none
  | _, _, _ => none

/-- cycalc.pyx:126-147 (and 210-228): the loop over points of an AMR field, one component; the cache
starts at zero and is carried from point to point, also when activate_patch switches to another
patch.  `pts` pairs each point with the patch activate_patch chose for it. -/
def sweep (interp : Grid → ℚ → ℚ → ℚ → Cache → Option (ℚ × Cache)) :
    List (Grid × ℚ × ℚ × ℚ) → Cache → Option (List ℚ)
  | [], _ => some []
  | (g, x, y, z) :: r, c =>
    match interp g x y z c with
    | none => none
    | some (v, c') =>
      match sweep interp r c' with
      | none => none
      | some vs => some (v :: vs)

end Viscid.Interp
