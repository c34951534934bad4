import Verif.Model.FwdSlice
import Verif.Spec.Slice
import Mathlib.Algebra.Order.Ring.Rat
import Mathlib.Data.Rat.Defs
/-!
# Model of `viscid/coordinate.py`: the coordinates of one axis

Rational coordinates (no floating point rounding, no datetime axes).  Python's slicing of a sequence is
`Viscid.Spec.Slice.pyIndices`.
-/
namespace Viscid.Crds
open Viscid.FwdSlice (Slc)

/-- One axis of StructuredCrds: source nodes, source cell centres if given explicitly, and whether the axis is
in reflect_axes. -/
structure Axis where
  nc : List ℚ
  cc : Option (List ℚ) := none
  reflect : Bool := false
  deriving DecidableEq, Repr

/-- coordinate.py:428-429 _reflect_axis_arr -/
def reflectArr (l : List ℚ) : List ℚ := l.reverse.map fun x => -1 * x

/-- coordinate.py:509-514: cell centres of node coordinates. -/
def mid (l : List ℚ) : List ℚ :=
  if l.length = 1 then l else List.zipWith (fun a b => a + (1 / 2) * (b - a)) l.dropLast l.tail

/-- coordinate.py:467-497: node coordinates (get_nc). -/
def Axis.nodes (a : Axis) : List ℚ := if a.reflect then reflectArr a.nc else a.nc

/-- coordinate.py:499-517: cell centred coordinates (get_cc). -/
def Axis.centres (a : Axis) : List ℚ :=
  match a.cc with
  | some l => l
  | none => mid a.nodes

/-- coordinate.py:418-426 apply_reflections: new coordinates from get_clist, which has the nodes only. -/
def Axis.applyReflections (a : Axis) : Axis := if a.reflect then ⟨a.nodes, none, false⟩ else a

/-! ### Uniform coordinates -/

/-- `np.linspace(xl, xh, n)` -/
def linspace (xl xh : ℚ) (n : Nat) : List ℚ :=
  if n = 1 then [xl] else (List.range n).map fun (i : Nat) => xl + (i : ℚ) * ((xh - xl) / ((n : ℚ) - 1))

/-- coordinate.py:1263-1297: the arguments and the extents of one axis of UniformCrds. -/
structure Uniform where
  xl : ℚ
  xh : ℚ
  n : Nat
  deriving DecidableEq, Repr

/-- coordinate.py:1268-1272 -/
def Uniform.halfDx (u : Uniform) : ℚ := (1 / 2) * (u.xh - u.xl) / (max u.n 1 : Nat)
/-- get_xl(center='cell') -/
def Uniform.xlCc (u : Uniform) : ℚ := u.xl + u.halfDx
/-- get_xh(center='cell') -/
def Uniform.xhCc (u : Uniform) : ℚ := u.xh - u.halfDx
/-- shape_cc -/
def Uniform.shapeCc (u : Uniform) : Nat := max (u.n - 1) 0
/-- min_dx_nc: coordinate.py:1281 (before masking zeros) -/
def Uniform.minDxNc (u : Uniform) : ℚ := (u.xh - u.xl) / u.n

/-- coordinate.py:1397-1402: the coordinate arrays come from linspace. -/
def Uniform.axis (u : Uniform) : Axis := ⟨linspace u.xl u.xh u.n, none, false⟩

/-- coordinate.py:1351-1369 UniformCrds.nc2cc with default_width w. -/
def Uniform.nc2cc (u : Uniform) (w : ℚ) : Uniform :=
  let dx := (u.xh - u.xl) / u.n
  let dx := if 0 < |dx| then dx else w
  ⟨u.xl - (1 / 2) * dx, u.xh + (1 / 2) * dx, u.n + 1⟩

/-! ### Node to cell centring of full arrays -/

/-- coordinate.py:118-143 extend_arr(x, default_width=w, width_arr=widths), n = 1, cell_fraction = 1.  For an
empty array x[0] raises, which is `none`. -/
def extendArr (x widths : List ℚ) (w : ℚ) : Option (List ℚ) :=
  match x.head?, x.getLast? with
  | some x0, some x1 =>
    if x.length > 1 then
      match widths, widths.reverse with
      | a :: b :: _, d :: c :: _ => some ((x0 - (b - a)) :: x ++ [x1 + (d - c)])
      | _, _ => none
    else some ((x0 - w) :: x ++ [x1 + w])
  | _, _ => none

/-- coordinate.py:599-615 StructuredCrds.nc2cc -/
def Axis.nc2cc (a : Axis) (w : ℚ) : Option Axis := (extendArr a.centres a.nodes w).map fun l => ⟨l, none, false⟩

/-! ### Slicing -/

/-- `l[start:stop:step]` -/
def pySlice (l : List ℚ) (s : Slc) : List ℚ :=
  (Spec.Slice.pyIndices l.length s.start s.stop (s.step.getD 1)).map fun i => l.getD i.toNat 0

/-- `l[i]` with a possibly negative index. -/
def pyGet (l : List ℚ) (i : Int) : Option ℚ := if 0 ≤ i then l[i.toNat]? else if 0 ≤ i + l.length then l[(i + l.length).toNat]? else none

/-- coordinate.py:680-721: the coordinates of an axis after a slice, for cell centred (cc) or node centred
fields.  `none`: an exception (allnc[0] of an empty array; step 0). -/
def Axis.slice (a : Axis) (cc : Bool) (s : Slc) : Option Axis :=
  if s.step = some 0 then none
  else if cc ∧ s.step ≠ none ∧ s.step ≠ some 1 ∧ s.step ≠ some (-1) then
    let step := s.step.getD 1
    let ccv := pySlice a.centres s
    let inner := List.zipWith (fun p q => (1 / 2) * (p + q)) ccv.tail ccv.dropLast
    let allnc := pySlice a.nodes ⟨s.start, s.stop, some (if 0 < step then 1 else -1)⟩
    match allnc.head?, allnc.getLast? with
    | some lo, some hi => some ⟨lo :: inner ++ [hi], some ccv, false⟩
    | _, _ => none
  else
    let s' : Slc :=
      match cc, s.stop with
      | true, some e =>
        if 0 ≤ e then
          if s.step = none ∨ 0 < s.step.getD 1 then ⟨s.start, some (e + 1), s.step⟩ else ⟨s.start, some (e - 1), s.step⟩
        else s
      | _, _ => s
    some ⟨pySlice a.nodes s', none, false⟩

/-- coordinate.py:814-852 make_slice_keep for an integer index i: the coordinates put back, and the slice
applied to the data. -/
def Axis.keep (a : Axis) (cc : Bool) (i : Int) : Option (Axis × Slc) :=
  match pyGet a.nodes i with   -- coordinate.py:731: the location, also an IndexError if out of range
  | none => none
  | some _ =>
    if cc then
      if i = -1 then some (⟨pySlice a.nodes ⟨some (-2), none, none⟩, none, false⟩, ⟨some (-1), none, none⟩)
      else if i = -2 then some (⟨pySlice a.nodes ⟨some (-2), none, none⟩, none, false⟩, ⟨some (-2), some (-1), none⟩)
      else some (⟨pySlice a.nodes ⟨some i, some (i + 2), none⟩, none, false⟩, ⟨some i, some (i + 1), none⟩)
    else
      if i = -1 then some (⟨pySlice a.nodes ⟨some (-1), none, none⟩, none, false⟩, ⟨some (-1), none, none⟩)
      else some (⟨pySlice a.nodes ⟨some i, some (i + 1), none⟩, none, false⟩, ⟨some i, some (i + 1), none⟩)

/-- coordinate.py:730-732: the location recorded for an axis that is sliced out, whatever the centring. -/
def Axis.reducedLoc (a : Axis) (i : Int) : Option ℚ := pyGet a.nodes i

end Viscid.Crds
