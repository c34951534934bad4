import Verif.Model.Arith
/-!
# Model of changing the number of dimensions of fields, and their coordinates

`viscid/coordinate.py` (`atleast_3d`) and `viscid/field.py` (`atleast_3d`, `atmost_nd`, `adjust_crds`). As in `Arith` a field has, for each axis, its name
and the coordinates of its points. Not modelled: what else coordinates hold (units, centres of cells that were given, reflections), and how the text of
a selection is understood (see `SelText`, `FillSel`, `Select`); `near` is the index of the point nearest to 0.
-/
namespace Viscid.Dims
open Viscid.Layout (Arr prod reshape)
open Viscid.Arith (Fld Exc Ret wrapOn lift)

/-! ## more dimensions -/

/-- coordinate.py:1143-1157: the names of the new axes and where they are inserted -/
def newAxes (current : List String) : List (Nat × String) :=
  if "x" ∈ current ∨ "y" ∈ current ∨ "z" ∈ current then
    ([(0, "x"), (1, "y"), (2, "z")].filter fun a => a.2 ∉ current).take (3 - current.length)
  else ([(3, "fill_a"), (3, "fill_b"), (3, "fill_c")]).take (3 - current.length)

/-- `list.insert(i, x)` -/
def pyInsert (l : List β) (i : Nat) (x : β) : List β := l.take i ++ x :: l.drop i

/-- coordinate.py:1139-1160 `atleast_3d`; `x0` is what a new axis has: one node halfway between `xl` and `xh` or the cell between them (1371-1376,
    1419-1423), so in both cases one point at the same place -/
def crdsAtleast3d (axes : List (String × β)) (x0 : β) : List (String × β) :=
  if 3 ≤ axes.length then axes
  else (newAxes (axes.map Prod.fst)).foldl (fun l a => pyInsert l a.1 (a.2, x0)) axes

/-- A field of which the data may not have been read. `fld` has the data that reading gives (turned to the order xyz, mirrored and transformed if need
    be), `raw` is `_src_data` as it is. -/
structure Lazy (α : Type) where
  fld : Fld α
  raw : Arr α
  loaded : Bool

/-- the middle of the new axes (coordinate.py:1375) -/
def middle (xl xh : ℚ) : ℚ := (1 / 2) * (xl + xh)

/-- field.py:1690-1713 `atleast_3d` -/
def Lazy.atleast3d (f : Lazy α) (xl xh : ℚ) : Except Exc (Ret α) :=
  if 3 ≤ f.fld.axes.length then .ok (.field f.fld)
  else
    let axes := crdsAtleast3d f.fld.axes [middle xl xh]
    if f.loaded then
      match f.fld.data, f.fld.nrComps, f.fld.nrComp with
      | .error e, _, _ => .error e
      | _, .error e, _ => .error e
      | _, _, .error e => .error e
      | .ok d, .ok n, .ok k =>
        let shape := axes.map fun a => a.2.length
        let shape := match k with
          | some k => if n = 0 then shape else pyInsert shape k n
          | none => shape
        match lift (reshape d shape) with
        | .error e => .error e
        | .ok a => wrapOn f.fld.vector f.fld.center axes a
    else wrapOn f.fld.vector f.fld.center axes f.raw

/-! ## fewer dimensions -/

/-- where an axis is cut: at its first point, or at the point nearest to 0 -/
inductive Cut
  | first
  | zero
deriving DecidableEq, Repr

/-- field.py:1721-1727: axes with one point are cut, from the front, until few enough are left; `left` is the number of axes left. Gives if each axis is
    cut. -/
def cutOnes (n : Nat) : Nat → List Nat → List Bool
  | _, [] => []
  | left, k :: l =>
    let left := if k = 1 then left - 1 else left
    if left ≤ n then (k = 1 : Bool) :: l.map fun _ => false
    else (k = 1 : Bool) :: cutOnes n left l

/-- field.py:1729-1732: then the last axes, until few enough are left; from the back, `drop` of those that are left -/
def cutLast : Nat → List Bool → List (Option Cut)
  | _, [] => []
  | drop, true :: l => some .first :: cutLast drop l
  | 0, false :: l => none :: cutLast 0 l
  | drop + 1, false :: l => some .zero :: cutLast drop l

/-- field.py:1715-1732: how each axis is cut -/
def cuts (n : Nat) (sshape : List Nat) : List (Option Cut) :=
  let ones := cutOnes n sshape.length sshape
  let left := (ones.filter fun b => !b).length
  (cutLast (left - n) ones.reverse).reverse

/-- `self[','.join(slc)]` (1736-1737): the axes that are left -/
def keepAxes : List (Option Cut) → List β → List β
  | none :: c, a :: l => a :: keepAxes c l
  | some _ :: c, _ :: l => keepAxes c l
  | _, _ => []

/-- `self[','.join(slc)]`: the index of the value in the field for an index in the result -/
def fullIdx (near : List ℚ → Nat) : List (Option Cut) → List (String × List ℚ) → List Nat → List Nat
  | none :: c, _ :: l, i :: idx => i :: fullIdx near c l idx
  | some .first :: c, _ :: l, idx => 0 :: fullIdx near c l idx
  | some .zero :: c, a :: l, idx => near a.2 :: fullIdx near c l idx
  | _, _, _ => []

/-- what `atmost_nd` returns: the field itself, a field or a number -/
inductive Fewer (α : Type)
  | self
  | number (a : α)
  | field (axes : List (String × List ℚ)) (get : List Nat → α)

/-- field.py:1715-1737 `atmost_nd` of a scalar field with values `v` -/
def atmostNd (near : List ℚ → Nat) (axes : List (String × List ℚ)) (v : List Nat → α) (n : Nat) : Fewer α :=
  let c := cuts n (axes.map fun a => a.2.length)
  if c.all fun x => x.isNone then .self
  else if prod ((keepAxes c axes).map fun a => a.2.length) = 1 then .number (v (fullIdx near c axes ((keepAxes c axes).map fun _ => 0)))
  else .field (keepAxes c axes) fun idx => v (fullIdx near c axes idx)

/-! ## other coordinates -/

/-- a coordinates object: the list of names, and the arrays by name (coordinate.py:179-181, 461-485) -/
structure Crds where
  axes : List String
  arrs : List (String × List ℚ)
deriving DecidableEq, Repr

/-- coordinate.py:931-951 `get_crds_nc()`: a KeyError (`none`) if a name has no array -/
def Crds.nodes (c : Crds) : Option (List (List ℚ)) := c.axes.mapM fun a => c.arrs.lookup a

/-- an adjustment: a number, or a function of the array -/
inductive Adj
  | factor (x : ℚ)
  | func (g : List ℚ → List ℚ)

/-- field.py:1763-1771: one array -/
def Adj.apply : Adj → List ℚ → List ℚ
  | .factor x, l => l.map fun y => x * y
  | .func g, l => g l

/-- field.py:1773-1776: the names are changed one after the other, in the list of the coordinates -/
def rename (axes : List String) (nameMap : List (String × String)) : List String :=
  nameMap.foldl (fun axes ab => if ab.1 ∈ axes then axes.set (axes.idxOf ab.1) ab.2 else axes) axes

/-- field.py:1739-1787 `adjust_crds` with a dict of adjustments: the names and arrays given to `arrays2crds`, and the coordinates of the field itself
    afterwards (the list of names is the same object) -/
def adjust (c : Crds) (adjs : List (String × Adj)) (nameMap : List (String × String)) : Option (List (String × List ℚ) × Crds) :=
  match c.nodes with
  | none => none
  | some arrs =>
    let new := List.zipWith (fun a l => match adjs.lookup a with | some g => g.apply l | none => l) c.axes arrs
    let axes := rename c.axes nameMap
    some (axes.zip new, { c with axes := axes })

/-- field.py:1757-1761: one number or function for all axes -/
def forAll (c : Crds) (g : Adj) : List (String × Adj) := c.axes.map fun a => (a, g)

end Viscid.Dims
