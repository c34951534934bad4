import Verif.Model.Crds
import Verif.Model.Region
import Verif.Model.Rotation
/-!
# Model of `viscid/coordinate.py`, `viscid/field.py`, `viscid/dipole.py`: face and edge centered coordinates, make_spherical_mask, fill_dipole, make_dipole

Coordinates are rational numbers, fields are real. Vector fields have three components.
-/
namespace Viscid.Yee
open Viscid.Crds (Axis)
open Viscid.Arith (Exc bcast bidx)
open Viscid.Layout (Arr)
open Viscid.Region (choose)
open Viscid.Rotation

inductive Center
  | node
  | cell
  | face
  | edge
  deriving DecidableEq, Repr

/-- coordinate.py:545-549 `_sm1`, of an array with one axis that is not of length 1 -/
def sm1 (l : List ℚ) : List ℚ := if l.length ≤ 1 then l else l.dropLast

/-- `crds_nc[i][:-1]`, or `_sm1(crds_nc_shaped[i])` -/
def lower (shaped : Bool) (a : Axis) : List ℚ := if shaped then sm1 a.nodes else a.nodes.dropLast

/-- coordinate.py:518-530: for each axis, and each component, the face centered coordinates (`get_crds_fc`) -/
def faceCrds (shaped : Bool) (axs : List Axis) : List (List (List ℚ)) :=
  axs.zipIdx.map fun a => (List.range axs.length).map fun j => if a.2 = j then lower shaped a.1 else a.1.centres

/-- coordinate.py:532-543: for each axis, and each component, the edge centered coordinates (`get_crds_ec`) -/
def edgeCrds (shaped : Bool) (axs : List Axis) : List (List (List ℚ)) :=
  axs.zipIdx.map fun a => (List.range 3).map fun j => if a.2 ≠ j then lower shaped a.1 else a.1.centres

/-- field.py:1456-1472 `get_crds_vector(shaped=shaped)` -/
def crdsVector (shaped : Bool) : Center → List Axis → List (List (List ℚ))
  | .face, axs => faceCrds shaped axs
  | .edge, axs => edgeCrds shaped axs
  | .cell, axs => axs.map fun a => List.replicate 3 a.centres
  | .node, axs => axs.map fun a => List.replicate 3 a.nodes

/-- coordinate.py:347-353 `shape_nc`, `shape_cc`: the number of points along an axis (not of UniformCrds with a single node) -/
def count (c : Center) (a : Axis) : Nat := if c = .node then a.nodes.length else a.centres.length

/-- the data of a vector field with three components: the shape of the grid, whether the components are last, the array -/
structure Vec (α : Type) where
  shape : List Nat
  last : Bool
  data : Arr α

/-- the shape of the data -/
def vecShape (last : Bool) (s : List Nat) : List Nat := if last then s ++ [3] else 3 :: s

/-- `data[..., c] = v` or `data[c, ...] = v`: what is assigned has to be broadcast to the shape of the grid -/
def Vec.put (b : Vec α) (c : Nat) (v : Arr α) : Except Exc (Vec α) :=
  if bcast v.shape b.shape = some b.shape then
    .ok { b with data := ⟨b.data.shape, fun idx =>
      if b.last then if idx.getLast? = some c then v.get (bidx v.shape idx.dropLast) else b.data.get idx
      else if idx.head? = some c then v.get (bidx v.shape idx.tail) else b.data.get idx⟩ }
  else .error .value

/-- an array on the points of three axes, broadcast from three open arrays -/
def onGrid (x y z : List ℚ) (f : ℚ → ℚ → ℚ → α) : Arr α :=
  ⟨[x.length, y.length, z.length], fun idx => f (x.getD (idx.getD 0 0) 0) (y.getD (idx.getD 1 0) 0) (z.getD (idx.getD 2 0) 0)⟩

/-- dipole.py:108-109, 244-245: `Xv, Yv, Zv = get_crds_vector(shaped=True)` and then one triple of coordinates for each component -/
def triples (c : Center) (axs : List Axis) : Except Exc (List (List ℚ × List ℚ × List ℚ)) :=
  match crdsVector true c axs with
  | [x, y, z] => .ok (x.zip (y.zip z))
  | _ => .error .value

/-- the loops `for i in range(3)` over components of dipole.py:127-141, 247-251; `f i` gives the numbers of component `i`, `is` are the components left -/
def fill (f : Nat → ℚ → ℚ → ℚ → α) (tr : List (List ℚ × List ℚ × List ℚ)) : List Nat → Vec α → Except Exc (Vec α)
  | [], b => .ok b
  | i :: is, b =>
    match tr[i]? with
    | none => .error .index
    | some (x, y, z) =>
      match b.put i (onGrid x y z (f i)) with
      | .error e => .error e
      | .ok b => fill f tr is b

/-- `np.bitwise_and(rsq >= rmin**2, rsq < rmax**2)` with `rsq` the sum of squares; without `rmax` it is a number whose square is larger than those of all floats
that can be squared -/
def inShell (rmin : ℚ) (rmax : Option ℚ) (x y z : ℚ) : Bool :=
  let rsq := x ^ 2 + y ^ 2 + z ^ 2
  decide (rmin ^ 2 ≤ rsq) && match rmax with
    | none => true
    | some r => decide (rsq < r ^ 2)

inductive MaskFld
  | scalar (a : Arr Bool)
  | vector (a : Vec Bool)

/-- dipole.py:238-259 `make_spherical_mask(fld, rmin, rmax)` of a field on three axes. `vec`: whether it has components, and whether they are last; `listIndex`: whether numpy
accepts a list of slices as index; `junk`: the memory of `np.empty`. Scalar fields are not face or edge centered (the square of a list is a TypeError). -/
def sphericalMask (listIndex : Bool) (c : Center) (axs : List Axis) (vec : Option Bool) (rmin : ℚ) (rmax : Option ℚ) (junk : List Nat → Bool) : Except Exc MaskFld :=
  if vec.isSome ∧ (c = .edge ∨ c = .face) then do
    let s := axs.map (count c)
    let last := vec.getD false
    let tr ← triples c axs
    if ¬ listIndex then .error .index
    else do
      let v ← fill (fun _ => inShell rmin rmax) tr [0, 1, 2] ⟨s, last, ⟨vecShape last s, junk⟩⟩
      .ok (.vector v)
  else if c = .edge ∨ c = .face then .error .type
  else
    match axs.map (fun a => if c = .cell then a.centres else a.nodes) with
    | [x, y, z] => .ok (.scalar (onGrid x y z (inShell rmin rmax)))
    | _ => .error .value

noncomputable section

/-- dipole.py:130-132, 138-141: component `i` of the field at a point. `rsq**1.5` is written as `rsq * sqrt(rsq)` -/
def dip (m : V3) (i : Nat) (x y z : ℚ) : ℝ :=
  let p : V3 := ![(x : ℝ), (y : ℝ), (z : ℝ)]
  let rsq := p 0 ^ 2 + p 1 ^ 2 + p 2 ^ 2
  let mdotr := m 0 * p 0 + m 1 * p 1 + m 2 * p 2
  let j : Fin 3 := if i = 0 then 0 else if i = 1 then 1 else 2
  (3 * p j * mdotr / rsq - m j) / (rsq * √rsq)

/-- dipole.py:119-120 -/
def scaled (m : V3) : Option ℝ → V3
  | none => m
  | some s => fun j => s / √(m 0 ^ 2 + m 1 ^ 2 + m 2 ^ 2) * m j

/-- dipole.py:87-146 `fill_dipole(B, m, strength, mask)` for a moment; the mask is a field, scalar or of the shape of `B` (its data is used as it is). A mask without
points is as none. `junk` is the memory of `empty_like`. -/
def fillDipole (c : Center) (axs : List Axis) (b : Vec ℝ) (m : V3) (strength : Option ℝ) (mask : Option (Arr Bool)) (junk : List Nat → ℝ) : Except Exc (Vec ℝ) := do
  let used := mask.bind fun a => if a.shape.head? = some 0 then none else some a
  let start := if used.isSome then { b with data := ⟨b.data.shape, junk⟩ } else b
  let tr ← triples c axs
  let bdip ← fill (dip (scaled m strength)) tr [0, 1, 2] start
  match used with
  | none => .ok bdip
  | some a => do
    let r ← choose a b.data bdip.data
    if bcast r.shape b.data.shape = some b.data.shape then .ok { b with data := ⟨b.data.shape, fun idx => r.get (bidx r.shape idx)⟩ } else .error .value

/-- dipole.py:57-85 `make_dipole(m, strength, l, h, n, center)` without `twod` and `nonuniform`: the axes -/
def dipoleAxes (l h : List ℚ) (n : List Nat) (c : Center) : List Axis :=
  List.zipWith (fun (e : ℚ × ℚ) k => ⟨Crds.linspace e.1 e.2 (if c = .cell then k + 1 else k), none, false⟩) (l.zip h) n

/-- dipole.py:57-85 `make_dipole` -/
def makeDipole (m : V3) (strength : Option ℝ) (l h : List ℚ) (n : List Nat) (c : Center) (junk : List Nat → ℝ) : Except Exc (Vec ℝ) :=
  let axs := dipoleAxes l h n c
  let s := axs.map (count c)
  fillDipole c axs ⟨s, true, ⟨vecShape true s, junk⟩⟩ m strength none junk

end
end Viscid.Yee
