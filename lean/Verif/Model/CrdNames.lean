import Verif.Model.Crds
/-!
# Model of `viscid/coordinate.py`: coordinate arrays by name and by number, units, extents of reflected axes

A name is the list of the codes of its characters (ASCII). What a name is bound to is which array it is (which axis,
flat or open, which centering), not the numbers in it: these are in `Crds` and `Yee`.
-/
namespace Viscid.CrdNames
open Viscid.Crds

abbrev Name := List Nat

inductive Exc
  | key
  | index
  | value
  deriving DecidableEq, Repr

/-- `str.lower` of one character -/
def lowC (c : Nat) : Nat := if 65 ≤ c ∧ c ≤ 90 then c + 32 else c
/-- `str.upper` of one character -/
def upC (c : Nat) : Nat := if 97 ≤ c ∧ c ≤ 122 then c - 32 else c
/-- `str.lower` -/
def low (s : Name) : Name := s.map lowC
/-- `str.upper` -/
def up (s : Name) : Name := s.map upC

/-- the centerings of coordinate.py:267-268 -/
inductive Center
  | none
  | node
  | cell
  | face
  | edge
  deriving DecidableEq, Repr

/-- coordinate.py:267-268 `_CENTER`: '', 'nc', 'cc', 'fc', 'ec' -/
def sfx : Center → Name
  | .none => []
  | .node => [110, 99]
  | .cell => [99, 99]
  | .face => [102, 99]
  | .edge => [101, 99]

/-- one array (or, for faces and edges, one list of arrays): of which axis, open (with all axes) or flat, and where -/
structure Entry where
  axis : Nat
  shaped : Bool
  center : Center
  deriving DecidableEq, Repr

/-- a dictionary as the list of what was put into it, the newest first -/
abbrev Dct := List (Name × Entry)

/-- `d[k]` -/
def Dct.get (d : Dct) (k : Name) : Except Exc Entry := match d.lookup k with | some e => .ok e | none => .error .key

/-- `d[k] = e` -/
def Dct.set (d : Dct) (k : Name) (e : Entry) : Dct := (k, e) :: d

/-- coordinate.py:294-297, 396-415 `__init__` and `_set_crds`: the names of the axes, lower case; a name that is not
itself lower case is not one of the axes, so it is a KeyError -/
def axesOf (given : List Name) : Except Exc (List Name) :=
  let axes := given.map low
  if ∀ g ∈ given, g ∈ axes then .ok axes else .error .key

/-- coordinate.py:469-497: the node centered arrays -/
def putNodes (d : Dct) : List (Name × Nat) → Dct
  | [] => d
  | (a, i) :: r =>
    putNodes ((((d.set (low a) ⟨i, false, .node⟩).set (up a) ⟨i, true, .node⟩).set (low a ++ sfx .node) ⟨i, false, .node⟩).set
      (up a ++ sfx .node) ⟨i, true, .node⟩) r

/-- coordinate.py:499-517, 528-537, 539-553: the cell, face and edge centered arrays -/
def putCenter (c : Center) (d : Dct) : List (Name × Nat) → Dct
  | [] => d
  | (a, i) :: r => putCenter c ((d.set (a ++ sfx c) ⟨i, false, c⟩).set (up a ++ sfx c) ⟨i, true, c⟩) r

/-- coordinate.py:461-553 `_fill_crds_dict` -/
def fill (axes : List Name) : Dct :=
  putCenter .edge (putCenter .face (putCenter .cell (putNodes [] axes.zipIdx) axes.zipIdx) axes.zipIdx) axes.zipIdx

/-- what an axis is asked by -/
inductive Key
  | num (i : Int)
  | name (s : Name)
  deriving DecidableEq, Repr

/-- `l[i]` -/
def pyAt (l : List α) (i : Int) : Except Exc α :=
  match (if 0 ≤ i then l[i.toNat]? else if 0 ≤ i + l.length then l[(i + l.length).toNat]? else none) with
  | some x => .ok x
  | none => .error .index

/-- coordinate.py:931-953 `get_crds`, 922-929 `get_crd`, of one axis; 1014-1061 `get_nc` ... `get_ec` are this with
a centering -/
def getCrd (axes : List Name) (k : Key) (shaped : Bool) (c : Center) : Except Exc Entry := do
  let a ← match k with
    | .num i => pyAt axes i
    | .name s => .ok s
  let a := if shaped then up a else a
  -- 244-251 axis_name: the name has to be a key
  let _ ← (fill axes).get a
  (fill axes).get (a ++ sfx c)

/-- coordinate.py:1170-1176 `crds[k]` -/
def getItem (axes : List Name) (k : Key) : Except Exc Entry := getCrd axes k false .none

/-- coordinate.py:1189-1192 `name in crds` -/
def contains (axes : List Name) (s : Name) : Bool :=
  let tail := s.drop (s.length - 2)
  let s := if tail ∈ [sfx .none, sfx .node, sfx .cell, sfx .face, sfx .edge] then low (s.take (s.length - 2)) else s
  ((fill axes).lookup s).isSome

/-- coordinate.py:214-221 `ind` -/
def ind (axes : List Name) : Key → Except Exc Int
  | .num i => if i < axes.length then .ok i else .error .value
  | .name s => if s ∈ axes then .ok (axes.idxOf s) else .error .value

/-! ### units -/

/-- what is given as units: None, one string, or a list -/
inductive Given (υ : Type)
  | one (u : Option υ)
  | list (l : List (Option υ))

/-- coordinate.py:184-193 `units` (`strip` is left out: units are without spaces at the ends); `blank` is '' -/
def units (blank : υ) (nrDims : Nat) (g : Given υ) : List υ :=
  let l := match g with | .one u => List.replicate nrDims u | .list l => l
  let l := l ++ List.replicate (l.length - nrDims) none
  l.map fun u => match u with | none => blank | some u => u

/-- coordinate.py:230-242 `get_unit` -/
def getUnit (blank : υ) (axes : List Name) (g : Given υ) (allowInvalid : Bool) (k : Key) : Except Exc υ :=
  match ind axes k with
  | .ok i => pyAt (units blank axes.length g) i
  | .error _ => if allowInvalid then .ok blank else .error .value

/-- coordinate.py:230-239 `get_units` -/
def getUnits (blank : υ) (axes : List Name) (g : Given υ) (allowInvalid : Bool) (ks : List Key) : Except Exc (List υ) :=
  ks.mapM (getUnit blank axes g allowInvalid)

/-- coordinate.py:418-426 `apply_reflections`: the new coordinates are made of the coordinate list only; with the
units of the old ones when nothing is reflected -/
def reflectUnits (g : Given υ) (reflected : Bool) : Given υ := if reflected then .one none else g

/-! ### extents of axes that are reflected -/

/-- an axis of UniformCrds that is, or is not, in `reflect_axes` -/
structure RUniform where
  u : Uniform
  reflect : Bool

/-- coordinate.py:1403-1408, 476-479: the nodes of an axis of UniformCrds -/
def RUniform.nodes (a : RUniform) : List ℚ :=
  if a.reflect then reflectArr (linspace a.u.xl a.u.xh a.u.n) else linspace a.u.xl a.u.xh a.u.n
/-- coordinate.py:1326-1328 `get_xl` -/
def RUniform.getXl (a : RUniform) : ℚ := a.u.xl
/-- coordinate.py:1330-1332 `get_xh` -/
def RUniform.getXh (a : RUniform) : ℚ := a.u.xh
/-- coordinate.py:1334-1337 `get_L` -/
def RUniform.getL (a : RUniform) : ℚ := a.u.xh - a.u.xl
/-- coordinate.py:418-426 `apply_reflections` with 1378-1401 `get_clist` -/
def RUniform.apply (a : RUniform) : RUniform :=
  if a.reflect then ⟨⟨-a.u.xh, -a.u.xl, a.u.n⟩, false⟩ else a

/-- coordinate.py:1103-1108 `StructuredCrds.get_xl`, of the nodes -/
def sXl (a : Axis) : Except Exc ℚ := pyAt a.nodes 0
/-- coordinate.py:1110-1115 `StructuredCrds.get_xh`, of the nodes -/
def sXh (a : Axis) : Except Exc ℚ := pyAt a.nodes (-1)
/-- coordinate.py:1117-1120 `StructuredCrds.get_L` -/
def sL (a : Axis) : Except Exc ℚ := do .ok ((← sXh a) - (← sXl a))
/-- coordinate.py:1093-1097 `get_dx` -/
def dx (l : List ℚ) : List ℚ := if 1 < l.length then List.zipWith (fun b a => b - a) l.tail l.dropLast else [1]

end Viscid.CrdNames
