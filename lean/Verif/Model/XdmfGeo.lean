import Verif.Model.Crds
/-!
# Model of `FileXDMF._parse_geometry`: the coordinates of a grid in an XDMF file

Numbers are rationals (no rounding to the Precision of a data item). The types are the strings of the file, `GeometryType` in upper case. A data item
is its Name and what `_parse_dataitem` makes of it, an array or an exception. Not modelled: data items with an invalid Format, Dimensions that are no
natural numbers, arrays of integers.
-/
namespace Viscid.XdmfGeo
open Viscid.Crds (Uniform linspace)

/-- the exceptions of xdmf.py:251-401 -/
inductive Exc
  | key
  | index
  | attribute
  | value
  | runtime
  | notImplemented
deriving DecidableEq, Repr

/-- a DataItem: the attribute Name, and xdmf.py:421-456 `_parse_dataitem` -/
structure Item where
  name : Option String
  data : Except Exc (List ℚ)

/-- a Topology: the attributes TopologyType and Dimensions -/
structure Topo where
  type : String
  dims : Option (List Nat)

/-- a Geometry: the attribute GeometryType in upper case, and its DataItems -/
structure Geo where
  type : String
  items : List Item

/-- what coordinate.py:106-116 `wrap_crds` gives: axes with linspace arguments, or axes with arrays, or coordinates without any arrays -/
inductive Coords
  | uniform (axes : List (String × Uniform))
  | arrays (axes : List (String × List ℚ))
  | empty
deriving DecidableEq, Repr

/-- the key of a Name: xdmf.py:294 `.lower()` and 309 `.lstrip('V').lower()` -/
def itemKey (v : Bool) (n : String) : List Char :=
  (if v then n.toList.dropWhile (· = 'V') else n.toList).map Char.toLower

/-- xdmf.py:289-300 and 304-315: the arrays of the axes by name; `lookup` are the keys that are left in `crdlookup`. `pop` of another is a KeyError -/
def place (v : Bool) : List Item → List (List Char) → (List Char → List ℚ) → Except Exc (List Char → List ℚ)
  | [], lookup, got => if lookup.length > 0 then .error .runtime else .ok got
  | it :: its, lookup, got =>
    match it.name with
    | none => .error .key
    | some n =>
      match it.data with
      | .error e => .error e
      | .ok d =>
        let k := itemKey v n
        if k ∈ lookup then place v its (lookup.erase k) (fun j => if j = k then d else got j) else .error .key

/-- what is known after the geometry (xdmf.py:253-345): `crdlist` and `full_arrays` -/
inductive Found
  | nothing
  | full (x y z : List ℚ)
  | spaced (x y z : Uniform)

/-- xdmf.py:264-286: the first data item is read, and not used -/
def first (g : Geo) : Except Exc Found :=
  match g.items with
  | [] => .error .attribute
  | it :: _ =>
    match it.data with
    | .error e => .error e
    | .ok _ => .ok .nothing

/-- xdmf.py:336-341: one axis, from the reversed lists -/
def spacedAxis (o dx : List ℚ) (n : List Nat) (i : Nat) : Except Exc Uniform :=
  match n.reverse[i]?, o.reverse[i]?, dx.reverse[i]? with
  | some n, some o, some dx => .ok ⟨o, o + ((n : ℚ) - 1) * dx, n⟩
  | _, _, _ => .error .index

/-- xdmf.py:318-343. The table of defaults has `NumberOfElement` (xdmf.py:74), so `NumberOfElements` is a KeyError -/
def spaced (t : Topo) (g : Geo) : Except Exc Found :=
  match g.items with
  | o :: dx :: _ =>
    match o.data with
    | .error e => .error e
    | .ok o =>
      match dx.data with
      | .error e => .error e
      | .ok dx =>
        match t.dims with
        | none => .error .key
        | some [] => .error .key
        | some (n :: ns) =>
          match spacedAxis o dx (n :: ns) 0 with
          | .error e => .error e
          | .ok x =>
            match spacedAxis o dx (n :: ns) 1 with
            | .error e => .error e
            | .ok y =>
              match spacedAxis o dx (n :: ns) 2 with
              | .error e => .error e
              | .ok z => .ok (.spaced x y z)
  | [o] =>
    match o.data with
    | .error e => .error e
    | .ok _ => .error .index
  | [] => .error .index

/-- xdmf.py:262-345 -/
def geometry (t : Topo) (g : Geo) : Except Exc Found :=
  if g.type = "XYZ" then first g
  else if g.type = "XY" then first g
  else if g.type = "X_Y_Z" then
    match place false g.items [['x'], ['y'], ['z']] (fun _ => []) with
    | .error e => .error e
    | .ok got => .ok (.full (got ['x']) (got ['y']) (got ['z']))
  else if g.type = "VXVYVZ" then
    match place true g.items [['x'], ['y'], ['z']] (fun _ => []) with
    | .error e => .error e
    | .ok got => .ok (.full (got ['x']) (got ['y']) (got ['z']))
  else if g.type = "ORIGIN_DXDYDZ" then spaced t g
  else .ok .nothing

/-- `arr[1:] - arr[:-1]`, or `[1, 1]` (coordinate.py:1243-1246) -/
def diffs (arr : List ℚ) : List ℚ :=
  if arr.length > 1 then List.zipWith (fun a b => a - b) arr.tail arr.dropLast else [1, 1]

/-- `np.allclose(diff[0], diff, rtol=rtol)` with its default atol of 1e-8 (coordinate.py:1250) -/
def allClose (rtol : ℚ) (l : List ℚ) : Bool :=
  l.all fun d => decide (|l.headD 0 - d| ≤ 1 / 100000000 + rtol * |d|)

/-- coordinate.py:1238-1256: one full array for a uniform axis; `eps` is the one of its type of numbers. An empty array has linspace arguments of nan,
here 0, of which none are used -/
def fullAxis (eps : ℚ) (arr : List ℚ) : Except Exc Uniform :=
  if allClose (4 * eps) (diffs arr) then
    match arr.head?, arr.getLast? with
    | some a, some b => .ok ⟨a, b, arr.length⟩
    | _, _ => .ok ⟨0, 0, 0⟩
  else .error .value

/-- `UniformCrds(clist, full_arrays=…)`, coordinate.py:1214-1297; a clist of None is a TypeError, which `wrap_crds` turns into a NotImplementedError -/
def uniformCrds (eps : ℚ) : Found → Except Exc Coords
  | .nothing => .error .notImplemented
  | .full x y z =>
    match fullAxis eps x with
    | .error e => .error e
    | .ok x =>
      match fullAxis eps y with
      | .error e => .error e
      | .ok y =>
        match fullAxis eps z with
        | .error e => .error e
        | .ok z => .ok (.uniform [("x", x), ("y", y), ("z", z)])
  | .spaced x y z => .ok (.uniform [("x", x), ("y", y), ("z", z)])

/-- `NonuniformCrds(clist)`, coordinate.py:1414-1417 and 281-296; with spacings xdmf.py:350-353 has uniform ones instead -/
def rectCrds (eps : ℚ) : Found → Except Exc Coords
  | .nothing => .ok .empty
  | .full x y z => .ok (.arrays [("x", x), ("y", y), ("z", z)])
  | .spaced x y z => uniformCrds eps (.spaced x y z)

/-- xdmf.py:251-401 `_parse_geometry` -/
def parseGeometry (eps : ℚ) (t : Topo) (g : Geo) : Except Exc Coords :=
  match geometry t g with
  | .error e => .error e
  | .ok f =>
    if t.type = "3DCoRectMesh" ∨ t.type = "2DCoRectMesh" then uniformCrds eps f
    else if t.type = "3DRectMesh" ∨ t.type = "2DRectMesh" then rectCrds eps f
    else if t.type = "2DSMesh" then
      match t.dims with
      | none => .error .attribute
      | some [ntheta, nphi] => .ok (.uniform [("phi", ⟨0, 360, nphi⟩), ("theta", ⟨0, 180, ntheta⟩)])
      | some _ => .error .value
    else .error .notImplemented

end Viscid.XdmfGeo
