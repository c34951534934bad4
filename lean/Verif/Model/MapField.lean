import Verif.Model.Basic
import Mathlib.Analysis.SpecialFunctions.Trigonometric.Basic
/-!
# Model of `viscid/mapfield.py`: fields of theta and phi, of latitude and longitude, and for polar plots

Numbers are real and rounding is not modelled. Fields have two axes; their data is a function of indices of the array, of which the first
or the last is the component, if there are any. Coordinates are those of the points of the data (node-centred fields): that both bounds of
uniform coordinates are transformed instead of all of them makes no difference, as the transforms are linear. Not modelled: data types,
deferred reflections and warnings.
-/
namespace Viscid.MapField

inductive Err
  | value
  | key
  | runtime
  | type
deriving DecidableEq, Repr

/-- whether there are components, and where -/
inductive Layout
  | scalar
  | flat (n : Nat)
  | interlaced (n : Nat)
deriving DecidableEq, Repr

structure Axis where
  name : String
  unit : String
  crds : List ℝ

structure Fld (α : Type) where
  ax0 : Axis
  ax1 : Axis
  layout : Layout
  data : List Nat → α

variable {α : Type}

def shape (f : Fld α) : List Nat :=
  match f.layout with
  | .scalar => [f.ax0.crds.length, f.ax1.crds.length]
  | .flat n => [n, f.ax0.crds.length, f.ax1.crds.length]
  | .interlaced n => [f.ax0.crds.length, f.ax1.crds.length, n]

/-- `a[..., ::-1, ...]`, along one axis of the array -/
def reverse (f : Fld α) (d : Nat) : List Nat → α := fun idx => f.data (idx.modify d fun i => (shape f).getD d 0 - 1 - i)

noncomputable section

/-- 90 degrees, as `p90` of mapfield.py:22 and 35: degrees, unless they are radians -/
def p90 (unit : String) : ℝ := if unit = "rad" then Real.pi / 2 else 90

open Classical in
/-- mapfield.py:20-26 `theta2lat` -/
def theta2lat (unit : String) (theta : List ℝ) : Except Err (List ℝ) :=
  let lat := theta.map fun t => p90 unit - t
  if (∃ x ∈ lat, x < - p90 unit) ∨ ∃ x ∈ lat, p90 unit < x then .error .value else .ok lat

open Classical in
/-- mapfield.py:32-39 `lat2theta` -/
def lat2theta (unit : String) (lat : List ℝ) : Except Err (List ℝ) :=
  let p180 := if unit = "rad" then Real.pi else 180
  let theta := lat.map fun t => p90 unit - t
  if (∃ x ∈ theta, x < 0) ∨ ∃ x ∈ theta, p180 < x then .error .value else .ok theta

/-- mapfield.py:66-79 `_make_transform_unit_func`; none is `arr_noop` -/
def unitFunc (base target : String) : Except Err (Option (ℝ → ℝ)) :=
  if (base ≠ "" ∧ target = "") ∨ base = target then .ok none
  else if target ≠ "" ∧ base = "" then .error .value
  else if base = "deg" ∧ target = "rad" then .ok (some fun x => Real.pi / 180 * x)
  else if base = "rad" ∧ target = "deg" then .ok (some fun x => 180 / Real.pi * x)
  else .error .value

/-- which transform; `fld_phi2lon` and `fld_lon2phi` are `fld_noop` -/
inductive Tr
  | noop
  | theta2lat
  | lat2theta
deriving DecidableEq, Repr

/-- index of an axis (ValueError if there is none) -/
def ind (f : Fld α) (ax : String) : Except Err Nat :=
  if f.ax0.name = ax then .ok 0 else if f.ax1.name = ax then .ok 1 else .error .value

/-- mapfield.py:81-84 `_get_axinds`: index of the axis of the data, for an axis of the coordinates -/
def ddat (f : Fld α) (dcrd : Nat) : Nat :=
  match f.layout with
  | .scalar => dcrd
  | .flat _ => if 0 < dcrd then dcrd + 1 else dcrd
  | .interlaced _ => if 2 < dcrd then dcrd + 1 else dcrd

/-- mapfield.py:86-108 `_fld_xform_common`, with the transforms of lines 47-51 and 110-138 -/
def xform (tr : Tr) (f : Fld α) (base target unit : String) : Except Err (Fld α) :=
  match ind f base with
  | .error e => .error e
  | .ok d =>
    let ax := if d = 0 then f.ax0 else f.ax1
    match unitFunc ax.unit unit with
    | .error e => .error e
    | .ok u =>
      let unit' := if unit = "" then ax.unit else unit
      if base = target ∧ u.isNone ∧ tr = Tr.noop then .ok f
      else
        let crds := ax.crds.map (u.getD id)
        let crds' : Except Err (List ℝ) := match tr with
          | .noop => .ok crds
          | .theta2lat => (theta2lat unit crds).map List.reverse
          | .lat2theta => (lat2theta unit crds).map List.reverse
        match crds' with
        | .error e => .error e
        | .ok crds' =>
          let data := if tr = Tr.noop then f.data else reverse f (ddat f d)
          if d = 0 then .ok { f with ax0 := ⟨target, unit', crds'⟩, data := data }
          else .ok { f with ax1 := ⟨target, unit', crds'⟩, data := data }

/-- `spatial_transpose` of both axes (field.py:2188-2205) -/
def transpose (f : Fld α) : Fld α :=
  { ax0 := f.ax1, ax1 := f.ax0, layout := f.layout
    data := fun idx => f.data (match f.layout, idx with
      | .scalar, [i, j] => [j, i]
      | .flat _, [c, i, j] => [c, j, i]
      | .interlaced _, [i, j, c] => [j, i, c]
      | _, l => l) }

/-- what there is to get a coordinate from: its bases, and the transforms -/
abbrev Mapping := List (String × List (String × Tr))

/-- mapfield.py:164-174: the first base that is an axis of the field -/
def choose (f : Fld α) (order : List String) : Mapping → Except Err (List (String × String × Tr))
  | [] => .ok []
  | (target, bases) :: rest =>
    match bases.find? fun b => b.1 = f.ax0.name ∨ b.1 = f.ax1.name with
    | some (b, tr) => (choose f order rest).map ((target, b, tr) :: ·)
    | none => if target ∈ order then (choose f order rest).map ((target, target, .noop) :: ·) else .error .runtime

/-- mapfield.py:176-177: what is done for each axis of the order (KeyError if there is nothing) -/
def plan (sel : List (String × String × Tr)) : List String → Except Err (List (String × String × Tr))
  | [] => .ok []
  | ax :: rest =>
    match sel.find? fun s => s.1 = ax with
    | some s => (plan sel rest).map (s :: ·)
    | none => .error .key

/-- mapfield.py:180-182 -/
def xforms (f : Fld α) : List ((String × String × Tr) × String) → Except Err (Fld α)
  | [] => .ok f
  | ((target, base, tr), unit) :: rest =>
    match xform tr f base target unit with
    | .error e => .error e
    | .ok f => xforms f rest

/-- units as they are given: for all axes, or for each -/
inductive Units
  | str (u : String)
  | list (l : List String)
  | tuple (l : List String)

/-- mapfield.py:53-61 `_prep_units` (without a field). A list cannot be added to a tuple (line 56), not even one of length zero; and lists
    that are too short are not made longer (those too long are; `zip` ignores that). Not modelled: that it is the list given that is made
    longer, and `strip`. -/
def prepUnits (order : List String) : Units → Except Err (List String)
  | .str u => .ok (order.map fun _ => u)
  | .list l => .ok l
  | .tuple _ => .error .type

/-- mapfield.py:140-186 `convert_coordinates` -/
def convert (f : Fld α) (order : List String) (mapping : Mapping) (units : Units) : Except Err (Fld α) :=
  match choose f order mapping with
  | .error e => .error e
  | .ok sel =>
    match plan sel order with
    | .error e => .error e
    | .ok p =>
      match prepUnits order units with
      | .error e => .error e
      | .ok units =>
        match xforms f (p.zip units) with
        | .error e => .error e
        | .ok f =>
          if order = [f.ax0.name, f.ax1.name] then .ok f
          else if order = [f.ax1.name, f.ax0.name] then .ok (transpose f)
          else .error .value

/-- mapfield.py:188-204 `as_mapfield` -/
def asMapfield (f : Fld α) (order : List String) (units : Units) : Except Err (Fld α) :=
  convert f order [("lon", [("phi", .noop), ("lon", .noop)]), ("lat", [("theta", .theta2lat), ("lat", .noop)])] units

/-- mapfield.py:206-220 `as_spherefield` -/
def asSpherefield (f : Fld α) (order : List String) (units : Units) : Except Err (Fld α) :=
  convert f order [("phi", [("lon", .noop), ("phi", .noop)]), ("theta", [("lat", .lat2theta), ("theta", .noop)])] units

end

end Viscid.MapField
