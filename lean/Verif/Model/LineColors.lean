import Mathlib.Algebra.Order.Field.Rat
/-!
# Model of `viscid/plot/vpyplot.py`: colours and markers of lines, and the choice of a plot

What `_prep_lines` gives (modelled elsewhere) is the input here, as are the directions of the plane. A dictionary of options is the list of its items,
in order. Colours are any type.
-/
namespace Viscid.LineColors

/-- a point, or a vertex of a line -/
abbrev Pt := Fin 3 → ℚ

/-- the value of an option -/
inductive Val (C : Type) where
  | text (s : String)
  | colors (l : List C)
  | nums (l : List ℚ)
  | other (n : Nat)
deriving Repr, DecidableEq

/-- a dictionary -/
abbrev Dict (C : Type) := List (String × Val C)

/-- `d.get(k)`; `none` if `k not in d` -/
def Dict.find {C : Type} (d : Dict C) (k : String) : Option (Val C) := d.lookup k

/-- `d[k] = v` for a `k` that is not in `d` -/
def Dict.add {C : Type} (d : Dict C) (k : String) (v : Val C) : Dict C := d ++ [(k, v)]

/-- the result of `_prep_lines` (vpyplot.py:1435-1437, 1541-1543): `vert_scalars` … are `none` if they are None -/
structure Prep (C : Type) where
  verts : List Pt
  segments : List (Pt × Pt)
  vertScalars : Option (List ℚ)
  segScalars : Option (List ℚ)
  vertColors : Option (List C)
  segColors : Option (List C)

/-- the argument `colors` -/
inductive Colors (C : Type) where
  | unset
  | zloc
  | given (v : Val C)

/-- vpyplot.py:1431-1433 `scalars='zloc'` is `colors='zloc'` -/
def colorsOf {C : Type} (scalarsZloc : Bool) (colors : Colors C) : Colors C := if scalarsZloc then .zloc else colors

inductive Exc where
  | assertion | runtime | type | value
deriving Repr, DecidableEq

/-- the arguments of LineCollection and of Line3DCollection; `α` is the type of points in the plot -/
structure Lines (α C : Type) where
  segments : List (α × α)
  array : Option (List ℚ)
  colors : Option (Val C)

/-- what is drawn: the lines, the points of `ax.scatter` with its options, the points of `_autolimit_to_vertices`; and the
dictionary `marker_kwargs` of the caller, afterwards -/
structure Drawn (α C : Type) where
  lines : Lines α C
  scatter : Option (List α × Dict C)
  limits : Option (List α)
  caller : Dict C

/-- vpyplot.py:1466-1470, 1561-1565 the colours of markers -/
def markerColor {C : Type} (vertColors : Option (List C)) (vertScalars : Option (List ℚ)) (mk : Dict C) : Dict C :=
  if mk.find "c" = none then
    match vertColors, vertScalars with
    | some l, _ => mk.add "c" (.colors l)
    | none, some l => mk.add "c" (.nums l)
    | none, none => mk
  else mk

/-- vpyplot.py:1473-1474, 1568-1569 one option -/
def share1 {C : Type} (kwargs : Dict C) (name : String) (mk : Dict C) : Dict C :=
  match kwargs.find name, mk.find name with
  | some v, none => mk.add name v
  | _, _ => mk

/-- vpyplot.py:1472-1474, 1567-1569 options for the colours of lines are those of markers -/
def markerShare {C : Type} (kwargs : Dict C) : List String → Dict C → Dict C
  | [], mk => mk
  | name :: names, mk =>
    markerShare kwargs names (share1 kwargs name mk)

/-- vpyplot.py:1461-1478, 1556-1573 markers, or limits. An empty dictionary is replaced by a new one, and any other is changed. -/
def finish {α C : Type} (lines : Lines α C) (verts : List α) (vertColors : Option (List C)) (vertScalars : Option (List ℚ))
    (marker : Bool) (kwargs mk : Dict C) : Drawn α C :=
  if marker then
    let mk' := markerShare kwargs ["cmap", "norm", "vmin", "vmax"] (markerColor vertColors vertScalars mk)
    ⟨lines, some (verts, mk'), none, if mk = [] then [] else mk'⟩
  else ⟨lines, none, some verts, mk⟩

/-- `p[[xind, yind]]` -/
def plane (i j : Fin 3) (p : Pt) : ℚ × ℚ := (p i, p j)

/-- vpyplot.py:1442-1478 `plot2d_lines`, after `_xyzind_from_symdir` (`ind`) -/
def plot2dLines {C : Type} (prep : Prep C) (ind : Fin 3 × Fin 3 × Option (Fin 3)) (flip : Bool) (colors : Colors C)
    (marker : Bool) (kwargs mk : Dict C) : Except Exc (Drawn (ℚ × ℚ) C) :=
  let (x, y, z) := ind
  let (x, y) := if flip then (y, x) else (x, y)
  let segs := prep.segments.map fun s => (plane x y s.1, plane x y s.2)
  let verts := prep.verts.map (plane x y)
  match colors with
  | .zloc => match z with
    | none => .error .assertion
    | some z =>
      .ok (finish ⟨segs, some (prep.segments.map fun s => s.1 z), prep.segColors.map .colors⟩ verts prep.vertColors
        (some (prep.verts.map fun p => p z)) marker kwargs mk)
  | .given v => .ok (finish ⟨segs, prep.segScalars, some v⟩ verts prep.vertColors prep.vertScalars marker kwargs mk)
  | .unset => .ok (finish ⟨segs, prep.segScalars, prep.segColors.map .colors⟩ verts prep.vertColors prep.vertScalars marker kwargs mk)

/-- vpyplot.py:1539-1573 `plot3d_lines`; `colors='zloc'` is not special -/
def plot3dLines {C : Type} (prep : Prep C) (colors : Colors C) (marker : Bool) (kwargs mk : Dict C) : Drawn Pt C :=
  let c := match colors with
    | .unset => prep.segColors.map .colors
    | .zloc => some (.text "zloc")
    | .given v => some v
  finish ⟨prep.segments, prep.segScalars, c⟩ prep.verts prep.vertColors prep.vertScalars marker kwargs mk

/-- vpyplot.py:1747-1752 the colours of `scatter_2d`; `c = none` is 'zloc' -/
def scatter2dColor {C : Type} (points : List Pt) (z : Option (Fin 3)) (c : Option (Val C)) : Except Exc (Val C) :=
  match c, z with
  | some c, _ => .ok c
  | none, some z => .ok (.nums (points.map fun p => p z))
  | none, none => .error .runtime

/-- vpyplot.py:1784-1789 the points and colours of `scatter_3d` -/
def scatter3d {C : Type} (points : List Pt) (c : Option (Val C)) : (List ℚ × List ℚ × List ℚ) × Val C :=
  ((points.map fun p => p 0, points.map fun p => p 1, points.map fun p => p 2), c.getD (.nums (points.map fun p => p 2)))

/-- a field after `slice_reduce`: `none` if it is a number -/
structure Sliced where
  comps : Nat
  sdims : Nat
  spherical : Bool

inductive Target where
  | line | plane | map
deriving Repr, DecidableEq

/-- vpyplot.py:100-121 `plot` -/
def plot (fld : Option Sliced) (forceCartesian : Bool) : Except Exc Target :=
  match fld with
  | none => .error .type
  | some f =>
    if f.comps > 1 then .error .type
    else if f.sdims = 1 then .ok .line
    else if f.sdims = 2 then if f.spherical && !forceCartesian then .ok .map else .ok .plane
    else .error .value

end Viscid.LineColors
