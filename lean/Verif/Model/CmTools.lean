import Mathlib.Algebra.Order.Field.Rat
/-!
# Model of `viscid/plot/_cm_tools.py` lines 18 to 100: colour maps from arrays and back

A colour is a list of numbers. A map of matplotlib has a name and a table of colours; asking it for a number between 0 and 1 gives the colour
at the whole part of the number times that of the colours (`Colormap.__call__`). `LinearSegmentedColormap.from_list` makes a table of 256 colours
on straight lines between those given, evenly spaced. Numbers out of 0 to 1 are cut by matplotlib; this is not modelled.
-/
namespace Viscid.CmTools

abbrev Clr := List ℚ

inductive Err
  | value
deriving DecidableEq, Repr

structure Map where
  linear : Bool
  name : String
  table : List Clr
deriving DecidableEq, Repr

/-- what the functions take: an array with rows of one length, or a map -/
inductive Input
  | array (width : Nat) (rows : List Clr)
  | map (m : Map)
deriving DecidableEq, Repr

/-- matplotlib `Colormap.__call__` of the number `i / (n - 1)` as a place in the table of `n`, 0 if there is one number only -/
def place (n i : Nat) : Nat := if n = 1 then 0 else min (i * n / (n - 1)) (n - 1)

/-- _cm_tools.py:36: `colors(np.linspace(0.0, 1.0, colors.N))` -/
def sample (m : Map) : List Clr := (List.range m.table.length).map fun i => m.table.getD (place m.table.length i) []

/-- _cm_tools.py:18-37 `to_rgba` -/
def toRgba : Input → Except Err (List Clr)
  | .array w rows =>
    if w = 3 then .ok (rows.map (· ++ [1]))
    else if w = 4 then .ok rows
    else .error .value
  | .map m => .ok (sample m)

/-- between two colours -/
def mix (f : ℚ) (a b : Clr) : Clr := List.zipWith (fun x y => (1 - f) * x + f * y) a b

/-- matplotlib: entry `j` of 256 on straight lines between colours -/
def entry (rows : List Clr) (j : Nat) : Clr :=
  let i := j * (rows.length - 1) / 255
  let f : ℚ := ((j * (rows.length - 1) % 255 : ℕ) : ℚ) / 255
  if i + 1 < rows.length then mix f (rows.getD i []) (rows.getD (i + 1) []) else rows.getD i []

/-- matplotlib `LinearSegmentedColormap.from_list`: two colours at least, with three or four numbers -/
def fromList (name : String) (rows : List Clr) : Except Err Map :=
  if rows.all (fun r => r.length == 3 || r.length == 4) && decide (2 ≤ rows.length) then
    let q := rows.map fun r => if r.length = 3 then r ++ [1] else r
    .ok ⟨true, name, (List.range 256).map (entry q)⟩
  else .error .value

/-- _cm_tools.py:39-58 `to_linear_cmap` -/
def toLinear (name : String) (colors : Input) (reverse : Bool) : Except Err Map :=
  match colors with
  | .map m =>
    if reverse || !m.linear then fromList name (if reverse then (sample m).reverse else sample m)
    else .ok m
  | .array _ rows => fromList name (if reverse then rows.reverse else rows)

/-- what `ListedColormap(colors, name)` gets: its colours are a text here, and its name an array; there are as many colours as the text has characters -/
structure Listed where
  colors : String
  name : List Clr
  n : Nat
deriving DecidableEq, Repr

/-- _cm_tools.py:60-79 `to_listed_cmap` -/
def toListed (name : String) (colors : Input) (reverse : Bool) : Map ⊕ Listed :=
  match colors with
  | .map m =>
    if reverse || !m.linear then .inr ⟨name, if reverse then (sample m).reverse else sample m, name.length⟩
    else .inl m
  | .array _ rows => .inr ⟨name, if reverse then rows.reverse else rows, name.length⟩

end Viscid.CmTools
