import Mathlib.Data.Rat.Defs
/-!
# Model of the colorbar and the labels of `viscid/plot/vpyplot.py: plot2d_field`

Options are maps from names to values. Dictionaries of the caller are changed in place, so the map that the caller has
after a plot is part of the result. Drawing is modelled by the calls that are made of matplotlib.
-/
namespace Viscid.Colorbar

/-- values of options -/
inductive Val
  | none
  | bool (b : Bool)
  | text (s : String)
  | num (q : ℚ)
  | logLocator
  | maxNLocator
  | linearLocator
  | other (n : Nat)
deriving DecidableEq

abbrev Kw := String → Option Val

/-- `d.pop(k)` without the value -/
def Kw.pop (m : Kw) (k : String) : Kw := fun x => if x = k then Option.none else m x

/-- `d[k] = v` -/
def Kw.set (m : Kw) (k : String) (v : Val) : Kw := fun x => if x = k then some v else m x

def Kw.get (m : Kw) (k : String) (dflt : Val) : Val := (m k).getD dflt

inductive Exc
  | assertion
  | value
deriving DecidableEq, Repr

/-- how often the user is warned, with the position and orientation -/
structure Place where
  position : Val
  orientation : Val
  warned : Nat
deriving DecidableEq

/-- vpyplot.py:891-893 the default -/
def place0 (position orientation : Val) : Place :=
  if position = .none ∧ orientation = .none then ⟨.text "right", .text "vertical", 0⟩ else ⟨position, orientation, 0⟩

/-- vpyplot.py:895-900 -/
def place1 (p : Place) : Place :=
  if p.position = .text "top" ∨ p.position = .text "bottom" then
    { p with orientation := .text "horizontal",
             warned := p.warned + if p.orientation = .none ∨ p.orientation = .text "horizontal" then 0 else 1 }
  else p

/-- vpyplot.py:901-906 -/
def place2 (p : Place) : Place :=
  if p.position = .text "left" ∨ p.position = .text "right" then
    { p with orientation := .text "vertical",
             warned := p.warned + if p.orientation = .none ∨ p.orientation = .text "vertical" then 0 else 1 }
  else p

/-- vpyplot.py:908-914 -/
def place3 (p : Place) : Place :=
  if p.orientation = .text "vertical" then
    if p.position = .text "left" ∨ p.position = .text "right" then p
    else { p with position := .text "right", warned := p.warned + if p.position = .none then 0 else 1 }
  else p

/-- vpyplot.py:915-921 -/
def place4 (p : Place) : Place :=
  if p.orientation = .text "horizontal" then
    if p.position = .text "top" ∨ p.position = .text "bottom" then p
    else { p with position := .text "bottom", warned := p.warned + if p.position = .none then 0 else 1 }
  else p

/-- vpyplot.py:889-921 a consistent position and orientation -/
def place (position orientation : Val) : Place := place4 (place3 (place2 (place1 (place0 position orientation))))

/-- vpyplot.py:925-932 `grid1_kwargs` -/
structure Grid1 where
  position : Val
  orientation : Val
  aspect : Val
  pad : Val
  fraction : Val
  shrink : Val
deriving DecidableEq

/-- what is there: whether mpl_toolkits.axes_grid1 can be imported, and whether the axes are polar or plain -/
structure Env where
  grid1 : Bool
  known : Bool

/-- _mpl_grid1.py:75-121 `make_grid1_cax`: whether axes are made -/
def makeCax (known : Bool) (g : Grid1) : Except Exc Bool :=
  if g.orientation = .text "vertical" then
    if g.position = .text "left" ∨ g.position = .text "right" then .ok known else .error .value
  else if g.orientation = .text "horizontal" then
    if g.position = .text "bottom" ∨ g.position = .text "top" then .ok known else .error .value
  else .error .value

/-- what `_make_grid1_cbar_axes` gives: axes or none, the options for `plt.colorbar`, those of the axes, the dictionary of
the caller, and whether that is the same object as the options -/
structure Made where
  cax : Bool
  kw : Kw
  grid1 : Grid1
  user : Kw
  same : Bool

/-- vpyplot.py:880-954 `_make_grid1_cbar_axes` -/
def makeAxes (env : Env) (make : Bool) (m : Kw) : Except Exc Made :=
  let use := m.get "use_grid1" (.bool make)
  let m := m.pop "use_grid1"
  if use ≠ .bool make then .error .assertion
  else
    let orig := m
    let position := m.get "position" .none
    let m := m.pop "position"
    let orientation := m.get "orientation" .none
    let m := m.pop "orientation"
    let p := place position orientation
    let m := m.set "orientation" p.orientation
    let aspect := m.get "aspect" (.num 20)
    let m := m.pop "aspect"
    let pad := m.get "pad" (if p.orientation = .text "vertical" then .num (5 / 100) else .num (15 / 100))
    let m := m.pop "pad"
    let fraction := m.get "fraction" (.num (5 / 100))
    let m := m.pop "fraction"
    let shrink := m.get "shrink" (.num 1)
    let m := m.pop "shrink"
    let g : Grid1 := ⟨p.position, p.orientation, aspect, pad, fraction, shrink⟩
    let cax : Except Exc Bool := if make && env.grid1 then makeCax env.known g else .ok false
    match cax with
    | .error e => .error e
    | .ok true => .ok ⟨true, m, g, m, true⟩
    | .ok false => .ok ⟨false, (orig.pop "position").set "orientation" p.orientation, g, m, false⟩

/-- the axes that the colorbar is drawn in: made here, given by the caller, or made by matplotlib -/
inductive Cax
  | made
  | given (v : Val)
  | default
deriving DecidableEq

/-- what is asked of `plt.colorbar`, where its ticks are, and the dictionary of the caller after that -/
structure Drawn where
  cax : Cax
  kw : Kw
  grid1 : Grid1
  topTicks : Bool
  user : Kw

/-- truth of a value -/
def Val.truthy : Val → Bool
  | .none => false
  | .bool b => b
  | .text s => s ≠ ""
  | .num q => q ≠ 0
  | _ => true

/-- vpyplot.py:817-830 the ticks and the format of the numbers. `rcfmt` is the format of rcParams ("viscid.cbarfmt"); that of
"steve" is `.other 0`. -/
def finish (logScale symmetric : Bool) (rcfmt : Val) (kw : Kw) : Kw :=
  let kw := if (kw "ticks").isNone then
      kw.set "ticks" (if logScale then .logLocator else if symmetric then .maxNLocator else .linearLocator)
    else kw
  let fmt := kw.get "format" rcfmt
  let kw := kw.pop "format"
  let fmt := if fmt = .text "steve" then .other 0 else fmt
  if fmt.truthy then kw.set "format" fmt else kw

/-- vpyplot.py:798-834 the colorbar, with the dictionary `m` of options, and axes `cax` (`.none` for none). -/
def colorbar (env : Env) (logScale symmetric : Bool) (rcfmt : Val) (cax : Val) (m : Kw) : Except Exc Drawn :=
  let m := m.pop "ax"
  let m := if cax ≠ .none then m.set "cax" cax else m
  let own := (m "cax").isSome || !(m.get "use_grid1" (.bool true)).truthy
  match makeAxes env (!own) m with
  | .error e => .error e
  | .ok made =>
    let c : Cax := if own then (match made.kw "cax" with
        | some .none => .default
        | some v => .given v
        | Option.none => .default)
      else if made.cax then .made else .default
    let kw := if own then made.kw.pop "cax" else made.kw
    let kw := finish logScale symmetric rcfmt kw
    .ok ⟨c, kw, made.grid1, decide (c ≠ .default) && decide (made.grid1.position = .text "top"), if made.same then kw else made.user⟩

/-- vpyplot.py:841-846 the label of the colorbar; `title` and `cbarlabel` are options, `name` the long name of the field -/
def cbarLabel (nolabels : Bool) (title cbarlabel : Val) (name : String) : Option Val :=
  if !nolabels && (cbarlabel.truthy || !title.truthy || (match title with | .text _ => true | _ => false)) then
    some (if cbarlabel.truthy then cbarlabel else .text name)
  else Option.none

/-- vpyplot.py:850-867 the labels of the axes, for axes that share none: what `set_xlabel` and `set_ylabel` are called with -/
def axisLabels (nolabels flip : Bool) (namex namey : String) (xlabel ylabel : Val) : Option (Val × Val) :=
  if nolabels then Option.none
  else
    let (namex, namey) := if flip then (namey, namex) else (namex, namey)
    let _xlabel := if xlabel.truthy then xlabel else .text namex
    let _ylabel := if ylabel.truthy then ylabel else .text namey
    some (.text namex, .text namey)

end Viscid.Colorbar
