/-!
# Model of the formatters and locators of axes (`viscid/plot/vpyplot.py`)

An axis of matplotlib is what was last given to its four setters. What the setters do with it (for instance that a string is made into a formatter, or that a locator remembers its axis) is not modelled.
-/
namespace Viscid.AxFmt

/-- What can be given as formatter or locator: `None`, a string, some other object (which is true), or the function `mpl_extra.steve_axfmt` -/
inductive Val where
  | none
  | str (s : String)
  | obj (n : Nat)
  | steveAxfmt
deriving DecidableEq, Repr

/-- Truth of a value in `if majorfmt:` (vpyplot.py:424-432) -/
def Val.truthy : Val → Bool
  | .none => false
  | .str s => s != ""
  | .obj _ => true
  | .steveAxfmt => true

/-- One axis of a plot: what was last given to `set_major_formatter`, `set_minor_formatter`, `set_major_locator`, `set_minor_locator` (vpyplot.py:424-432) -/
structure Axis where
  majorFmt : Val
  minorFmt : Val
  majorLoc : Val
  minorLoc : Val
deriving DecidableEq, Repr

/-- `ax.xaxis`, `ax.yaxis` (vpyplot.py:414) -/
structure Axes where
  x : Axis
  y : Axis
deriving DecidableEq, Repr

/-- vpyplot.py:416-419: the name of a formatter -/
def steve (v : Val) : Val := if v = .str "steve" then .steveAxfmt else v

/-- vpyplot.py:424-432: the setters for one axis -/
def setAxis (a : Axis) (majorfmt minorfmt majorloc minorloc : Val) : Axis :=
  let a := if majorfmt.truthy then { a with majorFmt := majorfmt } else a
  let a := if minorfmt.truthy then { a with minorFmt := minorfmt } else a
  let a := if majorloc.truthy then { a with majorLoc := majorloc } else a
  if minorloc.truthy then { a with minorLoc := minorloc } else a

/-- vpyplot.py:421-432: the loop over the names of axes. The flag says whether it came to the end: a name that is not a key of `ax_axes` raises KeyError (422), and what was done before stays. -/
def loop (ax : Axes) (majorfmt minorfmt majorloc minorloc : Val) : List Char → Axes × Bool
  | [] => (ax, true)
  | c :: cs =>
    if c = 'x' then loop { ax with x := setAxis ax.x majorfmt minorfmt majorloc minorloc } majorfmt minorfmt majorloc minorloc cs
    else if c = 'y' then loop { ax with y := setAxis ax.y majorfmt minorfmt majorloc minorloc } majorfmt minorfmt majorloc minorloc cs
    else (ax, false)

/-- vpyplot.py:412-432 `_apply_axfmt`; `which_axes` is given as the list of its characters -/
def applyAxfmt (ax : Axes) (majorfmt minorfmt majorloc minorloc : Val) (whichAxes : List Char := ['x', 'y']) : Axes × Bool :=
  loop ax (steve majorfmt) (steve minorfmt) majorloc minorloc whichAxes

end Viscid.AxFmt
