import Mathlib.Algebra.Order.Field.Rat
/-!
# Model of the keeping of axes: `viscid/plot/from_seaborn.py` and parts of `viscid/plot/vpyplot.py`

Numbers are rational instead of floats. Of matplotlib, axes are their spines, ticks and limits, and figures are lists of axes
with the parameters of their subplots.
-/
namespace Viscid.AxesKeep

inductive Err where
  | index
  | value
  deriving DecidableEq, Repr

/-! ## `despine` -/

inductive Side where
  | top | right | left | bottom
  deriving DecidableEq, Repr

inductive Offset where
  | number (v : ℚ)
  /-- a dict of sides -/
  | dict (d : List (Side × ℚ))

structure Spine where
  visible : Bool
  outward : ℚ
  bounds : Option (ℚ × ℚ)
  deriving DecidableEq, Repr

structure Axes where
  spines : Side → Spine
  xlim : ℚ × ℚ
  ylim : ℚ × ℚ
  xticks : List ℚ
  yticks : List ℚ
  /-- the side of the ticks -/
  xside : Side
  yside : Side

/-- from_seaborn.py:48-51 `offset.get(side, 0)`, else the number -/
def Offset.get : Offset → Side → ℚ
  | .number v, _ => v
  | .dict d, s => ((d.find? fun p => p.1 = s).map Prod.snd).getD 0

/-- from_seaborn.py:43-52: the spine of one side; `gone` is whether its removal is asked for -/
def toggle (gone : Bool) (off : Option Offset) (s : Side) (sp : Spine) : Spine :=
  let sp := { sp with visible := !gone }
  match off with
  | none => sp
  | some o => if sp.visible then { sp with outward := o.get s } else sp

/-- from_seaborn.py:64-76, 78-89: first and last tick, and the ticks kept; `none` without ticks -/
def trim (ticks : List ℚ) (lim : ℚ × ℚ) : Except Err (Option ((ℚ × ℚ) × List ℚ)) :=
  if ticks.isEmpty then .ok none
  else
    match (ticks.filter fun t => min lim.1 lim.2 ≤ t).head?, (ticks.filter fun t => t ≤ max lim.1 lim.2).getLast? with
    | some a, some b => .ok (some ((a, b), (ticks.filter fun t => t ≤ b).filter fun t => a ≤ t))
    | _, _ => .error .index

/-- which of the sides are to be removed -/
structure Gone where
  top : Bool := true
  right : Bool := true
  left : Bool := false
  bottom : Bool := false

def Gone.at' (g : Gone) : Side → Bool
  | .top => g.top
  | .right => g.right
  | .left => g.left
  | .bottom => g.bottom

/-- from_seaborn.py:55-58 -/
def sideX (g : Gone) (s : Side) : Side :=
  let s := if g.bottom then Side.top else s
  if g.top then Side.bottom else s

/-- from_seaborn.py:59-62 -/
def sideY (g : Gone) (s : Side) : Side :=
  let s := if g.left then Side.right else s
  if g.right then Side.left else s

/-- `spines[a].set_bounds(..); spines[b].set_bounds(..)` -/
def setBounds (sp : Side → Spine) (a b : Side) (v : ℚ × ℚ) : Side → Spine :=
  fun s => if s = a ∨ s = b then { sp s with bounds := some v } else sp s

/-- from_seaborn.py:12-89 `despine` of one axes -/
def despine (g : Gone) (off : Option Offset) (doTrim : Bool) (ax : Axes) : Except Err Axes := do
  let ax := { ax with spines := fun s => toggle (g.at' s) off s (ax.spines s), xside := sideX g ax.xside, yside := sideY g ax.yside }
  if doTrim then
    let ax ← match ← trim ax.xticks ax.xlim with
      | none => pure ax
      | some (v, t) => pure { ax with spines := setBounds ax.spines .bottom .top v, xticks := t }
    match ← trim ax.yticks ax.ylim with
      | none => pure ax
      | some (v, t) => pure { ax with spines := setBounds ax.spines .left .right v, yticks := t }
  else pure ax

/-! ## `auto_adjust_subplots` -/

structure Params where
  left : ℚ
  right : ℚ
  top : ℚ
  bottom : ℚ
  hspace : ℚ
  wspace : ℚ
  deriving DecidableEq, Repr

/-- keyword arguments for subplots_adjust -/
structure ParamArgs where
  left : Option ℚ := none
  right : Option ℚ := none
  top : Option ℚ := none
  bottom : Option ℚ := none
  hspace : Option ℚ := none
  wspace : Option ℚ := none

/-- a figure: limits in x and y of each of its axes, in their order, the groups in which they are shared, and the parameters -/
structure Fig where
  xlim : List (ℚ × ℚ)
  ylim : List (ℚ × ℚ)
  xgroup : List ℕ
  ygroup : List ℕ
  pars : Params

/-- `ax.set_xlim` of the i-th: of all with which it is shared -/
def setLim (group : List ℕ) (i : ℕ) (v : ℚ × ℚ) (lims : List (ℚ × ℚ)) : List (ℚ × ℚ) :=
  lims.mapIdx fun j l => if group[j]? = group[i]? then v else l

/-- vpyplot.py:1838-1841: the loop over axes and limits remembered -/
def restore (group : List ℕ) : ℕ → List (ℚ × ℚ) → List (ℚ × ℚ) → List (ℚ × ℚ)
  | _, [], lims => lims
  | i, v :: vs, lims => restore group (i + 1) vs (setLim group i v lims)

/-- `fig.subplots_adjust(**params)`, which refuses left >= right and bottom >= top -/
def adjust (a : ParamArgs) (p : Params) : Except Err Params :=
  let q : Params := ⟨a.left.getD p.left, a.right.getD p.right, a.top.getD p.top, a.bottom.getD p.bottom, a.hspace.getD p.hspace, a.wspace.getD p.wspace⟩
  if q.right ≤ q.left ∨ q.top ≤ q.bottom then .error .value else .ok q

/-- What is known to pyplot: all figures, and which is the current one -/
structure World where
  figs : List Fig
  current : ℕ

/-- vpyplot.py:1801-1806 `tighten`: `tight` is what matplotlib's tight_layout does with a figure; it is applied to the current one -/
def tighten (tight : Fig → Fig) (w : World) : World := { w with figs := w.figs.modify w.current tight }

/-- vpyplot.py:1808-1846 `auto_adjust_subplots`; `fig` is the index of the figure, or None; `doTight` is whether a tight layout is asked for, a dict is yes -/
def autoAdjust (tight : Fig → Fig) (w : World) (fig : Option ℕ) (doTight : Bool) (args : Option ParamArgs) : Except Err (World × Params) :=
  let i := fig.getD w.current
  match w.figs[i]? with
  | none => .error .index
  | some pre =>
    let w := if doTight then tighten tight w else w
    match w.figs[i]? with
    | none => .error .index
    | some f =>
      match (match args with | none => Except.ok f.pars | some a => adjust a f.pars) with
      | .error e => .error e
      | .ok p =>
        let f := { f with pars := p, xlim := restore f.xgroup 0 pre.xlim f.xlim, ylim := restore f.ygroup 0 pre.ylim f.ylim }
        .ok ({ w with figs := w.figs.set i f }, p)

/-! ## `_ax_on_edge` -/

/-- a place in a grid: the number of its first and, if given, its last cell -/
structure Place where
  nrows : ℕ
  ncols : ℕ
  num1 : ℕ
  num2 : Option ℕ

/-- vpyplot.py:207-230 `_ax_on_edge`: (bottom_most, left_most), of axes with a locator -/
def onEdge (p : Place) : Bool × Bool :=
  let rowStart := p.num1 / p.ncols
  let colStart := p.num1 % p.ncols
  let rowStop : ℕ := match p.num2 with
    | some n => n / p.ncols
    | none => rowStart
  (decide ((p.nrows : ℤ) - 1 ≤ rowStop), colStart == 0)

end Viscid.AxesKeep
