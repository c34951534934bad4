import Mathlib.Data.Rat.Defs
import Mathlib.Algebra.Order.Field.Rat
/-!
# Model of what plots draw and what they write: `viscid/plot/vpyplot.py` `_plot2d_single`

The arrays that a field holds (cached node and cell coordinates, cached data) are the same objects that the plot works on: what the plot writes to them in place is
in the field afterwards. nan is `none`. Not modelled: `latlon`, dates on axes, colours of patches, matplotlib itself; arrays of integers
(for which `*=` with a float raises).
-/
namespace Viscid.Plot2d

inductive Style
  | pcolormesh
  | pcolor
  | contour
  | contourf
  | other
deriving DecidableEq

/-- One patch of a field in two dimensions: coordinates of nodes and of cell centres, and data by index of x and y. -/
structure Fld where
  cell : Bool
  xn : List ℚ
  yn : List ℚ
  xc : List ℚ
  yc : List ℚ
  data : Nat → Nat → Option ℚ

structure Opts where
  style : Style
  /-- None, or two factors -/
  mod : Option (ℚ × ℚ)
  scale : Option ℚ
  masknan : Bool
  maskneg : Bool
  flip : Bool

/-- What is handed to matplotlib: two coordinate arrays, and values by row (y) and column (x); `none` is masked (or nan). -/
structure Picture where
  x : List ℚ
  y : List ℚ
  dat : Nat → Nat → Option ℚ

/-- `X[0], X[-1] = a[0], a[-1]` -/
def setEnds (l nodes : List ℚ) : List ℚ :=
  match nodes.head?, nodes.getLast? with
  | some a, some b => (l.set 0 a).set (l.length - 1) b
  | _, _ => l

def mul (m : Option ℚ) (l : List ℚ) : List ℚ := match m with
  | none => l
  | some m => l.map (· * m)

/-- vpyplot.py:450-462: the arrays to draw over, and the field after the ends of its cell centres were set. `ext` are the nodes of the coordinates
`as_cell_centered` makes. -/
def coords (ext : List ℚ → List ℚ) (style : Style) (f : Fld) : Fld × List ℚ × List ℚ :=
  if style = .pcolormesh ∨ style = .pcolor then
    if f.cell then (f, f.xn, f.yn) else (f, ext f.xn, ext f.yn)
  else if f.cell then
    let f := { f with xc := setEnds f.xc f.xn, yc := setEnds f.yc f.yn }
    (f, f.xc, f.yc)
  else (f, f.xn, f.yn)

/-- vpyplot.py:467-469 `X *= mod[0]; Y *= mod[1]`, in place: in the arrays of the field if it is they that are drawn over -/
def writeMod (style : Style) (mod : Option (ℚ × ℚ)) (f : Fld) : Fld :=
  let mx := mod.map (·.1)
  let my := mod.map (·.2)
  if style = .pcolormesh ∨ style = .pcolor then
    if f.cell then { f with xn := mul mx f.xn, yn := mul my f.yn } else f
  else if f.cell then { f with xc := mul mx f.xc, yc := mul my f.yc }
  else { f with xn := mul mx f.xn, yn := mul my f.yn }

/-- vpyplot.py:471-473 `dat = fld.data.T; dat *= scale`, in place -/
def writeScale (scale : Option ℚ) (f : Fld) : Fld := match scale with
  | none => f
  | some s => { f with data := fun i j => (f.data i j).map (· * s) }

/-- vpyplot.py:477-479 `np.ma.masked_where(dat <= 0.0, dat)` -/
def maskNeg (b : Bool) (x : Option ℚ) : Option ℚ := if b then x.filter (0 < ·) else x

/-- vpyplot.py:434-540 `_plot2d_single`: the field afterwards, and the picture; `none` is RuntimeError (unknown style) -/
def single (ext : List ℚ → List ℚ) (o : Opts) (f : Fld) : Fld × Option Picture :=
  let (f, x, y) := coords ext o.style f
  let x := mul (o.mod.map (·.1)) x
  let y := mul (o.mod.map (·.2)) y
  let f := writeMod o.style o.mod f
  let f := writeScale o.scale f
  let dat := fun j i => maskNeg o.maskneg (f.data i j)
  let p : Picture := if o.flip then ⟨y, x, fun i j => dat j i⟩ else ⟨x, y, dat⟩
  (f, if o.style = .other then none else some p)

/-- The same plot, `n` times: the field before the `n`-th further one -/
def again (ext : List ℚ → List ℚ) (o : Opts) : Nat → Fld → Fld
  | 0, f => f
  | n + 1, f => (single ext o (again ext o n f)).1

/-- vpyplot.py:775-784: one plot for every patch -/
def patches (ext : List ℚ → List ℚ) (o : Opts) (fs : List Fld) : List (Fld × Option Picture) := fs.map (single ext o)

/-- vpyplot.py:474-479, 775-784: `all_masked`, which is False at first and is only ever and-ed: `masked` says of each patch whether all of it is masked -/
def allMasked (masknan : Bool) (masked : List Bool) : Bool := masked.foldl (fun a m => if masknan then a && m else a) false

end Viscid.Plot2d
