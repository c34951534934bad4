import Mathlib.Data.Rat.Floor
/-!
# Model of `viscid/plot/vlab.py`: `fancy_axes`, `to_mpl`, `remove_source`, `clear_data` and `clf`

Numbers are exact. Mayavi is modelled by what it is asked to do: the grid of the box and its labels, whether the
figure is fitted, and the sources in scenes with the state that is set. Colours, opacities and line widths are not
modelled. AutoLocator is any function from an interval to a list of ticks.
-/
namespace Viscid.SceneBox

inductive Exc
  | value
  | type
  | index
  | attribute
deriving DecidableEq, Repr

/-- an array of numbers: of integers or of floats -/
structure Arr where
  int : Bool
  v : List ℚ
deriving DecidableEq

/-- `np.broadcast_to(x, (3,))`; a scalar is a list of one number -/
def broadcast3 (a : Arr) : Except Exc Arr :=
  match a.v with
  | [x] => .ok ⟨a.int, [x, x, x]⟩
  | [x, y, z] => .ok ⟨a.int, [x, y, z]⟩
  | _ => .error .value

/-- a number put in an array of integers is cut -/
def put (int : Bool) (x : ℚ) : ℚ := if int then (if 0 ≤ x then (⌊x⌋ : ℚ) else (⌈x⌉ : ℚ)) else x

/-- `a += b` of arrays: TypeError if `a` has integers and `b` floats -/
def addTo (a b : Arr) : Except Exc Arr :=
  if a.int && !b.int then .error .type else .ok ⟨a.int, List.zipWith (· + ·) a.v b.v⟩

/-- `a -= b` of arrays -/
def subFrom (a b : Arr) : Except Exc Arr :=
  if a.int && !b.int then .error .type else .ok ⟨a.int, List.zipWith (· - ·) a.v b.v⟩

/-- vlab.py:800-806 one pass of the loop: the first and last tick -/
def nice (ticks : ℚ → ℚ → List ℚ) (xint yint : Bool) (x y : ℚ) : Except Exc (ℚ × ℚ) :=
  let locs := ticks x y
  match locs.head?, locs.getLast? with
  | some a, some b => .ok (put xint a, put yint b)
  | _, _ => .error .index

/-- vlab.py:800-806 the loop over axes -/
def niceAll (ticks : ℚ → ℚ → List ℚ) (xint yint : Bool) : List ℚ → List ℚ → Except Exc (List ℚ × List ℚ)
  | x :: xs, y :: ys => do
    let p ← nice ticks xint yint x y
    let q ← niceAll ticks xint yint xs ys
    .ok (p.1 :: q.1, p.2 :: q.2)
  | _, _ => .ok ([], [])

/-- `tvtk.ImageData(dimensions, origin, spacing)`; a spacing that is not finite is none -/
structure Box where
  dims : List Int
  origin : List ℚ
  spacing : List (Option ℚ)
deriving DecidableEq

/-- vlab.py:777-809 of `fancy_axes`: the grid. `bounds` are xl, xh, yl, yh, zl, zh of the outline of the target. -/
def fancyBox (ticks : ℚ → ℚ → List ℚ) (bounds : List ℚ) (xl xh : Option Arr) (nb : List Int) (tight symmetric : Bool) (padInt : Bool) (padding : ℚ) :
    Except Exc Box := do
  let low : Arr := xl.getD ⟨false, [bounds.getD 0 0, bounds.getD 2 0, bounds.getD 4 0]⟩
  let high : Arr := xh.getD ⟨false, [bounds.getD 1 0, bounds.getD 3 0, bounds.getD 5 0]⟩
  let n ← match nb with
    | [a] => Except.ok [a, a, a]
    | [a, b, c] => Except.ok [a, b, c]
    | _ => Except.error .value
  let a ← broadcast3 low
  let b ← broadcast3 high
  let L : Arr := ⟨a.int && b.int, List.zipWith (· - ·) b.v a.v⟩
  let pad : Arr := ⟨padInt && L.int, L.v.map (padding * ·)⟩
  let a ← subFrom a pad
  let b ← addTo b pad
  let tight := if symmetric then false else tight
  let (x, y) ← if !tight then niceAll ticks a.int b.int a.v b.v else Except.ok (a.v, b.v)
  .ok ⟨n, x, List.zipWith (fun (d : ℚ) (m : Int) => if m - 1 = 0 then none else some (d / ((m - 1 : Int) : ℚ))) (List.zipWith (· - ·) y x) n⟩

/-- Labels added to the box: their name, which axes of VTK are visible (all if not set), and how many labels -/
structure Labels where
  name : String
  visible : Bool × Bool × Bool
  number : Int
deriving DecidableEq

/-- vlab.py:831-859 `_make_ax_for_labels` for one axis -/
def labelsOf (nb : List Int) : Nat → Labels
  | 0 => ⟨"x-axis-labels", (true, false, false), nb.getD 0 0⟩
  | 1 => ⟨"y-axis-labels", (false, false, true), nb.getD 1 0⟩
  | _ => ⟨"z-axis-labels", (false, true, false), nb.getD 2 0⟩

/-- vlab.py:830, 861-866 of `fancy_axes`: the labels, for three numbers -/
def fancyLabels (labels consolidate : Bool) (nb : List Int) : List Labels :=
  if labels then
    if consolidate && nb.all (· = nb.getD 0 0) then [⟨"axes-labels", (true, true, true), nb.getD 0 0⟩]
    else [labelsOf nb 0, labelsOf nb 1, labelsOf nb 2]
  else []

/-- `bool(x)` of the python values that `to_mpl` looks at: a function is always true -/
inductive Py
  | function
  | list (l : List Nat)

def Py.bool : Py → Bool
  | .function => true
  | .list l => l ≠ []

/-- vlab.py:1196-1210 of `to_mpl`: whether the figure of matplotlib is resized to fit. `plt.get_fignums` is not called. -/
def fits (hasAx : Bool) (fit : Option Bool) (_fignums : List Nat) : Bool :=
  let fit := if !hasAx then
      match fit with
      | none => some (!Py.function.bool)
      | some b => some b
    else fit
  match fit with
  | some true => true
  | _ => false

/-- what `src.data.release_data()` does -/
inductive Data
  | releases
  | trait    -- raises TraitError
  | missing  -- AttributeError
deriving DecidableEq, Repr

/-- a source, with the state that is set -/
structure Src where
  id : Nat
  data : Data
  released : Bool := false
  flag : Bool := false
  names : List String
  started : Bool := true
  removed : Bool := false
deriving DecidableEq, Repr

/-- vlab.py:1278-1300 `remove_source` -/
def removeSource (s : Src) : Src :=
  let s := { s with started := false }
  let s := match s.data with
    | .releases => { s with released := true, names := s.names.map fun _ => "" }
    | .trait => { s with flag := true, names := s.names.map fun _ => "" }
    | .missing => s
  let s := { s with started := true }
  let s := { s with started := false }
  { s with removed := true }

/-- scenes of the engine with their sources, and all sources that were removed -/
structure Engine where
  scenes : List (List Src)
  gone : List Src := []
deriving DecidableEq, Repr

/-- vlab.py:1336-1337: one source is removed from scene `i`, by `src.remove()` too -/
def removeFrom (i : Nat) (e : Engine) (s : Src) : Engine :=
  ⟨e.scenes.modify i fun l => l.filter (·.id ≠ s.id), e.gone ++ [removeSource s]⟩

/-- vlab.py:1333-1337 one figure; the list of children is copied -/
def clearFig (i : Nat) (e : Engine) : Engine := (e.scenes.getD i []).foldl (removeFrom i) e

/-- The argument of `clear_data`: None, "all", one figure or None, or a list of these -/
inductive Figs
  | current
  | all
  | many (l : List (Option Nat))
deriving DecidableEq, Repr

/-- vlab.py:1333-1337 the loop over figures; `none` of the list is None, which has no children -/
def clearList : List (Option Nat) → Engine → Except Exc Unit × Engine
  | [], e => (.ok (), e)
  | none :: _, e => (.error .attribute, e)
  | some i :: l, e => clearList l (clearFig i e)

/-- vlab.py:1302-1339 `clear_data`; `gcf` is the current figure -/
def clearData (gcf : Option Nat) (figs : Figs) (e : Engine) : Except Exc Unit × Engine :=
  let l := match figs with
    | .current => [gcf]
    | .all => (List.range e.scenes.length).map some
    | .many l => l
  if l.all (·.isNone) then (.ok (), e) else clearList l e

end Viscid.SceneBox
