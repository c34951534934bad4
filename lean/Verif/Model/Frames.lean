import Verif.Model.Crds
import Verif.Model.Layout
/-!
# Model of datasets turned into tables and back

`viscid/dataset.py` (`to_dataframe`, `from_dataframe`, `Dataset.to_dataframe`, `DatasetTemporal.to_dataframe`) and `viscid/grid.py`
(`Grid.to_dataframe`). A pandas DataFrame has the labels of its rows and named columns. The entries are numbers, times are seconds and dates seconds since
1970; `none` is nan, NaT or None. Rounding is not modelled (times become whole microseconds), nor are selections (`selection=...` is what is
modelled), coordinates that are dates, and what coordinates become after `arrays2crds` (C157): axes are the arrays given to it. A field has the points of
its own centering and, for a vector field, more values than points.
-/
namespace Viscid.Frames
open Viscid.Layout (prod)

/-- one entry of a table -/
abbrev Cell := Option ℚ

/-- exceptions -/
inductive Exc
  | key
  | value
  | index
  | type
  | name
  | assertion
  | noBasetime
deriving DecidableEq, Repr

/-- A field: its name, the axes with their points, and `data.reshape(-1)`; `time` and `base` are what `fld.time` and `fld.basetime` find (tree.py:215-231):
    no time is None, no base time a NoBasetimeError (`none`), and the base time can be NaT (`some none`). -/
structure Fld where
  name : String
  time : Cell
  base : Option Cell
  axes : List (String × List Cell)
  vals : List Cell
deriving DecidableEq, Repr

/-- a grid: `time`, base time, and the fields in order -/
structure Grid where
  time : Cell
  base : Option Cell
  flds : List Fld
deriving DecidableEq, Repr

/-- a pandas DataFrame -/
structure Frame where
  labels : List Nat
  cols : List (String × List Cell)
deriving DecidableEq, Repr

def Frame.rows (f : Frame) : Nat := f.labels.length

def Frame.names (f : Frame) : List String := f.cols.map Prod.fst

/-- `frame[name]`; a KeyError is `none` -/
def Frame.col (f : Frame) (name : String) : Option (List Cell) := f.cols.lookup name

/-- `frame[name] = arr`: the first column of an empty table gives it its rows; other lengths are a ValueError; a column that exists is replaced -/
def Frame.set (f : Frame) (name : String) (arr : List Cell) : Except Exc Frame :=
  if f.cols = [] then .ok ⟨List.range arr.length, [(name, arr)]⟩
  else if arr.length ≠ f.rows then .error .value
  else if name ∈ f.names then .ok { f with cols := f.cols.map fun c => if c.1 = name then (name, arr) else c }
  else .ok { f with cols := f.cols ++ [(name, arr)] }

/-- `frame.insert(i, name, x)` of one value for all rows: a ValueError if there is such a column -/
def Frame.insert (f : Frame) (i : Nat) (name : String) (x : Cell) : Except Exc Frame :=
  if name ∈ f.names then .error .value
  else .ok { f with cols := f.cols.take i ++ (name, List.replicate f.rows x) :: f.cols.drop i }

def Frame.setAll (f : Frame) : List (String × List Cell) → Except Exc Frame
  | [] => .ok f
  | c :: cs =>
    match f.set c.1 c.2 with
    | .error e => .error e
    | .ok f => f.setAll cs

/-- grid.py:164-166 `np.meshgrid(*crds, indexing='ij')`, each `.reshape(-1)` -/
def mesh : List (List β) → List (List β)
  | [] => []
  | a :: as => (a.flatMap fun x => List.replicate (prod (as.map List.length)) x) :: (mesh as).map fun c => (List.replicate a.length c).flatten

/-- tree.py:242-255 `time_as_datetime64` with `fld.time` and `fld.basetime`: `1e6 * None` is a TypeError, and comes before the NoBasetimeError
    (`.ok none`) -/
def datetime (time : Cell) (base : Option Cell) : Except Exc (Option Cell) :=
  match time with
  | none => .error .type
  | some t => .ok (base.map fun b => b.map fun b => b + t)

/-- grid.py:184-197 `iter_fields` -/
def Grid.pick (g : Grid) : Option (List String) → Except Exc (List Fld)
  | none => .ok g.flds
  | some names =>
    match names.mapM fun n => g.flds.find? fun f => f.name = n with
    | some l => .ok l
    | none => .error .key

/-- grid.py:141-182 `to_dataframe` with `time_sel` being `slice(None)` (`allTimes`) or not -/
def Grid.toFrame (g : Grid) (names : Option (List String)) (allTimes : Bool) (timeCol dtCol : String) : Except Exc Frame :=
  if !allTimes then .error .assertion
  else
    match g.pick names with
    | .error e => .error e
    | .ok [] => .ok ⟨[], []⟩
    | .ok (f0 :: fs) =>
      match (Frame.mk [] []).setAll ((f0.axes.map Prod.fst).zip (mesh (f0.axes.map Prod.snd))) with
      | .error e => .error e
      | .ok fr =>
        match fr.insert 0 timeCol f0.time with
        | .error e => .error e
        | .ok fr =>
          match datetime f0.time f0.base with
          | .error e => .error e
          | .ok none => fr.setAll ((f0 :: fs).map fun f => (f.name, f.vals))
          | .ok (some d) =>
            match fr.insert 1 dtCol d with
            | .error e => .error e
            | .ok fr => fr.setAll ((f0 :: fs).map fun f => (f.name, f.vals))

/-- `drop_duplicates()`: the first of each value -/
def dropDup [DecidableEq β] : List β → List β
  | [] => []
  | a :: l => a :: (dropDup l).filter fun b => b ≠ a

/-- `pandas.concat(frames, ignore_index=True, sort=False)`: columns that a table does not have are nan -/
def concat (frames : List Frame) : Except Exc Frame :=
  if frames = [] then .error .value
  else .ok ⟨List.range (frames.map Frame.rows).sum, (dropDup (frames.flatMap Frame.names)).map fun n =>
    (n, frames.flatMap fun f => (f.col n).getD (List.replicate f.rows none))⟩

/-- all tables -/
def framesOf (names : Option (List String)) (allTimes : Bool) (timeCol dtCol : String) : List Grid → Except Exc (List Frame)
  | [] => .ok []
  | g :: gs =>
    match g.toFrame names allTimes timeCol dtCol with
    | .error e => .error e
    | .ok f =>
      match framesOf names allTimes timeCol dtCol gs with
      | .error e => .error e
      | .ok fs => .ok (f :: fs)

/-- dataset.py:614-638 (and 308-332) `to_dataframe`; `gs` are the grids that `iter_times(sel=time_sel)` gives. The columns of the first table stay first
    (634-637), others come in any order, here in that of `concat`. -/
def toFrame (gs : List Grid) (names : Option (List String)) (allTimes : Bool) (timeCol dtCol : String) : Except Exc Frame :=
  match framesOf names allTimes timeCol dtCol gs with
  | .error e => .error e
  | .ok frames => concat frames

/-- dataset.py:45-50: the fields by time, in the order of the first of each -/
def byTime (flds : List Fld) : List (Cell × List Fld) := (dropDup (flds.map Fld.time)).map fun t => (t, flds.filter fun f => f.time = t)

/-- insertion into a list sorted by time, before the first that is later -/
def insertTime (a : ℚ × List Fld) : List (ℚ × List Fld) → List (ℚ × List Fld)
  | [] => [a]
  | b :: l => if a.1 ≤ b.1 then a :: b :: l else b :: insertTime a l

/-- dataset.py:53 `sorted`: None cannot be compared with another time, a TypeError -/
def sortTimes (l : List (Cell × List Fld)) : Except Exc (List (Cell × List Fld)) :=
  if l.length ≤ 1 then .ok l
  else
    match l.mapM fun a => a.1.map fun t => (t, a.2) with
    | none => .error .type
    | some l => .ok ((l.foldr insertTime []).map fun a => (some a.1, a.2))

/-- dataset.py:53-60: a grid for each time; `fld.basetime` can be a NoBasetimeError. Fields have their own time and base time (here the one of the first is
    that of all). A field replaces one of the same name. -/
def gridsOf : List (Cell × List Fld) → Except Exc (List Grid)
  | [] => .ok []
  | (_, []) :: _ => .error .index
  | (t, f :: fs) :: l =>
    match f.base with
    | none => .error .noBasetime
    | some b =>
      match gridsOf l with
      | .error e => .error e
      | .ok gs => .ok (⟨t, some b, (f :: fs).foldl (fun l f => if l.any (fun g => g.name = f.name) then l.map (fun g => if g.name = f.name then f else g)
          else l ++ [f]) []⟩ :: gs)

/-- dataset.py:25-69 `to_dataframe` of fields -/
def fieldsToFrame (flds : List Fld) (names : Option (List String)) (allTimes : Bool) (timeCol dtCol : String) : Except Exc Frame :=
  match sortTimes (byTime flds) with
  | .error e => .error e
  | .ok l =>
    match gridsOf l with
    | .error e => .error e
    | .ok [g] => g.toFrame names allTimes timeCol dtCol
    | .ok gs => toFrame gs names allTimes timeCol dtCol

/-! ## and back -/

/-- `drop_duplicates()` with the labels of the rows -/
def dropDupLab : List (Nat × Cell) → List (Nat × Cell)
  | [] => []
  | a :: l => a :: (dropDupLab l).filter fun b => b.2 ≠ a.2

/-- the entries where the mask is True -/
def select : List Bool → List β → List β
  | true :: m, x :: l => x :: select m l
  | false :: m, _ :: l => select m l
  | _, _ => []

/-- `frame[frame[time_col] == t]`: nan is not equal to anything -/
def Frame.atTime (f : Frame) (tc : List Cell) (t : Cell) : Frame :=
  let m := tc.map fun x => x.isSome && x = t
  ⟨select m f.labels, f.cols.map fun c => (c.1, select m c.2)⟩

/-- numbers with nan -/
def lift2 (op : ℚ → ℚ → ℚ) : Cell → Cell → Cell
  | some a, some b => some (op a b)
  | _, _ => none

/-- what stops the first part of `from_dataframe`: a KeyError, which is caught, or an IndexError -/
inductive Stop
  | key
  | index

/-- dataset.py:91-101: the base time; `'datetime' in frame` does not look for `datetime_col` -/
def baseOf (f : Frame) (u : List (Nat × Cell)) (dtCol : String) : Except Stop Cell :=
  if "datetime" ∈ f.names then
    match f.col dtCol with
    | none => .error .key
    | some dc =>
      match u.map Prod.snd, dropDup dc with
      | t0 :: t1 :: _, d0 :: d1 :: _ => .ok (lift2 (· - ·) d0 (lift2 (· * ·) t0 (lift2 (· / ·) (lift2 (· - ·) d1 d0) (lift2 (· - ·) t1 t0))))
      | [t0], d0 :: _ => .ok (lift2 (· - ·) d0 t0)
      | _, _ => .error .index
  else .ok none

/-- dataset.py:88-106: times, base time, and the rows of the first time -/
def timesOf (f : Frame) (timeCol dtCol : String) : Except Stop (List Cell × Cell × Frame) :=
  match f.col timeCol with
  | none => .error .key
  | some tc =>
    let u := dropDupLab (f.labels.zip tc)
    match baseOf f u dtCol with
    | .error e => .error e
    | .ok base =>
      match u.lookup 0 with
      | none => .error .key
      | some t0 => .ok (u.map Prod.snd, base, f.atTime tc t0)

/-- dataset.py:114-117: the position of the first column that changes from the first row to the second, or of the last one -/
def changes : List (String × List Cell) → Nat
  | [] => 0
  | [_] => 0
  | c :: cs =>
    match c.2 with
    | some x :: some y :: _ => if y - x = 0 then changes cs + 1 else 0
    | _ => 0

/-- dataset.py:108-118 -/
def findCrds (f0 : Frame) (timeCol dtCol : String) : Except Exc (List String) :=
  let f1 : Frame := ⟨f0.labels, f0.cols.filter fun c => c.1 ≠ timeCol && c.1 ≠ dtCol⟩
  if f1.rows ≤ 1 then .error .value
  else if f1.cols = [] then .error .name
  else .ok (f1.names.take (changes f1.cols + 1))

/-- dataset.py:130-144: the fields at one time -/
def readFlds (f1 : Frame) (time base : Cell) (axes : List (String × List Cell)) : List String → Except Exc (List Fld)
  | [] => .ok []
  | n :: ns =>
    match f1.col n with
    | none => .error .key
    | some l =>
      if l.length ≠ prod (axes.map fun a => a.2.length) then .error .value
      else
        match readFlds f1 time base axes ns with
        | .error e => .error e
        | .ok fs => .ok (⟨n, time, some base, axes, l⟩ :: fs)

/-- dataset.py:129-144: all times -/
def readGrids (f : Frame) (timeCol : String) (base : Cell) (axes : List (String × List Cell)) (names : List String) : List Cell → Except Exc (List Grid)
  | [] => .ok []
  | t :: ts =>
    match readFlds (match f.col timeCol with | some tc => f.atTime tc t | none => f) t base axes names with
    | .error e => .error e
    | .ok fs =>
      match readGrids f timeCol base axes names ts with
      | .error e => .error e
      | .ok gs => .ok (⟨t, some base, fs⟩ :: gs)

/-- dataset.py:120-152: coordinates, fields and grids. `grid.basetime = None` makes it NaT (tree.py:224-226), which is `some none`. -/
def build (f : Frame) (timeCol dtCol : String) (crdCols : List String) (times : List Cell) (base : Cell) : Except Exc (List Grid) :=
  match crdCols.mapM fun c => f.col c with
  | none => .error .key
  | some arrs =>
    if arrs = [] then .error .index
    else readGrids f timeCol base (crdCols.zip (arrs.map dropDup)) (f.names.filter fun n => n ≠ timeCol && n ≠ dtCol && n ∉ crdCols) times

/-- dataset.py:71-153 `from_dataframe`: the grids, one or those of the DatasetTemporal, before they are sorted by time (475-488) -/
def fromFrame (f : Frame) (crdCols : Option (List String)) (timeCol dtCol : String) : Except Exc (List Grid) :=
  match timesOf f timeCol dtCol with
  | .error .index => .error .index
  | .error .key =>
    match crdCols with
    | some c => build f timeCol dtCol c [some 0] none
    | none =>
      match findCrds f timeCol dtCol with
      | .error e => .error e
      | .ok c => build f timeCol dtCol c [some 0] none
  | .ok (times, base, f0) =>
    match crdCols with
    | some c => build f timeCol dtCol c times base
    | none =>
      match findCrds f0 timeCol dtCol with
      | .error e => .error e
      | .ok c => build f timeCol dtCol c times base

end Viscid.Frames
