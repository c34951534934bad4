import Verif.Model.GgcmFile
import Verif.Model.Layout
import Mathlib.Data.Rat.Defs
import Mathlib.Algebra.Order.Ring.Rat
/-!
# Model of readers of text files: `viscid/readers/athena_tab.py`, `athena_hst.py`, `ascii.py`

The numbers of a file are a list of rows (what `np.loadtxt` reads when it skips lines that begin with #), without rounding. Lines
of headers are lists of ASCII characters.
-/
namespace Viscid.TextFile
open Viscid.Layout (Arr prod ravel reshape)

inductive Exc
  | value
  | index
  | assertion
  | attribute
  deriving DecidableEq, Repr

/-! ### headers -/

abbrev Line := List Char

def isBlank (c : Char) : Bool := c = ' ' || c = '\t' || c = '\n' || c = '\r' || c = '\x0b' || c = '\x0c'
def isDigit (c : Char) : Bool := '0' ≤ c && c ≤ '9'

/-- `str.strip()` -/
def strip (s : Line) : Line := ((s.dropWhile isBlank).reverse.dropWhile isBlank).reverse

/-- `re.search(r"Time\s*=\s*([0-9\.]+)", line).groups()[0]`, at the begin of the text -/
def timeHere (s : Line) : Option Line :=
  if "Time".toList.isPrefixOf s then
    match (s.drop 4).dropWhile isBlank with
    | '=' :: r =>
      let t := (r.dropWhile isBlank).takeWhile fun c => isDigit c || c = '.'
      if t = [] then none else some t
    | _ => none
  else none

/-- ... anywhere in it -/
def timeIn : Line → Option Line
  | [] => none
  | c :: s => match timeHere (c :: s) with | some t => some t | none => timeIn s

/-- `"Time" in line` -/
def hasTime : Line → Bool
  | [] => false
  | c :: s => "Time".toList.isPrefixOf (c :: s) || hasTime s

/-- digits as a number -/
def natOf (s : Line) : Nat := s.foldl (fun n c => 10 * n + (c.toNat - '0'.toNat)) 0

/-- `float(t)` of digits and dots: ValueError with two dots, or without digits -/
def floatOf (s : Line) : Except Exc ℚ :=
  let a := s.takeWhile isDigit
  match s.dropWhile isDigit with
  | [] => if a = [] then .error .value else .ok (natOf a)
  | '.' :: b => if b.all isDigit && (a ++ b != []) then .ok (natOf a + natOf b / 10 ^ b.length) else .error .value
  | _ => .error .value

/-- `[0-9]+\]=` at the begin of the text: what follows it -/
def markRest (s : Line) : Option Line :=
  if s.takeWhile isDigit = [] then none
  else match s.dropWhile isDigit with
    | ']' :: '=' :: r => some r
    | _ => none

/-- `re.split(r"\[[0-9]+\]=", line)` -/
def splitMarks : Nat → Line → List Line
  | 0, s => [s]
  | _ + 1, [] => [[]]
  | n + 1, c :: s =>
    match if c = '[' then markRest s else none with
    | some r => [] :: splitMarks n r
    | none => match splitMarks n s with
      | [] => [[c]]
      | w :: ws => (c :: w) :: ws

structure Meta where
  time : Option Line
  dims : List Nat
  names : List Line

/-- athena_tab.py:124-139: one line of the header, without # and blanks at the ends; `dim` is `int(line.split('=')[1])` of a
line that begins with Nx -/
def headerLine (dim : Line → Except Exc Nat) (m : Meta) (line : Line) : Except Exc Meta := do
  let m ← if "Nx".toList.isPrefixOf line then (dim line).map fun n => { m with dims := m.dims ++ [n] } else .ok m
  let m ← if hasTime line then
      match timeIn line with
      | some t => .ok { m with time := some t }
      | none => .error .attribute
    else .ok m
  let fns := splitMarks line.length line
  .ok (if 1 < fns.length then { m with names := fns.tail.map strip } else m)

/-- athena_tab.py:116-144 `parse_header`: time, dims and names of fields -/
def parseHeader (dim : Line → Except Exc Nat) (lines : List Line) : Except Exc (ℚ × List Nat × List Line) := do
  let m ← lines.foldlM (headerLine dim) ⟨none, [], []⟩
  let t ← match m.time with | none => .ok 0 | some t => floatOf t
  .ok (t, m.dims, m.names.drop (2 * m.dims.length))

/-! ### coordinates and data of Athena tab files -/

/-- rows of numbers -/
abbrev Table := List (List ℚ)

/-- `np.loadtxt(fname, usecols=(col,))`: ValueError (IndexError in old versions) for a column that is not there -/
def column (rows : Table) (col : Nat) : Except Exc (List ℚ) :=
  rows.mapM fun r => match r[col]? with | some x => .ok x | none => .error .value

/-- `l[:stop:step]` -/
def strided (l : List ℚ) (stop step : Nat) : Except Exc (List ℚ) :=
  if step = 0 then .error .value
  else .ok ((List.range ((min stop l.length + step - 1) / step)).map fun m => l.getD (m * step) 0)

/-- athena_tab.py:159-165: the centres of the cells of axis `i`; `np.min` of no differences is a ValueError -/
def axisCenters (rows : Table) (dims : List Nat) (i : Nat) : Except Exc (List ℚ) := do
  let dat ← column rows (dims.length + i)
  let cc ← strided dat (prod (dims.take (i + 1))) (prod (dims.take i))
  if cc.length < 2 then .error .value
  else if dims[i]? = some cc.length then .ok cc
  else .error .assertion

/-- athena_tab.py:167-172: nodes from centres, of two or more cells (one cell was a ValueError before) -/
def axisNodes (cc : List ℚ) : Except Exc (List ℚ) :=
  match GgcmFile.nodes cc with
  | .ok l => .ok l
  | .error _ => .error .index

/-- athena_tab.py:146-177 `read_crds`: the nodes of x, y, z; no more than three axes, by `zip` -/
def readCrds (rows : Table) (dims : List Nat) : Except Exc (List (List ℚ)) := do
  let ccs ← (List.range (min dims.length 3)).mapM (axisCenters rows dims)
  ccs.mapM axisNodes

/-- athena_tab.py:209-214 `__array__`: the array zyx, of shape `shape` -/
def tabArray (rows : Table) (shape : List Nat) (fld : Nat) : Except Exc (Arr ℚ) := do
  let arr ← column rows (2 * shape.length + fld)
  match reshape ⟨[arr.length], fun i => arr.getD (i.headD 0) 0⟩ shape with
  | .ok a => .ok a
  | .error _ => .error .value

/-- athena_tab.py:101-112, field.py:869-888: the data of the field, xyz: that of the file is zyx (`zyx_native`) -/
def tabField (rows : Table) (dims : List Nat) (fld : Nat) : Except Exc (Arr ℚ) := do
  let a ← tabArray rows dims.reverse fld
  .ok ⟨dims, fun idx => a.get idx.reverse⟩

/-! ### tables over one axis -/

/-- `np.loadtxt(fname)` squeezes: a table with one row, or one column, is not two dimensional -/
def twoDim (rows : Table) : Bool := 1 < rows.length && 1 < (rows.headD []).length

/-- ascii.py:28-42 `FileASCII._parse`: nodes, and fields with names -/
def ascii (rows : Table) : Except Exc (List ℚ × List (String × List ℚ)) :=
  if twoDim rows then do
    let x ← column rows 0
    let fs ← (List.range ((rows.headD []).length - 1)).mapM fun i =>
      (column rows (i + 1)).map fun c => ("c" ++ toString (i + 1), c)
    .ok (x, fs)
  else .error .index

/-- athena_hst.py:25-46 `_parse`, of two or more rows: times, and fields with names; `line` is the second line of the header -/
def hst (line : Line) (rows : Table) : Except Exc (List ℚ × List (Line × List ℚ)) := do
  let names := (splitMarks line.length line).tail.map strip
  let t ← column rows 0
  let fs ← (List.range (names.length - 1)).mapM fun i =>
    match column rows (i + 1) with
    | .ok c => .ok (names.getD (i + 1) [], c)
    | .error _ => .error .index
  .ok (t, fs)

/-- an axis or a field of a .nda file: its name, and the numbers of its line -/
abbrev Entry := String × List ℚ

/-- ascii.py:62-89 `FileNDASCII._parse`, with field.py:999-1008: entries of the file after its first two lines; the first `ndim` are
axes and the next `nfields` fields. A field takes the shape of the coordinates when its data is used. ValueError at the end of
the file, or if the numbers do not fit (twice as many numbers, or more, would be a vector field: not modelled). -/
def nda (ndim nfields : Nat) (entries : List Entry) : Except Exc (List Entry × List (String × Except Exc (Arr ℚ))) :=
  if entries.length < ndim + nfields then .error .value
  else
    let axes := entries.take ndim
    let shape := axes.map fun a => a.2.length
    .ok (axes, ((entries.drop ndim).take nfields).map fun f =>
      (f.1, match reshape ⟨[f.2.length], fun i => f.2.getD (i.headD 0) 0⟩ shape with
        | .ok a => .ok a
        | .error _ => .error .value))

end Viscid.TextFile
