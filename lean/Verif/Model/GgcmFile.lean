import Verif.Model.TimeDelta
/-!
# Model of the file handling in `viscid/readers/openggcm.py`

Regular expressions, `float` and the file system are parameters. Floating point numbers are rationals.
-/
namespace Viscid.GgcmFile
open Viscid.NpTime (U Time)
open Viscid.TimeDelta (ofNumber roundTo)

inductive Err
  | value
  | index
  | key
  | attribute
  | time (e : Viscid.NpTime.Err)
deriving DecidableEq, Repr

/-! ### `parse_timestring` -/

/-- `str.split()`: words, `cur` is the current one, reversed -/
def splitWords : List Char → List Char → List (List Char)
  | [], cur => if cur = [] then [] else [cur.reverse]
  | c :: cs, cur =>
    if c.isWhitespace then (if cur = [] then splitWords cs [] else cur.reverse :: splitWords cs [])
    else splitWords cs (c :: cur)

/-- A `timedelta64` in seconds -/
def seconds (t : Time) : ℚ := (t.val.getD 0 * t.unit.size : Int) / (U.s.size : ℚ)

/-- openggcm.py:672-683 `parse_timestring`: base time and time of a file, in seconds since 1970. `float` is Python's, `date` is
    `as_datetime64`; both raise ValueError. Line 675 strips the string, but the result is not used.
    `time_as_seconds(basetime, 1)` is `datetime_as_seconds` (npdatetime.py:622-628), which rounds the fraction of the second
    to one decimal; the sum it returns is exact. -/
def parseTimestring (float date : List Char → Option ℚ) (s : List Char) : Except Err (ℚ × ℚ) :=
  if ¬ "time=".toList.isPrefixOf s then .error .value
  else
    let words := splitWords (s.drop 5) []
    match words[0]? with
    | none => .error .index
    | some w0 =>
      match float w0 with
      | none => .error .value
      | some t =>
        match words[2]? with
        | none => .error .index
        | some w2 =>
          match date w2 with
          | none => .error .value
          | some ut =>
            match ofNumber t .s with
            | .error e => .error (.time e)
            | .ok td =>
              let base := ut - seconds td
              .ok (⌊base⌋ + roundTo (base - ⌊base⌋) 1, ut)

/-! ### `group_ggcm_files_common` -/

/-- what the regular expression finds in a file name: run, type, and the third group (`none` if it did not take part, `some
    none` if it is not a number) -/
structure Match where
  run : String
  ftype : String
  grp3 : Option (Option Int)
deriving DecidableEq, Repr

/-- openggcm.py:79-83: -1 if the group is no number -/
def Match.time (m : Match) : Int := (m.grp3.getD none).getD (-1)

/-- a stable sort: `list.sort(key=...)` -/
def insertBy (le : α → α → Bool) (a : α) : List α → List α
  | [] => [a]
  | b :: l => if le a b then a :: b :: l else b :: insertBy le a l

/-- a stable sort: `list.sort(key=...)` -/
def sortBy (le : α → α → Bool) (l : List α) : List α := l.foldr (insertBy le) []

/-- openggcm.py:90-100: consecutive entries with the same run and type -/
def groupRuns (same : α → α → Bool) : List α → List (List α)
  | [] => []
  | a :: l =>
    match groupRuns same l with
    | (b :: g) :: gs => if same a b then (a :: b :: g) :: gs else [a] :: (b :: g) :: gs
    | gs => [a] :: gs

/-- openggcm.py:102-113: if a group has time slices, no run-level files -/
def dropRunLevel (g : List (N × Match)) : List (N × Match) :=
  if g.any fun x => x.2.grp3 ≠ none then g.filter fun x => x.2.grp3 ≠ none else g

/-- openggcm.py:73-78: `m.groups()` of a name that does not match raises AttributeError -/
def matchAll (re : N → Option Match) : List N → Except Err (List (N × Match))
  | [] => .ok []
  | n :: ns =>
    match re n, matchAll re ns with
    | some m, .ok l => .ok ((n, m) :: l)
    | none, _ => .error .attribute
    | _, .error e => .error e

/-- openggcm.py:71-120 `group_ggcm_files_common`; `infolst[0]` of an empty list raises IndexError -/
def groupFiles (re : N → Option Match) (names : List N) : Except Err (List (List N)) :=
  match matchAll re names with
  | .error e => .error e
  | .ok [] => .error .index
  | .ok infos =>
    let infos := sortBy (fun a b => decide (a.2.time ≤ b.2.time)) infos
    let infos := sortBy (fun a b => decide (a.2.ftype ≤ b.2.ftype)) infos
    let infos := sortBy (fun a b => decide (a.2.run ≤ b.2.run)) infos
    let groups := groupRuns (fun a b => decide (a.2.run = b.2.run ∧ a.2.ftype = b.2.ftype)) infos
    .ok (groups.map fun g => (dropRunLevel g).map (·.1))

/-! ### `find_file_uptree` -/

/-- openggcm.py:41-69 `find_file_uptree`. A directory is the list of its components, innermost first; `isfile d` is whether
    it has the file. The argument `max_depth` is overwritten with 5 (line 55) and not passed on. Directories exist and there
    are no symbolic links. -/
def findUptree (isfile : List String → Bool) (maxDepth : Nat) (depth : Nat) : List String → Option (List String)
  | [] => if isfile [] then some [] else none
  | c :: d =>
    let _ := maxDepth
    if isfile (c :: d) then some (c :: d)
    else if depth > 5 then none
    else findUptree isfile maxDepth (depth + 1) d

/-! ### `_do_mhd_to_gse_on_read` -/

/-- The info `_viscid_log_fname` (openggcm.py:628-659): missing, None (not found), False (not read), or the name of a file -/
inductive Log
  | missing
  | notFound
  | off
  | file
deriving DecidableEq, Repr

/-- What `find_info` finds for a grid: `none` is KeyError -/
structure Info where
  known : Option Bool
  crdSystem : Option String
  assumeMhd : Bool
  log : Log
  mhdType : Option String
  icType : Option String
  xl : Option ℚ
  xh : Option ℚ
deriving DecidableEq, Repr

/-- openggcm.py:246-271 -/
def intuit (i : Info) : Option String :=
  match i.mhdType, i.xl, i.xh with
  | some ty, some xl, some xh =>
    let isOpenggcm := ty = "ggcm" ∨ "mirdip".toList.isPrefixOf (i.icType.getD "").toList
    some (if isOpenggcm ∧ xl < 0 ∧ xh > 0 ∧ -2 * xl < xh then "mhd"
      else if isOpenggcm ∧ xl < 0 ∧ xh > 0 ∧ -2 * xh > xl then "gse" else "other")
  | _, _, _ => none

/-- openggcm.py:237-274: the coordinate system. Asking for the name of the log file raises KeyError if there is none. -/
def crdSystem (i : Info) : Except Err String :=
  match i.crdSystem with
  | some c => .ok c
  | none =>
    if i.assumeMhd then .ok "mhd"
    else
      match i.log with
      | .missing => .error .key
      | .file => .ok ((intuit i).getD "unknown")
      | _ => .ok "unknown"

/-- openggcm.py:282-331, what to do. `request` is `str(self.mhd_to_gse_on_read).strip().lower()`. -/
def decideFlip (i : Info) (crd request : String) : Except Err Bool :=
  if request = "true" then .ok true
  else if request = "force" then .ok true
  else if request = "false" then .ok false
  else if "auto".toList.isPrefixOf request.toList then
    let default := "true".toList.isSuffixOf request.toList
    if crd = "mhd" then .ok true
    else if crd = "gse" then .ok false
    else if i.log = .missing then .error .key
    else .ok default
  else .error .value

/-- openggcm.py:231-334 `_do_mhd_to_gse_on_read`: the answer, and what the grid knows afterwards. (If line 329 raises, the
    coordinate system has been stored all the same; the state is only modelled for calls that return.) -/
def doFlip (i : Info) (request : String) : Except Err (Bool × Info) :=
  match i.known with
  | some b => .ok (b, i)
  | none =>
    match crdSystem i with
    | .error e => .error e
    | .ok crd =>
      match decideFlip i crd request with
      | .error e => .error e
      | .ok b => .ok (b, { i with known := some b, crdSystem := some crd })

/-! ### `read_grid2` -/

/-- openggcm.py:859-861: nodes from cell centres; IndexError for fewer than two -/
def nodes : List ℚ → Except Err (List ℚ)
  | c0 :: c1 :: cs =>
    let cc := c0 :: c1 :: cs
    let hd := List.zipWith (fun b a => 1 / 2 * (b - a)) cc.tail cc.dropLast
    .ok ((c0 - hd.headD 0) :: (List.zipWith (· + ·) cc.dropLast hd ++ [cc.getLast?.getD 0 + hd.getLast?.getD 0]))
  | _ => .error .index

/-- openggcm.py:865-881: where a 2d file's plane is looked for among the cell centres: tenths of Re from the file name; the sign
    is changed if the class attribute `mhd_to_gse_on_read` is true as Python sees it. Strings are, unless empty. -/
def planeLoc (setting : String ⊕ Bool) (dim : Char) (tenths : ℚ) : ℚ :=
  let truthy : Bool := match setting with
    | .inl s => s != ""
    | .inr b => b
  if truthy = true ∧ (dim = 'x' ∨ dim = 'y') then -(tenths / 10) else tenths / 10

/-- `np.argmin`: the first index of a smallest entry. `best` is the smallest so far, at `ib`; `i` is the next index. -/
def argminFrom : List ℚ → Nat → ℚ → Nat → Nat
  | [], _, _, ib => ib
  | x :: xs, i, best, ib => if x < best then argminFrom xs (i + 1) x i else argminFrom xs (i + 1) best ib

/-- openggcm.py:881: the cell a plane is in; `np.argmin` of nothing raises ValueError -/
def planeCell (cc : List ℚ) (loc : ℚ) : Except Err Nat :=
  match cc.map fun c => |c - loc| with
  | [] => .error .value
  | x :: xs => .ok (argminFrom xs 1 x 0)

end Viscid.GgcmFile
