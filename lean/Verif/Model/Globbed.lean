import Verif.Model.Select
import Verif.Spec.Slice
import Mathlib.Data.List.Sort
/-!
# Model of `viscid/vutil.py`: `slice_globbed_filenames`, for patterns with a slice

What `glob` finds, and the regular expression that finds what is in the place of the slice in a name, are not modelled: a file is a name
and the number that its text is, if it is one (`float` raises ValueError otherwise). Numbers are rational. Of the regular expression for
slices it is modelled which parts between colons may be missing, but not how numbers are written. Not modelled: nan as a number, dates and
times in slices, and patterns with more than one slice.
-/
namespace Viscid.Globbed
open Viscid.Select Viscid.Spec.Slice

structure File where
  name : String
  num : Option ℚ
deriving DecidableEq, Repr

inductive Err
  | io
  | index
  | value
deriving DecidableEq, Repr

/-- the slice, standardised (`standardize_sel`) -/
inductive Sel
  | index (i : Int)
  | value (v : ℚ)
  | slice (start stop : Bound) (step : Option Int)
deriving DecidableEq, Repr

/-- vutil.py:581-590: only files with numbers -/
def numbered (files : List File) : List (String × ℚ) := files.filterMap fun f => f.num.map fun x => (f.name, x)

/-- vutil.py:591-592: sorted by their numbers (`sorted` is stable) -/
def sorted (files : List File) : List (String × ℚ) := (numbered files).insertionSort fun a b => a.2 ≤ b.2

/-- `range(n)[slice]`, of numpy; with a step of zero, a ValueError -/
def positions (n : Nat) (s : FwdSlice.Slc) : Except Err (List Int) :=
  if s.step = some 0 then .error .value else .ok (pyIndices n s.start s.stop (s.step.getD 1))

/-- vutil.py:594-601: positions selected -/
def whitelist (times : List ℚ) : Sel → Except Err (List Int)
  | .index i =>
    if 0 ≤ i ∧ i < times.length then .ok [i]
    else if i < 0 ∧ - (times.length : Int) ≤ i then .ok [i + times.length]
    else .error .index
  | .value v =>
    match selValue times v with
    | .error _ => .error .index
    | .ok i => .ok [(i : Int)]
  | .slice a b s =>
    match selSlice times true a b s with
    | .error _ => .error .index
    | .ok slc => positions times.length slc

/-- vutil.py:521-605 `slice_globbed_filenames` of the files found with `*` in the place of the slice -/
def sliceGlobbed (files : List File) (sel : Sel) : Except Err (List String) :=
  if files = [] then .error .io
  else
    let s := sorted files
    match whitelist (s.map Prod.snd) sel with
    | .error e => .error e
    | .ok idx => .ok (((List.range s.length).filter fun (i : Nat) => decide ((i : Int) ∈ idx)).filterMap fun i => (s.map Prod.fst)[i]?)

/-- what is between the colons of a pattern in brackets: nothing, an integer or another number (with `j` or `f`) -/
inductive Part
  | empty
  | idx (i : Int)
  | val (v : ℚ)
deriving DecidableEq, Repr

def toBound : Part → Bound
  | .empty => .none
  | .idx i => .idx i
  | .val v => .val v

/-- vutil.py:556-560: `[(el)?(:el)?(:[-+]?[0-9]*)?]`. The third part may be there without the second only if there is no colon between -/
def recognised : List Part → Bool
  | [_] => true
  | [_, _] => true
  | [_, .empty, _] => false
  | [_, _, .val _] => false
  | [_, _, _] => true
  | _ => false

/-- vutil.py:594 `standardize_sel` of the text of the slice (sliceutil.py: `sel[0]` of an empty text is an IndexError) -/
def standard : List Part → Except Err Sel
  | [.empty] => .error .index
  | [.idx i] => .ok (.index i)
  | [.val v] => .ok (.value v)
  | [a, b] => .ok (.slice (toBound a) (toBound b) none)
  | [a, b, .idx c] => .ok (.slice (toBound a) (toBound b) (some c))
  | [a, b, _] => .ok (.slice (toBound a) (toBound b) none)
  | _ => .error .value

/-- vutil.py:521-605 for a pattern with brackets: `files` are found with `*` in their place, `plain` with the pattern as it is -/
def expand (plain : List String) (files : List File) (parts : List Part) : Except Err (List String) :=
  if recognised parts then
    if files = [] then .error .io
    else
      match standard parts with
      | .error e => .error e
      | .ok sel => sliceGlobbed files sel
  else .ok plain

end Viscid.Globbed
