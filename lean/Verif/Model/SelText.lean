import Verif.Model.Basic
import Verif.Model.Grid
import Mathlib.Algebra.Order.Ring.Rat
/-!
# Model of `viscid/sliceutil.py`: selections given as text, and components in selections

Strings are lists of characters; `strip` and `lower` are those of ASCII. Python's `int`, `float` and `complex` of a string, arrays in
brackets and everything about times are parameters.
-/
namespace Viscid.SelText

inductive Err
  | index
  | value
  | type
  | assertion
deriving DecidableEq, Repr

/-- `s.strip()` -/
def strip (s : List Char) : List Char := Grid.strip s

/-- `s.strip().lower()` -/
def norm (s : List Char) : List Char := (strip s).map Char.toLower

/-! ### Components -/

/-- An element of a selection: text, or anything without `strip` -/
inductive Item (O : Type)
  | text (s : List Char)
  | other (o : O)
deriving DecidableEq, Repr

/-- field.py:33, 539, 2306-2318: the names of components are a string, or any other sequence -/
inductive Names
  | str (s : List Char)
  | seq (l : List (List Char))
deriving DecidableEq, Repr

/-- `hay.index(s)` of strings: where `s` is first found; `none` if it is not in `hay` -/
def findSub (s : List Char) : List Char → Option Nat
  | [] => if s = [] then some 0 else none
  | c :: h => if s.isPrefixOf (c :: h) then some 0 else (findSub s h).map (· + 1)

/-- `s in comp_names`, and `comp_names.index(s)` if so -/
def Names.index : Names → List Char → Option Nat
  | .str h, s => findSub s h
  | .seq l, s => l.findIdx? fun n => n = s

/-- sliceutil.py:48-58, the loop: where a component was found, and which. Text that names a second one raises IndexError, which is not
    caught. -/
def scan (names : Names) : Nat → List (Item O) → Option (Nat × Nat) → Except Err (Option (Nat × Nat))
  | _, [], acc => .ok acc
  | i, .other _ :: r, acc => scan names (i + 1) r acc
  | i, .text s :: r, acc =>
    match names.index (norm s) with
    | none => scan names (i + 1) r acc
    | some c => if acc.isSome then .error .index else scan names (i + 1) r (some (i, c))

/-- sliceutil.py:42-64 `prune_comp_sel`; `none` is `slice(None)` -/
def prune (names : Names) (sel : List (Item O)) : Except Err (List (Item O) × Option Nat) :=
  match scan names 0 sel none with
  | .error e => .error e
  | .ok none => .ok (sel, none)
  | .ok (some (i, c)) => .ok (sel.eraseIdx i, some c)

/-- field.py:1087-1095 `_prepare_slice`, from the list on -/
def prepare (scalar : Bool) (names : Names) (sel : List (Item O)) : Except Err (List (Item O) × Option Nat) :=
  match prune names sel with
  | .error e => .error e
  | .ok (l, c) => if scalar ∧ c ≠ none then .error .assertion else .ok (l, c)

/-! ### Splitting text -/

def isBrack (c : Char) : Bool := c == '[' || c == ']'

/-- sliceutil.py:17, 100 `\[[^\]]*\[[^\]]*\]` is found: before the next closing bracket another one opens -/
def multilevel : List Char → Bool
  | [] => false
  | c :: cs => (c == '[' && (cs.takeWhile (· != ']')).contains '[' && cs.contains ']') || multilevel cs

/-- sliceutil.py:18, 104: `re.sub(r"\[[^\[\]]+\]", ...)`, commas within brackets become '@' -/
def hide : List Char → List Char
  | [] => []
  | c :: cs =>
    let run := cs.takeWhile fun x => !isBrack x
    if c = '[' ∧ run ≠ [] ∧ (cs.drop run.length).head? = some ']' then
      '[' :: run.map (fun x => if x = ',' then '@' else x) ++ ']' :: hide (cs.drop (run.length + 1))
    else c :: hide cs
termination_by s => s.length
decreasing_by
  · simp only [List.length_drop, List.length_cons]; omega
  · simp

/-- `s.split(sep)` -/
def splitAt (sep : Char) : List Char → List (List Char)
  | [] => [[]]
  | c :: cs => if c = sep then [] :: splitAt sep cs else
    match splitAt sep cs with
    | [] => [[c]]
    | f :: fs => (c :: f) :: fs

/-- sliceutil.py:97-107 `raw_sel2sel_list` of a string -/
def rawText (s : List Char) : Except Err (List (List Char)) :=
  let s := s.map fun c => if c = '_' then ',' else c
  if multilevel s then .error .index
  else .ok ((splitAt ',' (hide s)).map fun p => p.map fun c => if c = '@' then ',' else c)

/-! ### Standard values -/

/-- Standard values (`np.newaxis` is `None`): times `T` and arrays `A` are not looked into -/
inductive Val (T A : Type)
  | none
  | bool (b : Bool)
  | ellipsis
  | int (i : Int)
  | cplx (re im : ℚ)
  | time (t : T)
  | arr (a : A)
deriving DecidableEq, Repr

/-- Values as given by the caller, if not as text -/
inductive Obj (T A : Type)
  | none
  | bool (b : Bool)
  | ellipsis
  | int (i : Int)
  | flt (q : ℚ)
  | cplx (re im : ℚ)
  | time (t : T)
  | arr (a : A)
deriving DecidableEq, Repr

/-- What Python, numpy and viscid.npdatetime make of text -/
structure Parsers (T A : Type) where
  int : List Char → Option Int
  flt : List Char → Option ℚ
  cplx : List Char → Option (ℚ × ℚ)
  /-- sliceutil.py:284-286 `_is_time_str` -/
  isTime : List Char → Bool
  /-- sliceutil.py:415-419 -/
  time : List Char → Except Err T
  /-- sliceutil.py:376-414, the text within brackets -/
  arr : List Char → Except Err A
  /-- sliceutil.py:289-290: times found in a slice, and the slice with '@' for each -/
  cut : List Char → List (List Char) × List Char
  /-- sliceutil.py:356-361: what is done to arrays that are no text -/
  stdArr : A → Except Err A

/-- `sel[0] == '[' and sel[-1] == ']'` of text that is not empty -/
def bracketed (s : List Char) : Bool := s.head? == some '[' && s.getLast? == some ']'

/-- sliceutil.py:364-433 `standardize_value` of a string -/
def stdText (p : Parsers T A) (s : List Char) : Except Err (Val T A) :=
  let s := norm s
  if s ∈ ["newaxis".toList, "numpy.newaxis".toList, "np.newaxis".toList] then .ok .none
  else if s ∈ ["none".toList, []] then .ok .none
  else if s = "true".toList then .ok (.bool true)
  else if s = "false".toList then .ok (.bool false)
  else if s ∈ ["...".toList, "ellipsis".toList] then .ok .ellipsis
  else if bracketed s then (p.arr (s.drop 1).dropLast).map .arr
  else if p.isTime s then (p.time s).map .time
  else match p.int s with
    | some i => .ok (.int i)
    | none =>
      if 'j' ∈ s ∨ 'f' ∈ s then
        match p.cplx (s.map fun c => if c = 'f' then 'j' else c) with
        | some z => .ok (.cplx z.1 z.2)
        | none => .error .value
      else match p.flt s with
        | some q => .ok (.cplx 0 q)
        | none => .error .value

/-- sliceutil.py:347-363, 434-437 `standardize_value` of anything else -/
def stdObj (p : Parsers T A) : Obj T A → Except Err (Val T A)
  | .none => .ok .none
  | .bool b => .ok (.bool b)
  | .ellipsis => .ok .ellipsis
  | .int i => .ok (.int i)
  | .flt q => .ok (.cplx 0 q)
  | .cplx re im => if re = 0 then .ok (.cplx re im) else .error .assertion
  | .time t => .ok (.time t)
  | .arr a => (p.stdArr a).map .arr

/-- A standard selection -/
inductive Std (T A : Type)
  | val (v : Val T A)
  | slc (start stop step : Val T A)
deriving DecidableEq, Repr

/-- sliceutil.py:292-293: `split_sel[split_sel.index('@')] = s`, which raises ValueError if there is none -/
def putBack : List (List Char) → List (List Char) → Except Err (List (List Char))
  | [], fs => .ok fs
  | t :: ts, fs =>
    match fs.findIdx? fun f => f = ['@'] with
    | none => .error .value
    | some i => putBack ts (fs.set i t)

/-- sliceutil.py:288-294 `_split_slice_str` -/
def splitSlice (p : Parsers T A) (s : List Char) : Except Err (List (List Char)) :=
  putBack (p.cut s).1 ((splitAt ':' (p.cut s).2).map strip)

/-- `[standardize_value(s) for s in l]` -/
def stdAll (p : Parsers T A) : List (List Char) → Except Err (List (Val T A))
  | [] => .ok []
  | s :: l =>
    match stdText p s with
    | .error e => .error e
    | .ok v => match stdAll p l with
      | .error e => .error e
      | .ok vs => .ok (v :: vs)

/-- sliceutil.py:314-315: the step is `None` or an integer (which a bool is) -/
def stepOk : Val T A → Bool
  | .none | .int _ | .bool _ => true
  | _ => false

/-- sliceutil.py:304-317 `standardize_sel` of a string. `sel[0]` of an empty one raises IndexError; `slice` takes one to three
    arguments. -/
def stdSelText (p : Parsers T A) (s : List Char) : Except Err (Std T A) :=
  let s := norm s
  if s = [] then .error .index
  else if bracketed s then (stdText p s).map .val
  else if ':' ∈ s then
    match splitSlice p s with
    | .error e => .error e
    | .ok fs =>
      match stdAll p fs with
      | .error e => .error e
      | .ok [a, b] => .ok (.slc a b .none)
      | .ok [a, b, c] => if stepOk c then .ok (.slc a b c) else .error .assertion
      | .ok _ => .error .type
  else (stdText p s).map .val

/-- sliceutil.py:318-322 `standardize_sel` of a slice: a step of `None` becomes 1 -/
def stdSelSlice (p : Parsers T A) (a b c : Obj T A) : Except Err (Std T A) :=
  match stdObj p a, stdObj p b, stdObj p c with
  | .ok a, .ok b, .ok .none => .ok (.slc a b (.int 1))
  | .ok a, .ok b, .ok c => .ok (.slc a b c)
  | .error e, _, _ => .error e
  | _, .error e, _ => .error e
  | _, _, .error e => .error e

/-- sliceutil.py:323-324 `standardize_sel` of anything else -/
def stdSelObj (p : Parsers T A) (o : Obj T A) : Except Err (Std T A) := (stdObj p o).map .val

end Viscid.SelText
