import Verif.Model.PMap
import Verif.Model.LogValue
import Verif.Model.TimeText
/-!
# Model of `viscid/multiplot.py`: `make_multiplot`, `_do_multiplot`

`make_multiplot` is modelled for any function that makes a picture; such a function may change the objects it is given, which are kept in a state of type σ.
What `_do_multiplot` asks matplotlib and the grid for is modelled as a list of panels; the pictures themselves, and exceptions while they are made, are not.
Texts are lists of characters.
-/
namespace Viscid.Multiplot
open Viscid.LogValue

inductive Err (E : Type)
  | value
  | type
  /-- UnboundLocalError -/
  | unbound
  | func (e : E)
deriving DecidableEq

/-! ## make_multiplot -/

/-- The arguments of one call of the function that makes a picture -/
structure Call (G R : Type) where
  tind : Nat
  grid : G
  firstRun : Bool
  firstResult : Option R

/-- What is given as `kwopts`: nothing, None, or a dict, with "subplot_params" in it or not -/
inductive Kwopts
  | missing
  | none
  | dict (subplot : Bool)
deriving DecidableEq

/-- Pictures made one after the other by one process, until one fails: the calls with the state each of them finds -/
def inTurn (f : Call G R → σ → Except E (Option R) × σ) : σ → List (Call G R) → List (Call G R × σ) × Option E
  | _, [] => ([], none)
  | s, c :: cs =>
    match f c s with
    | (.error e, _) => ([(c, s)], some e)
    | (.ok _, s') =>
      let r := inTurn f s' cs
      ((c, s) :: r.1, r.2)

/-- What was done: the calls, by process and part of the work, with the state each of them finds; and the exception -/
structure Done (G R σ E : Type) where
  calls : List (List (Call G R × σ))
  error : Option (Err E)

/-- multiplot.py:60-63 the calls for all but the first time: `enumerate` goes on, and the result of the first call is passed -/
def others (r : Option R) (ts : List G) : List (Call G R) := ts.zipIdx.map fun p => ⟨p.2 + 1, p.1, false, r⟩

/-- multiplot.py:15-63 `make_multiplot`, for the times `vfile.iter_times` gives (a new iterator each time). The first picture is made by this process, or by
    a subprocess if there are to be several (57-58), so that this process does not see what it changes. With several processes, the others are made in parts
    (see PMap.map), where each part is pickled at once: what is changed is seen by later calls in the same part. `done`: the order in which the parts finish. -/
def makeMultiplot (f : Call G R → σ → Except E (Option R) × σ) (s : σ) (kwopts : Kwopts) (procs : Int) (times : List G) (done : List Nat) : Done G R σ E :=
  match times with
  | [] => ⟨[], some .value⟩
  | t :: ts =>
    match kwopts with
    | .none => ⟨[], some .type⟩
    -- 56: nothing is assigned to r
    | .dict true => ⟨[], some .unbound⟩
    | _ =>
      let c : Call G R := ⟨0, t, true, none⟩
      match f c s with
      | (.error e, _) => ⟨[[(c, s)]], some (.func e)⟩
      | (.ok r, s') =>
        if procs ≤ 0 then ⟨[[(c, s)]], some .value⟩
        else if procs = 1 then
          let x := inTurn f s' (others r ts)
          ⟨[(c, s) :: x.1], x.2.map .func⟩
        else
          let cs := others r ts
          let size := PMap.chunkSize procs.toNat cs.length
          let part := fun i => inTurn f s (PMap.chunk size cs i)
          ⟨[(c, s)] :: (List.range (PMap.nrChunks size cs.length)).map fun i => (part i).1,
            (done.findSome? fun i => (part i).2).map .func⟩

/-! ## _do_multiplot -/

/-- One of `plot_vars`: the text, and "plot_opts" in the dict that comes with it: missing, None or a text -/
structure Var where
  name : Text
  opts : Option (Option Text)
deriving DecidableEq

/-- What is asked for: the number of rows and columns, the place, whether new axes are made, whether they share the limits of the first ones, the field, the
    selection (`none`: Ellipsis) and the plot options -/
structure Panel where
  rows : Nat
  cols : Nat
  row : Nat
  col : Nat
  fresh : Bool
  shared : Bool
  fld : Text
  slc : Option Text
  opts : Option Text
deriving DecidableEq

/-- `name.startswith('^')` -/
def hat (v : Var) : Bool := v.name.head? = some '^'

/-- `",".join(l)` -/
def commas : List Text → Text
  | [] => []
  | [p] => p
  | p :: ps => p ++ ',' :: commas ps

/-- multiplot.py:117-136 the name of the field and the selection -/
def nameSlc (selection : Option Text) (name : Text) : Text × Option Text :=
  let body := name.dropWhile (· = '^')
  let sp := split ',' body
  let x : Text × Text := if '=' ∈ sp.headD [] then (commas sp, []) else (sp.headD [], commas sp.tail)
  let slc := match selection with
    | none => x.2
    | some s => if x.2 ≠ [] then commas [x.2, s] else s
  (x.1, if strip slc = [] then none else some slc)

/-- multiplot.py:151-155 the new "plot_opts" -/
def addOpts (glob : Option Text) : Option (Option Text) → Option Text
  | none => glob
  | some p =>
    match glob with
    | none => p
    | some g => some ((p.getD "None".toList) ++ ',' :: g)

/-- multiplot.py:109-159 the loop; i: how many variables were there before, n: this_row + 1. The second result is what is left in plot_vars. -/
def loop (rows cols : Nat) (transpose share : Bool) (glob selection : Option Text) : Nat → Nat → List Var → Except (Err Empty) (List Panel × List Var)
  | _, _, [] => .ok ([], [])
  | i, n, v :: vs =>
    let n := if hat v then n else n + 1
    if n = 0 then .error .value
    else
      let x := nameSlc selection v.name
      let o := addOpts glob v.opts
      let p : Panel := ⟨rows, cols, if transpose then 0 else n - 1, if transpose then n - 1 else 0, !hat v, !hat v && share && i ≠ 0, x.1, x.2, o⟩
      match loop rows cols transpose share glob selection (i + 1) n vs with
      | .error e => .error e
      | .ok (ps, ws) => .ok (p :: ps, ⟨v.name, some o⟩ :: ws)

/-- multiplot.py:65-159 `_do_multiplot` up to the end of the loop: the panels and what is left in plot_vars -/
def panels (transpose share : Bool) (glob selection : Option Text) (vars : List Var) : Except (Err Empty) (List Panel × List Var) :=
  let nrows := (vars.filter fun v => !hat v).length
  if nrows = 0 then .ok ([], vars)
  else loop (if transpose then 1 else nrows) (if transpose then nrows else 1) transpose share glob selection 0 0 vars

/-- the same list of variables used for k more pictures by one process: what is left in plot_vars -/
def leftAfter (transpose share : Bool) (glob selection : Option Text) (vars : List Var) : Nat → List Var
  | 0 => vars
  | k + 1 =>
    match panels transpose share glob selection (leftAfter transpose share glob selection vars k) with
    | .ok (_, ws) => ws
    | .error _ => leftAfter transpose share glob selection vars k

/-- multiplot.py:164-169 the parameters the subplots are adjusted to -/
def subplotParams (given first : Option (List P)) : Option (List P) :=
  let truthy : Option (List P) → Bool := fun x => match x with
    | some (_ :: _) => true
    | _ => false
  if !truthy given && truthy first then first else given

/-- multiplot.py:176-177 the name of the file, if there is one -/
def fileName (pre : Option Text) (fmt : Text) (tind : Nat) : Option Text :=
  match pre with
  | some (c :: p) => some (c :: p ++ '_' :: (TimeText.zfill 6 (Nat.toDigits 10 (tind + 1)) ++ '.' :: fmt))
  | _ => none

end Viscid.Multiplot
