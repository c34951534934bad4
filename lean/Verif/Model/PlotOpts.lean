import Verif.Model.LogValue
import Verif.Model.AsCotr
/-!
# Model of plot options given as text: `viscid/plot/vpyplot.py` `plot_opts_to_kwargs`, `_pop_axis_opts`, `viscid/pyeval.py` `parse`

Texts are lists of characters; names are ASCII. What python's parser makes of an expression that is not just one name, and yaml, are parameters.
-/
namespace Viscid.PlotOpts
open Viscid.LogValue

inductive Err
  | syntax
  | pyeval
  | index
  | attr
deriving DecidableEq

/-- A value of python: texts, booleans and None, and everything else -/
inductive Atom (V : Type)
  | text (s : Text)
  | bool (b : Bool)
  | none
  | other (x : V)

inductive Val (V : Type)
  | one (a : Atom V)
  | list (l : List (Atom V))

/-- A dict of options -/
abbrev Kw (V : Type) := Text → Option (Val V)

def Kw.put (kw : Kw V) (k : Text) (v : Val V) : Kw V := fun x => if x = k then some v else kw x

structure World (V : Type) where
  /-- pyeval.py:41-46 `ast.literal_eval` of an expression that is not one name (names in it become texts) -/
  expr : Text → Except Err (Atom V)
  /-- `yaml.safe_load`: keys, with None for those without a value -/
  yaml : Text → Except Err (List (Text × Atom V))

def isName : Text → Bool
  | [] => false
  | c :: cs => (isLetter c || c = '_') && cs.all fun c => isLetter c || isDigit c || c = '_'

/-- the words of python that are no names (other than True, False and None) -/
def keywords : List Text := ["and", "as", "assert", "async", "await", "break", "class", "continue", "def", "del", "elif", "else", "except", "finally", "for",
  "from", "global", "if", "import", "in", "is", "lambda", "nonlocal", "not", "or", "pass", "raise", "return", "try", "while", "with", "yield"].map String.toList

/-- pyeval.py:20-46 `parse` -/
def parse (w : World V) (s : Text) : Except Err (Atom V) :=
  let t := strip s
  if isName t then
    if t ∈ keywords then .error .syntax
    else
      let l := t.map Char.toLower
      if l = "true".toList then .ok (.bool true)
      else if l = "false".toList then .ok (.bool false)
      else if l = "none".toList then .ok .none
      else .ok (.text t)
  else w.expr t

/-- `"_".join(l)`; `none` is TypeError (not all are texts) -/
def join : List (Atom V) → Option Text
  | [] => some []
  | [.text s] => some s
  | .text s :: l => (join l).map fun t => s ++ '_' :: t
  | _ => none

/-- vpyplot.py:157-177: one option; `none` if it is blank -/
def option (w : World V) (o : Text) : Except Err (Option (Text × Val V)) :=
  match split '_' (o.map fun c => if c = '=' then '_' else c) with
  | [] => .ok none
  | k :: vs => do
    let k := strip k
    let vs ← vs.mapM (parse w)
    match vs with
    | [] => return if k = [] then none else some (k, .one (.bool true))
    | [v] => return some (k, .one v)
    | vs => return some (k, .list (match join vs with
        -- `opt[1:] = "_".join(opt[1:])`: a text is assigned to a part of a list
        | some s => s.map fun c => .text [c]
        | none => vs))

/-- `for opt in plot_opts` -/
def options (w : World V) : List Text → Kw V → Except Err (Kw V)
  | [], kw => .ok kw
  | o :: os, kw => do
    match ← option w o with
    | none => options w os kw
    | some (k, v) => options w os (kw.put k v)

def Atom.isNone : Atom V → Bool
  | .none => true
  | _ => false

/-- vpyplot.py:123-178 `plot_opts_to_kwargs` -/
def toKwargs (w : World V) (s : Text) (kw : Kw V) : Except Err (Kw V) :=
  if s = [] then .ok kw
  else
    let s := strip s
    match s.head?, s.getLast? with
    | some a, some b =>
      if a = '{' ∧ b = '}' then do
        let d ← w.yaml s
        return d.foldl (fun kw p => kw.put p.1 (.one (if p.2.isNone then .bool true else p.2))) kw
      else options w (split ',' s) kw
    | _, _ => .error .index

/-- `axis` in the options: None, a text, or something else -/
inductive AxisVal
  | none
  | text (s : Text)
  | other

/-- vpyplot.py:180-200 `_pop_axis_opts`: `equalaxis` (if given, whether it is true), `axis` (if given) and the default; the axis, and whether it is the default -/
def popAxis (equalaxis : Option Bool) (axis : Option AxisVal) (default : AxisVal) : Except Err (Option Text × Bool) :=
  let axis := match equalaxis with
    | none => axis
    | some true => some (.text "equal".toList)
    | some false => some (.text "none".toList)
  match axis.getD default with
  | .none => .ok (none, axis.isNone)
  | .other => .error .attr
  | .text s =>
    let s := AsCotr.clean s
    .ok (if s = "none".toList ∨ s = [] then none else some s, axis.isNone)

end Viscid.PlotOpts
