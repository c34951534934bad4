import Verif.Model.LogValue
import Mathlib.Data.Rat.Floor
/-!
# Model of the command line tool `scripts/viscid_ts` and of `viscid.vutil.common_argparse`

Texts are lists of characters. argparse calls the actions of options in the order of the command line; that, and its
own errors (unknown options), are not modelled. Values of fields are exact numbers. Drawing is not modelled beyond
which numbers and labels are drawn, with which options.
-/
namespace Viscid.TsTool
open Viscid.LogValue (split)

abbrev Text := List Char

/-- one entry of `args.plot_vars` -/
structure Var where
  text : Text
  opts : Text
deriving DecidableEq

/-- the part of the namespace of argparse that the two actions change -/
structure Args where
  plotVars : Option (List Var) := none
  globalPopts : Option Text := none
deriving DecidableEq

/-- the options `-p` and `-o` -/
inductive Opt
  | var (t : Text)
  | popts (t : Text)
deriving DecidableEq

/-- viscid_ts:22-36 `AddPlotOpts.__call__` and `AddPlotVar.__call__`; `none` is IndexError of `dst[-1]`. -/
def act (a : Args) : Opt → Option Args
  | .var t => some { a with plotVars := some (a.plotVars.getD [] ++ [⟨t, []⟩]) }
  | .popts o => match a.plotVars with
    | none => some { a with globalPopts := some o }
    | some l => match l.getLast? with
      | none => none
      | some v => some { a with plotVars := some (l.dropLast ++ [{ v with opts := o }]) }

/-- the options of a command line, in order -/
def parse : Args → List Opt → Option Args
  | a, [] => some a
  | a, o :: os => (act a o).bind fun a => parse a os

/-- viscid_ts:74-76 the variables to plot -/
def vars (a : Args) : List Var :=
  match a.plotVars with
  | none => [⟨"pp,x=8.0f,y=0.0f,z=0.0f".toList, []⟩, ⟨"by,x=8.0f,y=0.0f,z=0.0f".toList, []⟩]
  | some l => l

/-- `sep.join(l)` -/
def join (sep : Char) : List Text → Text
  | [] => []
  | [p] => p
  | p :: ps => p ++ sep :: join sep ps

/-- viscid_ts:90-96: name, slice and equation of a variable -/
def parts (v : Text) : Text × Text × Text :=
  let (name, slc) := if ',' ∈ v then ((split ',' v).headD [], join ',' ((split ',' v).drop 1)) else (v, [])
  if '=' ∈ name then ((split '=' name).headD [], slc, '=' :: join '=' ((split '=' name).drop 1)) else (name, slc, [])

/-- viscid_ts:111-116: the slice of a variable, with that of all (`--slice`) -/
def whole (all : Option Text) (slc : Text) : Option Text :=
  if all.getD [] ≠ [] ∧ slc ≠ [] then some (all.getD [] ++ ',' :: slc)
  else if slc ≠ [] then some slc
  else all

inductive Exc (E : Type)
  | value      -- ValueError: no times
  | runtime    -- RuntimeError: not one value
  | attribute  -- AttributeError
  | other (e : E)
deriving DecidableEq

/-- the kinds of arrays of times -/
inductive Kind
  | int
  | float
deriving DecidableEq

/-- a number put in an array of a kind: fractions are cut off in arrays of integers -/
def put : Kind → ℚ → ℚ
  | .float, x => x
  | .int, x => if 0 ≤ x then (⌊x⌋ : ℚ) else (⌈x⌉ : ℚ)

/-- What the tool uses of a grid: the long name of a field (`grid[name].blocks[0].pretty_name`) and the values of
`get_field(name, slc=slc)` -/
structure Grid (E : Type) where
  pretty : Text → Except (Exc E) Text
  get : Text → Option Text → Except (Exc E) (List ℚ)

/-- viscid_ts:98-109: the label of a variable -/
def label (g : Grid E) (v : Text) : Except (Exc E) Text :=
  let p := parts v
  if p.2.2 ≠ [] then .ok p.1
  else match g.pretty p.1 with
    | .ok t => .ok t
    | .error .attribute => .ok p.1
    | .error e => .error e

/-- viscid_ts:111-124: the value of a variable of one grid -/
def value (g : Grid E) (all : Option Text) (kind : Kind) (v : Text) : Except (Exc E) ℚ :=
  let p := parts v
  match g.get (p.1 ++ p.2.2) (whole all p.2.1) with
  | .error e => .error e
  | .ok [x] => .ok (put kind x)
  | .ok _ => .error .runtime

/-- viscid_ts:89-124 the loop over variables for the first grid: labels and values -/
def firstRow (g : Grid E) (all : Option Text) (kind : Kind) : List Text → Except (Exc E) (List (Text × ℚ))
  | [] => .ok []
  | v :: vs => do
    let l ← label g v
    let x ← value g all kind v
    let r ← firstRow g all kind vs
    .ok ((l, x) :: r)

/-- viscid_ts:89-124 the loop over variables for a later grid -/
def row (g : Grid E) (all : Option Text) (kind : Kind) : List Text → Except (Exc E) (List ℚ)
  | [] => .ok []
  | v :: vs => do
    let x ← value g all kind v
    let r ← row g all kind vs
    .ok (x :: r)

/-- viscid_ts:88-124 the loop over later grids -/
def rows (all : Option Text) (kind : Kind) (vs : List Text) : List (Grid E) → Except (Exc E) (List (List ℚ))
  | [] => .ok []
  | g :: gs => do
    let r ← row g all kind vs
    let rs ← rows all kind vs gs
    .ok (r :: rs)

/-- viscid_ts:82-124: the labels and the time series, `plot_names` and `plot_arrs`. The arrays are made by
`np.zeros_like(t)`: they have the kind of the times. -/
def series (grids : List (Grid E)) (kind : Kind) (all : Option Text) (vs : List Text) : Except (Exc E) (List (Text × List ℚ)) :=
  match grids with
  | [] => .error .value
  | g :: gs => do
    let r ← firstRow g all kind vs
    let rs ← rows all kind vs gs
    .ok (r.zipIdx.map fun c => (c.1.1, c.1.2 :: rs.map fun r => r.getD c.2 0))

/-- viscid_ts:78-79, 174-177: where the plot goes -/
inductive Output
  | shown
  | saved (file : Text)
deriving DecidableEq

/-- viscid_ts:78-79, 174-177 -/
def output (pre : Option Text) (format : Text) (show' : Bool) : Output :=
  let sh := match pre with
    | none => true
    | some _ => show'
  if sh then .shown else .saved (pre.getD "None".toList ++ '.' :: format)

/-- viscid/vutil.py:92-97 `common_argparse`: the level of the logger, after `v` times `-v` and `q` times `-q`.
`levels` are the attributes of the module logging, `none` of the result is AttributeError. `log` is in upper case. -/
def level (levels : Text → Option Int) (log : Option Text) (verb v q : Nat) : Option Int :=
  match log with
  | some l => levels l
  | none => some (30 - 10 * (((verb + v : Nat) : Int) - (q : Int)))

end Viscid.TsTool
