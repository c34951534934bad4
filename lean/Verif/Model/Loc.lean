import Verif.Model.FillSel
import Mathlib.Data.Rat.Defs
/-!
# Model of `viscid/field.py`: `Field.loc` and `Field.iloc` (`_FldSlcProxy`, lines 404-468)

Items are numbers, lists of numbers, slices, Ellipsis and newaxis. Not modelled: texts (which are rewritten by regular expressions),
arrays, times, and that a list of numbers that are not whole is refused as an index later.
-/
namespace Viscid.Loc
open Viscid.FillSel

/-- A Python number: real, or imaginary (`1j * q`) -/
inductive Num
  | real (q : ℚ)
  | imag (q : ℚ)
deriving DecidableEq, Repr

inductive Err
  | type
  | sel (e : FillSel.Err)
deriving DecidableEq, Repr

/-- What may be between the brackets, separated by commas -/
inductive Item
  | ellipsis
  | newax
  | num (x : Num)
  | list (l : List Num)
  | slc (start stop : Option Num) (step : Option Int)
deriving DecidableEq, Repr

/-- What a field is selected by, on one axis -/
inductive Sel
  | one (x : Num)
  | many (l : List Num)
  | slc (start stop : Option Num) (step : Option Int)
deriving DecidableEq, Repr

/-- `1j * float(x)`: `float` of an imaginary number is a TypeError -/
def float1 : Num → Except Err Num
  | .real q => .ok (.imag q)
  | .imag _ => .error .type

/-- field.py:434-440: a list, one by one, in place: the list of the caller as it is afterwards, and whether that ended in an error -/
def floatList : List Num → List Num × Option Err
  | [] => ([], none)
  | x :: l =>
    match float1 x with
    | .error e => (x :: l, some e)
    | .ok y => let (l', e) := floatList l; (y :: l', e)

/-- field.py:425-444 for a number or None -/
def floatOpt (fl : Bool) : Option Num → Except Err (Option Num)
  | none => .ok none
  | some x => if fl then (float1 x).map some else .ok (some x)

/-- field.py:410-444 `_floatify`, and lines 450-457 of `_xform` -/
def floatify (fl : Bool) : Item → Except Err (Kind Sel)
  | .ellipsis => .ok .ellipsis
  | .newax => .ok .newax
  | .num x => if fl then (float1 x).map fun y => .sel (.one y) else .ok (.sel (.one x))
  | .list l =>
    if fl then
      match floatList l with
      | (l', none) => .ok (.sel (.many l'))
      | (_, some e) => .error e
    else .ok (.sel (.many l))
  | .slc a b s => do
    let a ← floatOpt fl a
    let b ← floatOpt fl b
    return .sel (.slc a b s)

/-- `slice(None)` -/
def full : Sel := .slc none none none

/-- field.py:446-462 `_xform`: `comp` is the axis of components, if there are any -/
def xform (fl : Bool) (comp : Option Nat) (its : List Item) : Except Err (List (Entry String Sel)) := do
  let sel ← its.mapM (floatify fl)
  let sel := match comp with
    | some c => if sel.length ≥ c then sel.take c ++ Kind.sel full :: sel.drop c else sel
    | none => sel
  return sel.map fun k => ⟨none, k⟩

/-- field.py:664-680 `nr_comp`: the axis of the components of an array -/
inductive Layout
  | scalar
  | flat
  | interlaced
deriving DecidableEq, Repr

def compAxis (n : Nat) : Layout → Option Nat
  | .scalar => none
  | .flat => some 0
  | .interlaced => some n

/-- field.py:464-465, 1087-1095 and 1279-1297: the axes selected from and what from each. Selections without texts have no component in them
    (sliceutil.py:42-63), so all go to the spatial axes. -/
def getitem (fl : Bool) (lay : Layout) (ax : List String) (its : List Item) : Except Err (List (Row String Sel)) := do
  let es ← xform fl (compAxis ax.length lay) its
  match fill full (fun k => s!"new-x{k}") ax es with
  | .ok r => return r
  | .error e => .error (.sel e)

end Viscid.Loc
