import Verif.Model.Basic
/-!
# Model of `viscid/readers/ggcm_logfile.py`

Lines are strings that have been stripped. How a line is taken apart is a parameter: `_parse_param` (with `_parse_value`), the two regular
expressions and the test for a time step. Not modelled: opening the file, and `unload`.
-/
namespace Viscid.LogFile

inductive Err
  | stop
  | type
deriving DecidableEq, Repr

/-- Parameters: what the code finds in a line -/
structure Syntax (V : Type) where
  /-- ggcm_logfile.py:141-153 `_parse_param`: `none` if there is not exactly one '|' -/
  param : String → Option (String × V)
  /-- ggcm_logfile.py:73, a line "---+--- type -- t" -/
  typ : String → Option String
  /-- ggcm_logfile.py:81-82, a line "==== class == c" -/
  cls : String → Option String
  /-- ggcm_logfile.py:59-60, a line of a time step (begins with 'cp=' or 'step=') -/
  step : String → Bool
  /-- a string as a value -/
  str : String → V

/-- ggcm_logfile.py:43-49 -/
def watchedClasses : List String :=
  ["ggcm_mhd", "mrc_domain", "mrc_crds", "ggcm_mhd_ic", "ggcm_dipole", "ggcm_mhd_step", "ggcm_mhd_fld"]

/-- ggcm_logfile.py:54, the dictionary `_info`. Simplified: a list of all assignments, of which the last one to a key counts. -/
abbrev Info (V : Type) := List (String × V)

/-- ggcm_logfile.py:62-93, the loop over lines. `skip` lines are still to be ignored with `next`, which raises StopIteration at
    the end. -/
def loop (x : Syntax V) : List String → Option String → Nat → Info V → Except Err (Info V)
  | [], _, skip, info => if skip = 0 then .ok info else .error .stop
  | _ :: ls, armed, skip + 1, info => loop x ls armed skip info
  | l :: ls, some c, 0, info =>
    match x.param l with
    | some (k, v) => loop x ls (some c) 0 (info ++ [(c ++ "_" ++ k, v)])
    | none =>
      match x.typ l with
      | some t => loop x ls (some c) 0 (info ++ [(c ++ "_type", x.str t)])
      | none => loop x ls (if l = "" then none else some c) 0 info
  | l :: ls, none, 0, info =>
    match x.cls l with
    | some c => if c ∈ watchedClasses then loop x ls (some c) 2 info else loop x ls none 0 info
    | none => loop x ls none 0 info

/-- ggcm_logfile.py:53-93: the loop, up to the first time step (line 61) -/
def parseView (x : Syntax V) (lines : List String) : Except Err (Info V) :=
  loop x (lines.takeWhile fun l => !x.step l) none 0 []

/-- looking up a key in `_info` (line 96) -/
def Info.get (i : Info V) (k : String) : Option V := (i.reverse.find? fun p => p.1 = k).map (·.2)

/-- ggcm_logfile.py:18-27 -/
def mhdTypes : List String :=
  ["MT_PRIMITIVE", "MT_SEMI_CONSERVATIVE_GGCM", "MT_SEMI_CONSERVATIVE", "MT_FULLY_CONSERVATIVE", "MT_FULLY_CONSERVATIVE_CC", "MT_GKEYLL"]

/-- ggcm_logfile.py:95-99: the name of a type. Python's indices may be negative; an index that is no integer raises
    TypeError, which is not caught. `int` is the integer a value
    is, if it is one. -/
def mhdTypeStr (int : V → Option Int) (v : Option V) : Except Err String :=
  match v with
  | none => .ok "UNKNOWN"
  | some v =>
    match int v with
    | none => .error .type
    | some i =>
      if 0 ≤ i ∧ i < 6 then .ok (mhdTypes.getD i.toNat "")
      else if -6 ≤ i ∧ i < 0 then .ok (mhdTypes.getD (i + 6).toNat "")
      else .ok "UNKNOWN"

/-- ggcm_logfile.py:53-101 `_parse`, whose result is `self.info` -/
def parse (x : Syntax V) (int : V → Option Int) (lines : List String) : Except Err (Info V) :=
  match parseView x lines with
  | .error e => .error e
  | .ok info =>
    match mhdTypeStr int (info.get "ggcm_mhd_fld_mhd_type") with
    | .error e => .error e
    | .ok s => .ok (info ++ [("ggcm_mhd_fld_mhd_type_str", x.str s)])

end Viscid.LogFile
