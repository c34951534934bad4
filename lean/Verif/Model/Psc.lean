import Mathlib.Analysis.SpecialFunctions.Pow.Real
/-!
# Model of `viscid/readers/psc.py`: names of files and fields of PSC runs

Real numbers instead of floats; not-a-number is `none`.
-/
namespace Viscid.Psc

/-- `\s` of ASCII text -/
def isSpace (c : Char) : Bool := c == ' ' || c == '\t' || c == '\n' || c == '\r' || c.toNat == 11 || c.toNat == 12

/-- psc.py:74, the end of the pattern: `\.xdmf`, and nothing is asked of what follows -/
def ext (s : List Char) : Bool := ['.', 'x', 'd', 'm', 'f'].isPrefixOf s

/-- psc.py:74: `fd(?:\.([0-9]{6}))?\.xdmf` -/
def tail : List Char → Bool
  | 'f' :: 'd' :: r =>
    (match r with
      | '.' :: r' => (r'.take 6).length == 6 && (r'.take 6).all Char.isDigit && ext (r'.drop 6)
      | _ => false) || ext r
  | _ => false

/-- psc.py:74: `(.*/)?(.*)` is any text on one line -/
def line : List Char → Bool
  | [] => tail []
  | c :: r => tail (c :: r) || (c != '\n' && line r)

/-- psc.py:74 and vfile.py:255: `re.match(r"^\s*(.*/)?(.*)fd(?:\.([0-9]{6}))?\.xdmf", fname)` -/
def detected : List Char → Bool
  | [] => line []
  | c :: r => line (c :: r) || (isSpace c && detected r)

/-- A format of the shape `[0][width][.precision]type` -/
structure Spec where
  width : List Char
  precision : Option (List Char)
  type : List Char

/-- how `format` reads it -/
def parse (s : List Char) : Spec :=
  let w := s.takeWhile Char.isDigit
  match s.dropWhile Char.isDigit with
  | '.' :: r => ⟨w, some (r.takeWhile Char.isDigit), r.dropWhile Char.isDigit⟩
  | r => ⟨w, none, r⟩

/-- What may be given as a step: an integer, a float, a text, or another object -/
inductive Step where
  | int (n : Int)
  | float
  | text
  | other
  deriving DecidableEq, Repr

inductive Err where
  | value | type
  deriving DecidableEq, Repr

/-- zeros up to the width, after the sign -/
def padded (n : Int) (width : Nat) : List Char :=
  let d := (toString n.natAbs).toList
  let sign := if n < 0 then ['-'] else []
  sign ++ List.replicate (width - sign.length - d.length) '0' ++ d

/-- `format(step, spec)` for a type `d`: `int.__format__` refuses a precision; `float` and `str` know no `d`; other objects no format at all.
    The width begins with 0. -/
def format (spec : Spec) (step : Step) : Except Err (List Char) :=
  match step with
  | .int n =>
    if spec.type = ['d'] then
      match spec.precision with
      | some _ => .error .value
      | none => .ok (padded n (String.ofList spec.width).toNat!)
    else .error .value
  | .float | .text => .error .value
  | .other => .error .type

/-- psc.py:109-110 `make_fname`: `"{0}/{1}fd.{2:.06d}.xdmf"` -/
def makeFname (path : List Char) (step : Step) (pfx : List Char) : Except Err (List Char) :=
  match format (parse ['.', '0', '6', 'd']) step with
  | .error e => .error e
  | .ok n => .ok (path ++ ['/'] ++ pfx ++ "fd.".toList ++ n ++ ".xdmf".toList)

/-- psc.py:102-107 `open_psc_file`, with the constructor of the file -/
def openPscFile (openFile : List Char → α) (path : List Char) (step : Step) (pfx : List Char) : Except Err α :=
  match makeFname path step pfx with
  | .error e => .error e
  | .ok n => .ok (openFile n)

/-- The components of a vector -/
inductive Names where
  | x | y | z
  deriving DecidableEq, Repr

/-- The letter of a component, psc.py:36 `comp_names="xyz"` -/
def Names.char : Names → Char
  | .x => 'x' | .y => 'y' | .z => 'z'

/-- psc.py:20-27 and grid.py:271-283: a component, from the file, or `_get_bx`, `_get_by`, `_get_bz`: that of h -/
def comp (file : List Char → Option α) (base : Char) (c : Names) : Option α :=
  match file [base, c.char] with
  | some v => some v
  | none => if base = 'b' then file ['h', c.char] else none

/-- psc.py:35-63 `_assemble_vector` with three components, of `_get_b`, `_get_h`, `_get_e` and `_get_j`, unless the file has the vector -/
def vector (file : List Char → Option α) (base : Char) : Option (α × α × α) :=
  match comp file base .x, comp file base .y, comp file base .z with
  | some x, some y, some z => some (x, y, z)
  | _, _, _ => none

noncomputable section

/-- `x**-.5`: infinite at 0, and not a number below -/
def invRoot (x : ℝ) : Option ℝ := if x ≤ 0 then none else some (x ^ (-(1 / 2) : ℝ))

/-- psc.py:29-32 `_get_epar`, at one point; a number times infinity is taken for not a number (it is one if the number is 0, and
    here it is) -/
def epar (ex ey ez hx hy hz : ℝ) : Option ℝ :=
  (invRoot (hx ^ 2 + hy ^ 2 + hz ^ 2)).map ((ex * hx + ey * hy + ez * hz) * ·)

end
end Viscid.Psc
