import Verif.Model.Basic
/-!
# Model of values of parameters in log files: `viscid/readers/ggcm_logfile.py` `_parse_value`, `_parse_param`

Texts are lists of characters; blanks, digits and letters are those of ASCII. `float(s)` is a parameter, as are the text of a float and the float of an
integer (rounding is not modelled), and integers are not limited to 64 bits in arrays.
-/
namespace Viscid.LogValue

abbrev Text := List Char

def isSpace (c : Char) : Bool := c = ' ' || c = '\t' || c = '\n' || c = '\r' || c = '\x0b' || c = '\x0c'
def isDigit (c : Char) : Bool := '0' ≤ c && c ≤ '9'
def isLetter (c : Char) : Bool := ('a' ≤ c && c ≤ 'z') || ('A' ≤ c && c ≤ 'Z')

/-- `str.strip()` -/
def strip (s : Text) : Text := ((s.dropWhile isSpace).reverse.dropWhile isSpace).reverse

/-- `str.split(sep)` for one character -/
def split (sep : Char) : Text → List Text
  | [] => [[]]
  | c :: cs =>
    if c = sep then [] :: split sep cs
    else match split sep cs with
      | [] => [[c]]
      | p :: ps => (c :: p) :: ps

/-- digits as a number -/
def natOf (s : Text) : Nat := s.foldl (fun n c => 10 * n + (c.toNat - '0'.toNat)) 0

/-- digits, with single underscores between some of them -/
def unsigned (s : Text) : Option Nat :=
  if (split '_' s).all (fun p => !p.isEmpty && p.all isDigit) then some (natOf (s.filter (· ≠ '_'))) else none

/-- Python's `int(s)`; `none` is ValueError -/
def intOf (s : Text) : Option Int :=
  match strip s with
  | '-' :: t => (unsigned t).map fun n : Nat => -(n : Int)
  | '+' :: t => (unsigned t).map fun n : Nat => (n : Int)
  | t => (unsigned t).map fun n : Nat => (n : Int)

/-- Parameters: floats -/
structure Floats (F : Type) where
  /-- Python's `float(s)`; `none` is ValueError -/
  float : Text → Option F
  ofInt : Int → F
  str : F → Text

/-- One entry of a list with commas -/
inductive Item (F : Type)
  | int (n : Int)
  | float (x : F)
  | text (s : Text)

/-- What `_parse_value` returns -/
inductive Value (F : Type)
  | int (n : Int)
  | float (x : F)
  /-- arrays of numpy, of integers, floats or texts -/
  | ints (l : List Int)
  | floats (l : List F)
  | texts (l : List Text)
  /-- list of texts -/
  | words (l : List Text)
  | text (s : Text)

/-- ggcm_logfile.py:126-132: `int`, else `float`, else the stripped text -/
def item (f : Floats F) (s : Text) : Item F :=
  match intOf s with
  | some n => .int n
  | none => match f.float s with
    | some x => .float x
    | none => .text (strip s)

/-- `str(n)` -/
def strInt (n : Int) : Text := (toString n).toList

/-- ggcm_logfile.py:133 `np.array(l)`: all texts if there is a text, all floats if there is a float -/
def array (f : Floats F) (l : List (Item F)) : Value F :=
  if l.any (fun | .text _ => true | _ => false) then
    .texts (l.map fun | .int n => strInt n | .float x => f.str x | .text s => s)
  else if l.any (fun | .float _ => true | _ => false) then
    .floats (l.filterMap fun | .int n => some (f.ofInt n) | .float x => some x | .text _ => none)
  else .ints (l.filterMap fun | .int n => some n | _ => none)

def optMinus : Text → Text
  | '-' :: t => t
  | t => t

def numChar (c : Char) : Bool := isDigit c || c = '.'
def wordChar (c : Char) : Bool := isLetter c || isDigit c || c = '.' || c = '-'

/-- ggcm_logfile.py:124 `re.match(r"\-?[\d\.]+(\s*,\s*\-?[\d\.]+)+", s)`: is there a match at the start? -/
def looksList (s : Text) : Bool :=
  let s := optMinus s
  !(s.takeWhile numChar).isEmpty &&
  match (s.dropWhile numChar).dropWhile isSpace with
  | ',' :: t => match optMinus (t.dropWhile isSpace) with
    | c :: _ => numChar c
    | [] => false
  | _ => false

/-- ggcm_logfile.py:134 `re.match(r"[A-Za-z\d\.\-]+(\s*:\s*[A-Za-z\d\.\-]+)+", s)` -/
def looksWords (s : Text) : Bool :=
  !(s.takeWhile wordChar).isEmpty &&
  match (s.dropWhile wordChar).dropWhile isSpace with
  | ':' :: t => match t.dropWhile isSpace with
    | c :: _ => wordChar c
    | [] => false
  | _ => false

/-- ggcm_logfile.py:103-137 `_parse_value` -/
def parseValue (f : Floats F) (s : Text) : Value F :=
  match intOf s with
  | some n => .int n
  | none => match f.float s with
    | some x => .float x
    | none =>
      let s := strip s
      if looksList s then array f ((split ',' s).map (item f))
      else if looksWords s then .words (split ':' s)
      else .text s

/-- ggcm_logfile.py:139-153 `_parse_param`; `none` is ValueError (of unpacking a list of another length than two) -/
def parseParam (f : Floats F) (s : Text) : Option (Text × Value F) :=
  match (split '|' s).map strip with
  | [key, val] => some (key, parseValue f val)
  | _ => none

end Viscid.LogValue
