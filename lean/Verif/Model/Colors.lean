import Verif.Model.Streamline
import Mathlib.Data.Rat.Defs
/-!
# Model of colours: texts in `viscid/vutil.py` (lines 238-288, 425-440), topologies in `viscid/calculator/topology.py`

Names of colours go to matplotlib, which is a parameter: its answer is written as #rrggbbaa (lines 276-279). Texts are of ASCII
characters.
-/
namespace Viscid.Colors

abbrev Text := List Char

inductive Err
  | value
  | notImplemented
  | lookup
  | type
deriving DecidableEq, Repr

/-- [0-9a-fA-F] -/
def isHex (c : Char) : Bool :=
  ('0' ≤ c && c ≤ '9') || ('a' ≤ c && c ≤ 'f') || ('A' ≤ c && c ≤ 'F')

/-- `re.match("#[0-9a-fA-F]{n,...}", s)`: at the beginning, with anything after it -/
def hashHex (n : Nat) : Text → Bool
  | '#' :: s => decide (n ≤ (s.takeWhile isHex).length)
  | _ => false

/-- vutil.py:260-280, for one text -/
def asHex (named : Text → Text) (s : Text) : Text :=
  if hashHex 6 s then s
  else if hashHex 3 s then '#' :: s.tail.flatMap fun c => [c, c]
  else named s

/-- `str.ljust(9, 'f')` -/
def ljust (s : Text) : Text := s ++ List.replicate (9 - s.length) 'f'

/-- vutil.py:246-288 `_string_colors_as_hex` -/
def stringColors (named : Text → Text) (l : List Text) : List Text :=
  let l := if l.all (hashHex 6) then l else l.map (asHex named)
  if l.any fun s => s.length = 9 then l.map ljust else l

/-- the value of a digit, as `bytes.fromhex` reads it -/
def hexVal (c : Char) : Option Nat :=
  if '0' ≤ c ∧ c ≤ '9' then some (c.toNat - 48)
  else if 'a' ≤ c ∧ c ≤ 'f' then some (c.toNat - 87)
  else if 'A' ≤ c ∧ c ≤ 'F' then some (c.toNat - 55)
  else none

/-- vutil.py:238-244 `_hexchar2int`, for one text of an even number of characters: two characters for each byte -/
def decode : Text → Except Err (List Nat)
  | [] => .ok []
  | [_] => .error .value
  | a :: b :: s =>
    match hexVal a, hexVal b, decode s with
    | some x, some y, .ok r => .ok ((16 * x + y) :: r)
    | _, _, _ => .error .value

/-- vutil.py:425-440: the bytes of the colours, a list for each text -/
def bytes (l : List Text) : Except Err (List (List Nat)) :=
  let l := l.map fun s => s.dropWhile (· = '#')
  if l.isEmpty then .error .value                         -- np.min
  else if l.all fun s => s.length = 8 then l.mapM decode
  else if l.all fun s => s.length = 6 then l.mapM decode
  else .error .notImplemented

/-- `prepare_lines` with texts for colours -/
def colors (named : Text → Text) (l : List Text) : Except Err (List (List Nat)) := bytes (stringColors named l)

/-! ### topologies -/

abbrev Rgb := ℚ × ℚ × ℚ

/-- topology.py:19-23 -/
def msphere : List (Int × Rgb) :=
  [(Streamline.TOPOLOGY_MS_CLOSED, (0, 4/5, 0)), (Streamline.TOPOLOGY_MS_OPEN_NORTH, (0, 0, 7/10)),
   (Streamline.TOPOLOGY_MS_OPEN_SOUTH, (7/10, 0, 0)), (Streamline.TOPOLOGY_MS_SW, (7/10, 7/10, 7/10))]

/-- `mapping[topo]` -/
def get (mapping : List (Int × Rgb)) (t : Int) : Option Rgb := (mapping.find? fun kv => kv.1 = t).map (·.2)

inductive Style
  | dict (m : List (Int × Rgb))
  | msphere
  | other

/-- topology.py:44-49 -/
def mappingOf : Style → List (Int × Rgb)
  | .dict m => m
  | .msphere => msphere
  | .other => []

/-- topology.py:51-52 -/
def badOf (bad : Option Rgb) : Rgb := bad.getD (0, 0, 0)

inductive Topo
  | one (t : Int)
  | many (l : List Int)

inductive Result
  | one (c : Rgb)
  | many (l : List Rgb)
deriving DecidableEq

/-- topology.py:29-70 `topology2color`: a field is its values, one after the other -/
def topology2color (t : Topo) (style : Style) (bad : Option Rgb) : Result :=
  match t with
  | .many l => .many (l.map fun t => match get (mappingOf style) t with | some c => c | none => badOf bad)
  | .one t => match get (mappingOf style) t with | some c => .one c | none => .one (badOf bad)

end Viscid.Colors
