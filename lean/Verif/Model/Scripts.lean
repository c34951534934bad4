import Mathlib.Data.Rat.Floor
/-!
# Model of the command line tools `scripts/bitmaskbits`, `scripts/rgb2hex` and of `scripts/viscid_diff` up to where it compares

Texts are lists of characters; numbers on the command line are already read (`int(s, base=0)`, `float(s)`), and exact.
-/
namespace Viscid.Scripts

inductive Err
  | value
  | type
deriving DecidableEq

/-- `bin(n)` -/
def bin : Int → List Char
  | .ofNat n => '0' :: 'b' :: Nat.toDigits 2 n
  | .negSucc n => '-' :: '0' :: 'b' :: Nat.toDigits 2 (n + 1)

/-- `int(b)` of one character; `none` is ValueError -/
def digit (c : Char) : Option Nat := if '0' ≤ c ∧ c ≤ '9' then some (c.toNat - '0'.toNat) else none

/-- bitmaskbits:15-18: numbers of the bits that are on, from number `i` on -/
def onbits (i : Nat) : List Char → Except Err (List Nat)
  | [] => .ok []
  | c :: cs => match digit c with
    | none => .error .value
    | some 0 => onbits (i + 1) cs
    | some _ => (onbits (i + 1) cs).map (i :: ·)

/-- What is printed: that zero needs no bits, or the bits with their powers of two -/
inductive Printed
  | noBits
  | bits (l : List (Nat × Nat))
deriving DecidableEq

/-- A value of python, as far as comparisons go -/
inductive PyVal
  | text (s : List Char)
  | int (n : Int)
deriving DecidableEq

/-- bitmaskbits:8-22 `main` with one argument. `bits == 0` compares a text with a number. -/
def bitmask (n : Int) : Except Err Printed :=
  let bits := (bin n).drop 2
  if PyVal.text bits = PyVal.int 0 then .ok .noBits
  else (onbits 0 bits.reverse).map fun l => .bits (l.map fun b => (b, 2 ^ b))

/-- `hex(n)` of a natural number -/
def hex (n : Nat) : List Char := '0' :: 'x' :: Nat.toDigits 16 n

/-- rgb2hex:23 `hex(int(val)).lstrip('0x').zfill(2)` -/
def two (n : Nat) : List Char :=
  let s := (hex n).dropWhile fun c => c = '0' || c = 'x'
  List.replicate (2 - s.length) '0' ++ s

/-- rgb2hex:12-25 `main` with three arguments -/
def rgb2hex (r g b : ℚ) : Except Err (List Char) :=
  if r < 0 ∨ g < 0 ∨ b < 0 then .error .value
  else if r > 255 ∨ g > 255 ∨ b > 255 then .error .value
  else
    let f : ℚ := if r ≤ 1 ∧ g ≤ 1 ∧ b ≤ 1 then 255 else 1
    .ok ('#' :: (two (⌊r * f⌋.toNat) ++ two (⌊g * f⌋.toNat) ++ two (⌊b * f⌋.toNat)))

/-- viscid/dataset.py:334, 640: the names of the arguments of `iter_fields` of a dataset -/
def iterFieldsArgs : List String := ["time", "fld_names"]

/-- A call of `iter_fields` with one argument by name: the fields (all of them, or those named), or TypeError if there is no such argument -/
def iterFields (fields : List (String × F)) (arg : String) (names : Option (List String)) : Except Err (List (String × F)) :=
  if arg ∈ iterFieldsArgs then .ok (match names with
    | none => fields
    | some l => fields.filter (·.1 ∈ l))
  else .error .type

/-- viscid_diff:44-115 `main` after loading: number of fields that differ -/
def diff (same : F → F → Bool) (a b : List (String × F)) (names : List String) : Except Err Nat := do
  let missing := (names.filter fun n => !(a.map (·.1)).contains n).length
  let names' := if names = [] then none else some (names.filter fun n => (a.map (·.1)).contains n)
  let fs ← iterFields a "named" names'
  let n := (fs.filter fun f => match b.lookup f.1 with
    | none => true
    | some g => !same f.2 g).length
  let m := if names = [] then (b.filter fun f => (a.lookup f.1).isNone).length else 0
  return missing + n + m

end Viscid.Scripts
