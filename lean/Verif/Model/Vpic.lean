import Verif.Model.AthenaBin
import Verif.Model.Crds
import Mathlib.Data.Rat.Floor
/-!
# Model of `viscid/readers/vpic.py`: VPIC runs

Numbers are rationals; files are lists of bytes on a little endian machine, `np.fromfile` is the one of `Verif.Model.AthenaBin`. The global file is
taken as parsed (vpic.py:273-373): its grid, and the variables of the fields and of the species. Not modelled: negative numbers of cells, files that
cannot be opened, the getters of VPIC_Grid.
-/
namespace Viscid.Vpic
open Viscid.AthenaBin (Word fromFile unsigned int32)

/-- exceptions of vpic.py:482-603: of `struct`, `assert`, `reshape` and indexing -/
inductive Err
  | struct
  | assertion
  | value
  | index
deriving DecidableEq, Repr

/-- the basic types of vpic.py:317-323 -/
inductive Basic
  | float4
  | int2
deriving DecidableEq, Repr

/-- vpic.py:250-251 VPICFieldDescr, without the offset -/
structure Var where
  name : String
  comps : Nat
  basic : Basic
deriving DecidableEq, Repr

/-- vpic.py:252-253 VPICFieldSet -/
structure FieldSet where
  dir : String
  base : String
  vars : List Var
deriving DecidableEq, Repr

/-! ### The blocks -/

/-- one axis: lower and upper end of the first block, spacing, number of blocks (vpic.py:386-397) -/
structure Axis where
  xl : ℚ
  xh : ℚ
  dx : ℚ
  topo : Nat
deriving DecidableEq, Repr

/-- vpic.py:399-400 `ldims`: the cells of a block; `astype(int)` cuts off -/
def Axis.ldim (a : Axis) : Nat := ⌊(a.xh - a.xl) / a.dx + 1 / 2⌋.toNat

/-- vpic.py:457-462: the nodes of block `i` along an axis -/
def Axis.nodes (a : Axis) (i : Nat) : List ℚ :=
  Crds.linspace (a.xl + a.ldim * i * a.dx) (a.xl + a.ldim * (i + 1) * a.dx) (a.ldim + 1)

/-- vpic.py:452-463 `block_crds`; `arrays2crds` is given these arrays -/
def blocks (x y z : Axis) : List (List ℚ × List ℚ × List ℚ) :=
  (List.range z.topo).flatMap fun k => (List.range y.topo).flatMap fun j => (List.range x.topo).map fun i => (x.nodes i, y.nodes j, z.nodes k)

/-- vpic.py:483-484: the name of the file of a block -/
def fileName (dir base : String) (time block : Nat) : String :=
  dir ++ "/T." ++ toString time ++ "/" ++ base ++ "." ++ toString time ++ "." ++ toString block

/-! ### The fields -/

/-- vpic.py:338-342 and 362-366: the variables with their offsets -/
def offsets (off : Nat) : List Var → List (Var × Nat)
  | [] => []
  | v :: vs => (v, off) :: offsets (off + v.comps) vs

/-- vpic.py:496-505: the name of a component -/
def compName (fld : String) (n i : Nat) : Except Err String :=
  if n = 1 then .ok fld
  else
    let comps := if n = 3 then ["X", "Y", "Z"] else if n = 6 then ["XX", "YY", "ZZ", "YZ", "ZX", "XY"]
      else ["A", "B", "C", "D", "E", "F", "G", "H", "I", "J", "K", "L", "M", "N"]
    match comps[i]? with
    | none => .error .index
    | some c => .ok (fld ++ " " ++ c)

/-- a field: its name, the variable and number in the file; the dtype given to the data wrapper is always float32 (vpic.py:508-511) -/
structure Fld where
  name : String
  base : String
  number : Nat
  read : Basic
deriving DecidableEq, Repr

/-- vpic.py:495-519: the components of a variable from `i` on, `m` of them -/
def varFields (base fld : String) (n off : Nat) : Nat → Nat → Except Err (List Fld)
  | _, 0 => .ok []
  | i, m + 1 =>
    match compName fld n i with
    | .error e => .error e
    | .ok name =>
      match varFields base fld n off (i + 1) m with
      | .error e => .error e
      | .ok fs => .ok (⟨name, base, i + off, .float4⟩ :: fs)

/-- vpic.py:491-493 -/
def fieldName (base name : String) : String := if base ≠ "fields" then name ++ " (" ++ base ++ ")" else name

/-- vpic.py:490-519: the fields of a set of variables -/
def setFields (base : String) : List (Var × Nat) → Except Err (List Fld)
  | [] => .ok []
  | (v, off) :: vs =>
    match varFields base (fieldName base v.name) v.comps off 0 v.comps with
    | .error e => .error e
    | .ok fs =>
      match setFields base vs with
      | .error e => .error e
      | .ok gs => .ok (fs ++ gs)

/-- vpic.py:482-519: the fields of a block -/
def fields : List FieldSet → Except Err (List Fld)
  | [] => .ok []
  | s :: ss =>
    match setFields s.base (offsets 0 s.vars) with
    | .error e => .error e
    | .ok fs =>
      match fields ss with
      | .error e => .error e
      | .ok gs => .ok (fs ++ gs)

/-! ### The data -/

/-- dtype float32 (vpic.py:511, 552), a single precision number: sign, exponent and mantissa; none for infinity and nan -/
def float32 (w : Word) : Option ℚ :=
  let u := unsigned w
  let m : Nat := u % 2 ^ 23
  let e := u / 2 ^ 23 % 2 ^ 8
  let s : ℚ := if u / 2 ^ 31 % 2 = 1 then -1 else 1
  if e = 255 then none
  else if e = 0 then some (s * (m : ℚ) / 2 ^ 149)
  else some (s * (2 ^ 23 + (m : ℚ)) * 2 ^ e / 2 ^ 150)

/-- vpic.py:555-586: the sizes in the header, after its checks. The formats have 5, 18, 64 and 36 bytes -/
def header (file : List UInt8) : Except Err (Nat × Nat × Nat) :=
  if file.length < 5 then .error .struct
  else if file.take 5 ≠ [8, 2, 4, 4, 8] then .error .assertion
  else if file.length < 23 then .error .struct
  else if (file.drop 5).take 6 ≠ [0xfe, 0xca, 0xef, 0xbe, 0xad, 0xde] then .error .assertion
  else if (file.drop 11).take 12 ≠ [0, 0, 0x80, 0x3f, 0, 0, 0, 0, 0, 0, 0xf0, 0x3f] then .error .assertion
  else
    match fromFile .little 4 25 (file.drop 23) with
    | ws =>
      match ws[22]?, ws[23]?, ws[24]? with
      | some gx, some gy, some gz => .ok ((int32 gx).toNat, (int32 gy).toNat, (int32 gz).toNat)
      | _, _, _ => .error .struct

/-- vpic.py:551-603 `read_field` and 680-683 `__array__` for expected shape (ex, ey, ez): the ghost cells at both ends are cut off; `reshape` reads in C
order, whatever the layout in memory is -/
def readField (ex ey ez comp : Nat) (file : List UInt8) : Except Err (Nat → Nat → Nat → Option Word) :=
  match header file with
  | .error e => .error e
  | .ok (gx, gy, gz) =>
    let data := fromFile .little 4 (gx * gy * gz) (file.drop (123 + 4 * comp * (gx * gy * gz)))
    if data.length ≠ gx * gy * gz then .error .value
    else if (gx - 2) * (gy - 2) * (gz - 2) ≠ ex * ey * ez then .error .value
    else .ok fun a b c =>
      let l := (a * ey + b) * ez + c
      let k := l % (gz - 2)
      let j := l / (gz - 2) % (gy - 2)
      let i := l / (gz - 2) / (gy - 2)
      data[(i + 1) + gx * ((j + 1) + gy * (k + 1))]?

/-! ### The times -/

/-- the digits at the start, `[0-9]+` of vpic.py:445 -/
def digits (cs : List Char) : List Char := cs.takeWhile Char.isDigit

/-- `int` of digits, vpic.py:446 -/
def number (cs : List Char) : Nat := cs.foldl (fun n c => 10 * n + (c.toNat - '0'.toNat)) 0

/-- vpic.py:445-446: `re.match(r'.*\.([0-9]+)', s)`, the number after the last dot that has one -/
def stepOf : List Char → Option Nat
  | [] => none
  | c :: cs =>
    match stepOf cs with
    | some n => some n
    | none => if c = '.' ∧ digits cs ≠ [] then some (number (digits cs)) else none

/-- vpic.py:444-447: the times, in order -/
def times (dirs : List (List Char)) : List Nat := (dirs.filterMap stepOf).mergeSort (· ≤ ·)

end Viscid.Vpic
