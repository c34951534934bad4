import Verif.Model.Basic
import Verif.Model.Dict
/-!
# Model of the JRRLE codec (`viscid/readers/_jrrle.f90`) and of the field lookup of
`viscid/readers/ggcm_jrrle.py`

Characters are their codes (`Nat`, 0..255 in the file).  A line is a list of codes.
Integer arithmetic is unbounded.  Writes outside a declared array bound are reported as the error
`overrun` (in Fortran: undefined behaviour).  Header formatting (`3e14.7`) is not modelled.
-/
namespace Viscid.Jrrle

inductive Err where
  | noEnd       -- 'cannot find end of encoded record' (n = -5)
  | tooLong     -- 'n gt 63' (n = -5)
  | checksum    -- 'checksum error' (n = -5)
  | blank       -- nothing before the first space: n = -2 or -5 (expandedDat(-1) is undefined)
  | eof         -- read past the end (n = -5)
  | length      -- rdn2: nn .ne. nk (n = -2)
  | notWrn2     -- rdn2: did .ne. 'WRN2' (n = -1)
  | overrun     -- write outside an array (undefined behaviour)
  deriving DecidableEq, Repr

/-! ## Records -/

/-- _jrrle.f90:697-705 and 710-717: emit one finished run of `ic` copies of `ir`. -/
def flush (ic ir : Nat) : List Nat := if ic = 1 then [ir] else [ic + 170, ir]

/-- _jrrle.f90:692-717: the run-length loop; `ir`, `ic` current value and count. -/
def encRuns (ir ic : Nat) : List Nat → List Nat
  | [] => flush ic ir
  | x :: xs => if x = ir then encRuns ir (ic + 1) xs else flush ic ir ++ encRuns x 1 xs

/-- _jrrle.f90:682-728 wrnenc on the record `i1(0..n)` (at least one value). -/
def wrnenc : List Nat → List Nat
  | [] => []
  | x :: xs => (33 + (x :: xs).sum % 92) :: encRuns x 1 xs

/-- Reading a line with format `(A)` into `character*72`: truncated or padded with spaces
(_jrrle.f90:509, 519). -/
def pad72 (line : List Nat) : List Nat := line.take 72 ++ List.replicate (72 - line.length) 32

/-- _jrrle.f90:577-606: from label 190 on; `w` is what was written to expandedDat(-1), (0), ... -/
def decFinish (w : List Nat) : Except Err (List Nat) :=
  match w with
  | [] => .error .blank
  | ck :: dat =>
    if dat.length > 64 then .error .tooLong            -- n = i = dat.length - 1 > 63
    else if ck ≠ 33 + dat.sum % 92 then .error .checksum
    else .ok dat

/-- _jrrle.f90:530-575: the expansion loop.  `j` characters consumed so far, the rest of the buffer
as a list, `w` the values written so far; expandedDat(-2:67) has room for 69 from index -1 on. -/
def decLoop : Nat → List Nat → List Nat → Except Err (List Nat)
  | _, [], _ => .error .noEnd
  | j, c :: cs, w =>
    if j + 1 > 67 then .error .noEnd
    else if c = 32 then decFinish w
    else if c > 127 then
      match cs with
      | [] => .error .noEnd
      | d :: cs' =>
        let w' := w ++ List.replicate (c - 170) d
        if w'.length > 69 then .error .overrun else decLoop (j + 2) cs' w'
    else
      let w' := w ++ [c]
      if w'.length > 69 then .error .overrun else decLoop (j + 1) cs w'

/-- _jrrle.f90:493-612 wrndec applied to the next line of the file. -/
def wrndec (line : List Nat) : Except Err (List Nat) := decLoop 0 (pad72 line) []

/-! ## Arrays -/

/-- _jrrle.f90:664-672: sign and quantisation index to two characters. -/
def toChars (v : Bool × Nat) : Nat × Nat :=
  let i1 := v.2 / 94
  let i2 := v.2 - 94 * i1
  ((if v.1 then i1 + 47 else i1) + 33, i2 + 33)

/-- _jrrle.f90:455-466: two characters to sign and index. -/
def ofChars (c1 c2 : Nat) : Bool × Int :=
  let v1 : Int := (c1 : Int) - 33
  let v2 : Int := (c2 : Int) - 33
  if v1 ≥ 47 then (true, v2 + 94 * (v1 - 47)) else (false, v2 + 94 * v1)

/-- _jrrle.f90:656-676: the blocks of 64 values, two lines each; `blocks` is the trip count. -/
def wrLoop : Nat → List (Bool × Nat) → List (List Nat)
  | 0, _ => []
  | b + 1, vals =>
    let blk := (vals.take 64).map toChars
    wrnenc (blk.map Prod.fst) :: wrnenc (blk.map Prod.snd) :: wrLoop b (vals.drop 64)

/-- _jrrle.f90:616-678 wrn2 after quantisation; trip count of `do k=1,n,64`. -/
def wrn2 (vals : List (Bool × Nat)) : List (List Nat) := wrLoop ((vals.length + 63) / 64) vals

/-- _jrrle.f90:426-475: `remaining` = n - k + 1 values to go, `cap` the free room in array `a`. -/
def rdLoop : Nat → Nat → Nat → List (List Nat) → Except Err (List (Bool × Int))
  | 0, _, _, _ => .ok []
  | b + 1, remaining, cap, lines =>
    match lines with
    | l1 :: l2 :: rest =>
      match wrndec l1 with
      | .error .overrun => .error .overrun
      | .error _ => .error .length
      | .ok r1 =>
        if r1.length ≠ min 64 remaining then .error .length
        else match wrndec l2 with
          | .error .overrun => .error .overrun
          | .error _ => .error .length
          | .ok r2 =>
            if r2.length ≠ min 64 remaining then .error .length
            else if r1.length > cap then .error .overrun
            else match rdLoop b (remaining - 64) (cap - r1.length) rest with
              | .error e => .error e
              | .ok tail => .ok (List.zipWith ofChars r1 r2 ++ tail)
    | _ => .error .length

/-- The parsed header line of a data block (_jrrle.f90:385-393); `nid = none` is "********". -/
structure Header (α : Type) where
  isWrn2 : Bool
  nid : Option Nat
  zmin : α
  zmax : α

/-- _jrrle.f90:368-489 rdn2 with array `a(n)`; `value sign index` is lines 464-469. -/
def rdn2 [DecidableEq α] (h : Header α) (value : Bool → Int → α) (n : Nat) (lines : List (List Nat)) :
    Except Err (List α) :=
  let n' := match h.nid with | none => n | some m => m
  if ¬ h.isWrn2 then .error .notWrn2
  else if h.zmin = h.zmax then
    if n' > n then .error .overrun else .ok (List.replicate n' h.zmin)
  else match rdLoop ((n' + 63) / 64) n' n lines with
    | .error e => .error e
    | .ok l => .ok (l.map fun v => value v.1 v.2)

/-! ## Field lookup (ggcm_jrrle.py) -/

variable {Name Meta : Type} [DecidableEq Name]

/-- A file: `some (name, meta)` for the first line of a field (FIELD-nD-1), `none` for any other
line.  Position = line number. -/
abbrev File (Name Meta : Type) := List (Option (Name × Meta))

/-- State of a JrrleFileWrapper: `fields_seen` (ggcm_jrrle.py:33) and the file position. -/
structure LState (Name Meta : Type) where
  seen : Dict Name (Meta × Nat)
  seenAll : Bool
  pos : Nat

/-- `fields_seen` in insertion order; `Dict.set` appends new keys at the end. -/
def linit : LState Name Meta := ⟨[], false, 0⟩

/-- _jrrle.f90:1-56 inquire_next: the first field line at or after `pos` and its line number. -/
def scan : File Name Meta → Nat → Option (Nat × Name × Meta)
  | [], _ => none
  | some (n, m) :: _, 0 => some (0, n, m)
  | none :: rest, 0 => (scan rest 0).map fun x => (x.1 + 1, x.2)
  | _ :: rest, p + 1 => (scan rest p).map fun x => (x.1 + 1, x.2)

/-- ggcm_jrrle.py:90-128 inquire_next.  Returns the new state and (name, metadata). -/
def inquireNext (f : File Name Meta) (s : LState Name Meta) :
    LState Name Meta × Option (Name × (Meta × Nat)) :=
  match scan f s.pos with
  | none => ({ s with seenAll := true, pos := f.length }, none)
  | some (q, n, m) =>
    let s := { s with pos := q }
    match s.seen.get? n with
    | some mt => (s, some (n, mt))
    | none => ({ s with seen := s.seen.set n (m, q) }, some (n, (m, q)))

/-- _fortfile.F90 fadvance_one_line; at the end of the file nothing moves. -/
def advance (f : File Name Meta) (s : LState Name Meta) : LState Name Meta :=
  { s with pos := min (s.pos + 1) f.length }

/-- ggcm_jrrle.py:81-88, the loop of inquire; `none` in the first component = out of fuel. -/
def inquireLoop (f : File Name Meta) (name : Name) : Nat → LState Name Meta →
    Option (LState Name Meta × Option (Meta × Nat))
  | fuel, s =>
    if s.seenAll then some (s, none)
    else match fuel with
      | 0 => none
      | fuel + 1 =>
        match inquireNext f s with
        | (s', some (n, mt)) => if n = name then some (s', some mt) else inquireLoop f name fuel (advance f s')
        | (s', none) => inquireLoop f name fuel (advance f s')

/-- ggcm_jrrle.py:68-88 inquire; result `none` = KeyError. -/
def inquire (f : File Name Meta) (fuel : Nat) (s : LState Name Meta) (name : Name) :
    Option (LState Name Meta × Option (Meta × Nat)) :=
  match s.seen.get? name with
  | some mt => some ({ s with pos := mt.2 }, some mt)
  | none =>
    let s := match s.seen.getLast? with
      | some (_, mt) => advance f { s with pos := mt.2 }
      | none => s
    inquireLoop f name fuel s

/-- ggcm_jrrle.py:61-66. -/
def allLoop (f : File Name Meta) : Nat → LState Name Meta → Option (LState Name Meta)
  | fuel, s =>
    if s.seenAll then some s
    else match fuel with
      | 0 => none
      | fuel + 1 => allLoop f fuel (advance f (inquireNext f s).1)

/-- ggcm_jrrle.py:52-66 inquire_all_fields. -/
def inquireAll (f : File Name Meta) (fuel : Nat) (s : LState Name Meta) (reinquire : Bool) :
    Option (LState Name Meta) :=
  let s := if reinquire then { s with seen := [], seenAll := false } else s
  if s.seenAll then some s else allLoop f fuel { s with pos := 0 }

/-- What a user can do with an open file wrapper.  `read` is read_field (ggcm_jrrle.py:37-50) whose
Fortran reader consumes `k` further lines; `reopen` is leaving and entering the `with` block. -/
inductive LOp (Name : Type) where
  | inquireNext
  | inquire (name : Name)
  | inquireAll (reinquire : Bool)
  | read (name : Name) (k : Nat)
  | reopen

/-- No field line among lines p, ..., p+k-1. -/
def noField (f : File Name Meta) (p k : Nat) : Bool := ((f.drop p).take k).all Option.isNone

/-- One operation; `none` = out of fuel.  The reader of `read` consumes only lines of its own field:
the `k` lines after the field line contain no field line (checked here; otherwise the file is
malformed and the position is left at the field). -/
def lstep (f : File Name Meta) (fuel : Nat) (s : LState Name Meta) : LOp Name → Option (LState Name Meta)
  | .inquireNext => some (inquireNext f s).1
  | .inquire n => (inquire f fuel s n).map Prod.fst
  | .inquireAll r => inquireAll f fuel s r
  | .read n k =>
    match inquire f fuel s n with
    | none => none
    | some (s', none) => some s'
    | some (s', some _) =>
      if noField f (s'.pos + 1) k then some { s' with pos := min (s'.pos + 1 + k) f.length } else some s'
  | .reopen => some { s with pos := 0 }

/-- A history of operations on a freshly created wrapper. -/
def lexec (f : File Name Meta) (fuel : Nat) : List (LOp Name) → Option (LState Name Meta)
  | ops => ops.foldl (fun s op => s.bind fun s => lstep f fuel s op) (some linit)

end Viscid.Jrrle
