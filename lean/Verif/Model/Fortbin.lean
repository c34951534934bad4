import Verif.Model.AthenaBin
/-!
# Model of `viscid/readers/ggcm_fortbin.py`: OpenGGCM's binary files

Files are lists of bytes, floats their four bytes, least significant first; names are their bytes (`decode` of bytes that are no ASCII is not modelled). The place in the file is
not part of the state of a wrapper: everything but `inquire_next` seeks first, and a file that is opened again is at its start. Not modelled: negative sizes, and fields
without axes (their number of values is a float).
-/
namespace Viscid.Fortbin
open Viscid.AthenaBin (Endian Word fromFile int32 native)

inductive Err
  | io
  | key
  | value
  | type
  | attribute
  | runtime
deriving DecidableEq, Repr

/-- `str.strip` of ASCII text -/
def isSpace (b : UInt8) : Bool := (9 ≤ b && b ≤ 13) || (28 ≤ b && b ≤ 32)

def strip (l : List UInt8) : List UInt8 := ((l.dropWhile isSpace).reverse.dropWhile isSpace).reverse

/-- The meta data of a field, ggcm_fortbin.py:201-208 -/
structure Meta where
  timestr : List UInt8
  inttime : Int
  dims : List Nat
  pos : Nat
deriving DecidableEq, Repr

/-- ggcm_fortbin.py:197-199 -/
def Meta.headerSize (m : Meta) : Nat := 4 + 4 + 4 + 4 * m.dims.length + 2 * 80
def Meta.nelem (m : Meta) : Nat := m.dims.foldr (· * ·) 1
def Meta.nbytes (m : Meta) : Nat := m.headerSize + 4 * m.nelem

inductive Header
  /-- IOError -/
  | noMarker
  /-- `None, None` -/
  | nothing
  | found (e : Endian) (name : List UInt8) (m : Meta)
deriving DecidableEq, Repr

/-- `struct.unpack(endian + '<n>i', file.read(4 * n))`; nothing is a struct.error -/
def ints (e : Endian) (n : Nat) (bs : List UInt8) : Option (List Int) :=
  if bs.length < 4 * n then none else some ((fromFile e 4 n bs).map int32)

/-- ggcm_fortbin.py:167-217 `_read_header` at a place in the file -/
def readHeader (file : List UInt8) (pos : Nat) : Header :=
  let bs := file.drop pos
  let marker := bs.take 4
  let rest (e : Endian) : Header :=
    match ints e 2 (bs.drop 4) with
    | some [it, nd] =>
      if nd < 0 then .nothing
      else
        match ints e nd.toNat (bs.drop 12) with
        | none => .nothing
        | some dims =>
          let name := strip ((bs.drop (12 + 4 * nd.toNat)).take 80)
          let time := (bs.drop (12 + 4 * nd.toNat + 80)).take 80
          if name = [] then .nothing else .found e name ⟨time, it, dims.map Int.toNat, pos⟩
    | _ => .nothing
  if marker = [2, 0, 0, 0] then rest .little
  else if marker = [0, 0, 0, 2] then rest .big
  else .noMarker

/-- A GGCMFortbinFileWrapper: `_file_meta` (none if it is None), `fields_seen`, `seen_all_fields` -/
structure Wrap where
  fileMeta : Option Meta
  seen : List (List UInt8 × Meta)
  seenAll : Bool
deriving DecidableEq, Repr

def Wrap.find (w : Wrap) (name : List UInt8) : Option Meta := (w.seen.find? fun p => p.1 = name).map Prod.snd

/-- ggcm_fortbin.py:134-142, 161-165: opening a new wrapper -/
def openNew (file : List UInt8) : Except Err Wrap :=
  match readHeader file 0 with
  | .noMarker => .error .io
  | .nothing => .ok ⟨none, [], false⟩
  | .found _ _ m => .ok ⟨some m, [], false⟩

/-- ggcm_fortbin.py:106-132 `inquire_next` at a place in the file -/
def Wrap.next (w : Wrap) (file : List UInt8) (pos : Nat) : Wrap × Option (Endian × List UInt8 × Meta) :=
  match readHeader file pos with
  | .found e name m => (if (w.find name).isSome then w else { w with seen := w.seen ++ [(name, m)] }, some (e, name, m))
  | _ => ({ w with seenAll := true }, none)

/-- ggcm_fortbin.py:78-81, the loop; the file is left at its end -/
def Wrap.all (file : List UInt8) (step : Nat) : Nat → Wrap → Nat → Wrap
  | 0, w, _ => w
  | fuel + 1, w, pos =>
    let (w, _) := w.next file pos
    if w.seenAll then w else Wrap.all file step fuel w (pos + step)

/-- ggcm_fortbin.py:70-81 `inquire_all_fields`. If the first header could not be read, `file_meta['nbytes']` is a TypeError -/
def Wrap.inquireAll (w : Wrap) (file : List UInt8) (reinquire : Bool) : Except Err Wrap :=
  let w := if reinquire then { w with seen := [], seenAll := false } else w
  if w.seenAll then .ok w
  else
    match w.fileMeta with
    | none => .error .type
    | some m => .ok (w.all file m.nbytes (file.length + 1) 0)

/-- ggcm_fortbin.py:97-101, the loop -/
def Wrap.search (file : List UInt8) (step : Nat) (name : List UInt8) : Nat → Wrap → Nat → Wrap × Option (Endian × Meta)
  | 0, w, _ => (w, none)
  | fuel + 1, w, pos =>
    if w.seenAll then (w, none)
    else
      match w.next file pos with
      | (w, some (e, found, m)) => if found = name then (w, some (e, m)) else Wrap.search file step name fuel w (pos + step)
      | (w, none) => (w, none)

/-- ggcm_fortbin.py:83-104 `inquire`: the wrapper has no method `seek` -/
def Wrap.inquire (w : Wrap) (file : List UInt8) (name : List UInt8) : Wrap × Except Err (Endian × Meta) :=
  if w.seen ≠ [] then (w, .error .attribute)
  else if w.seenAll then (w, .error .key)
  else
    match w.fileMeta with
    | none => ({ w with seenAll := true }, .error .type)
    | some m =>
      match w.search file m.nbytes name (file.length + 1) 0 with
      | (w, some r) => (w, .ok r)
      | (w, none) => (w, .error .key)

/-- ggcm_fortbin.py:65-68: the values, and the meta data -/
def readData (file : List UInt8) (e : Endian) (m : Meta) : Except Err (Meta × List Word) :=
  let d := fromFile e 4 m.nelem (file.drop (m.pos + m.headerSize))
  if d.length = m.nelem then .ok (m, d) else .error .value

/-- ggcm_fortbin.py:44-68 `read_field` -/
def Wrap.readField (w : Wrap) (file : List UInt8) (name : List UInt8) (pos : Option Nat) : Wrap × Except Err (Meta × List Word) :=
  match pos with
  | some p =>
    match w.next file p with
    | (w, some (e, found, m)) => (w, if found = name then readData file e m else .error .value)
    | (w, none) => (w, .error .value)
  | none =>
    match w.inquire file name with
    | (w, .ok (e, m)) => (w, readData file e m)
    | (w, .error err) => (w, .error err)

/-- C order -/
def ravel (shape idx : List Nat) : Nat := (shape.zip idx).foldl (fun acc p => acc * p.1 + p.2) 0

/-- ggcm_fortbin.py:253-267 `FortbinDataWrapper.__array__`: shape and values -/
def Wrap.array (w : Wrap) (file : List UInt8) (name : List UInt8) (expected : List Nat) (pos : Nat) : Wrap × Except Err (List Nat × (List Nat → Option Word)) :=
  match w.readField file name (some pos) with
  | (w, .error e) => (w, .error e)
  | (w, .ok (m, d)) => (w, if m.dims ≠ expected then .error .runtime else .ok (m.dims.reverse, fun idx => d[ravel m.dims.reverse idx]?))

/-- One entry of a template -/
structure Item where
  name : List UInt8
  shape : List Nat
  pos : Nat
deriving DecidableEq, Repr

/-- ggcm_fortbin.py:333-345 `_make_template`; the base time is `GgcmFile.parseTime` -/
def template (file : List UInt8) : Except Err (List Item) :=
  match openNew file with
  | .error e => .error e
  | .ok w => match w.inquireAll file false with
    | .error e => .error e
    | .ok w => .ok (w.seen.map fun p => ⟨p.1, p.2.dims, p.2.pos⟩)

/-- ggcm_fortbin.py:316-330, openggcm.py:774-789: the field of an item in a file, which may be another one than that of the template, when it is first looked at -/
def fieldOf (file : List UInt8) (t : Item) : Except Err (List Nat × (List Nat → Option Word)) :=
  match openNew file with
  | .error e => .error e
  | .ok w => (w.array file t.name t.shape t.pos).2

end Viscid.Fortbin
