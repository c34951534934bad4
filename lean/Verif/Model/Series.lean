import Mathlib.Data.Rat.Defs
import Mathlib.Algebra.Order.Ring.Rat
import Verif.Model.A2b
/-!
# Series of files: `load`, `_parse` and `reload` of the readers that take several files as one

viscid/readers/openggcm.py (GGCMFileFortran), ggcm_jrrle.py, ggcm_fortbin.py, ggcm_xdmf.py, athena_bin.py, athena_tab.py, athena_xdmf.py, gkeyll.py, vfile.py.

Names are absolute, without `~` and `$`. What is in a file is given by a world, which may be another one when the file is loaded again. Of what is in a file there are the time,
the names of the fields and the coordinates; how these are read is the matter of other models (Jrrle, Fortbin, AthenaBin, TextFile, Gkeyll, Xdmf). Not modelled: log files, values of fields,
files that cannot be read, the readers of `iof`, `mp_info` and `topo` files in XDMF, and `reload` of the files a series consists of, which `ContainerFile.reload` calls
first: they are no longer part of the series after that.
-/
namespace Viscid.Series
open Viscid.A2b (strip)

abbrev Text := List Char

/-! ## Names -/

inductive Kind
  | jrrle
  | jrrleIono
  | fortbin
  | fortbinIono
  | athBin
  | athTab
  | gkeyll
  | ggcmXdmf
  | athXdmf
deriving DecidableEq, Repr

/-- The groups of a match: the run, the type or the extension, and the number, if there is one -/
structure Groups where
  run : Text
  ty : Text
  num : Option Text
deriving DecidableEq, Repr

/-- `[0-9]` -/
def isDigit (c : Char) : Bool := '0' ≤ c && c ≤ '9'

/-- `[0-9]{n}` -/
def digits (n : Nat) (s : Text) : Bool := s.length = n && s.all isDigit

/-- `[0-9]+` -/
def number (s : Text) : Bool := !s.isEmpty && s.all isDigit

/-- `p[xyz]_[0-9]+` -/
def plane : Text → Bool
  | 'p' :: c :: '_' :: ds => (c = 'x' || c = 'y' || c = 'z') && number ds
  | _ => false

/-- The text before the last dot and that after it -/
def lastDot (s : Text) : Option (Text × Text) :=
  match s.reverse.span (· ≠ '.') with
  | (a, _ :: b) => some (b.reverse, a.reverse)
  | _ => none

/-- `.` matches no line feed -/
def dots (s : Text) : Bool := !s.contains '\n'

/-- ggcm_jrrle.py:192-193, 281: `(.*)\.(TYPE)\.([0-9]{6})` -/
def typeNumber (ty : Text → Bool) (s : Text) : Option Groups :=
  match lastDot s with
  | none => none
  | some (s, n) =>
    match lastDot s with
    | none => none
    | some (run, t) => if digits 6 n && ty t && dots run then some ⟨run, t, some n⟩ else none

/-- The detectors without the white space around the name: ggcm_jrrle.py:192-193, 281; ggcm_fortbin.py:281-282, 371 (the dot before `b` stands for any character);
    athena_bin.py:22; athena_tab.py:18; gkeyll.py:209 (as for the dot before `h5`); ggcm_xdmf.py:18-19; athena_xdmf.py:14 -/
def detectCore (k : Kind) (s : Text) : Option Groups :=
  match k with
  | .jrrle => typeNumber (fun t => plane t || t = "3df".toList) s
  | .jrrleIono => typeNumber (fun t => t = "iof".toList) s
  | .fortbin =>
    match s.reverse with
    | 'b' :: c :: r => if c ≠ '\n' then typeNumber (fun t => plane t || t = "3df".toList) r.reverse else none
    | _ => none
  | .fortbinIono =>
    match s.reverse with
    | 'b' :: c :: r => if c ≠ '\n' then typeNumber (fun t => t = "iof".toList) r.reverse else none
    | _ => none
  | .athBin =>
    match lastDot s with
    | none => none
    | some (s, e) =>
      match lastDot s with
      | none => none
      | some (run, n) => if number n && dots run && e = "bin".toList then some ⟨run, e, some n⟩ else none
  | .athTab =>
    match lastDot s with
    | none => none
    | some (s, e) =>
      match lastDot s with
      | none => none
      | some (run, n) => if digits 4 n && dots run && e = "tab".toList then some ⟨run, e, some n⟩ else none
  | .gkeyll =>
    match s.reverse with
    | '5' :: 'h' :: c :: r =>
      match r.span isDigit with
      | (n, '_' :: 'q' :: '_' :: run) => if c ≠ '\n' && !n.isEmpty && dots run then some ⟨run.reverse, "q".toList, some n.reverse⟩ else none
      | _ => none
    | _ => none
  | .ggcmXdmf =>
    match lastDot s with
    | none => none
    | some (s, e) =>
      if e = "xmf".toList || e = "xdmf".toList then
        match lastDot s with
        | none => none
        | some (run, t) =>
          if plane t || t = "3d".toList || t = "3df".toList then (if dots run then some ⟨run, t, none⟩ else none)
          else typeNumber (fun t => plane t || t = "3d".toList || t = "3df".toList) s
      else none
  | .athXdmf =>
    match s.reverse with
    | 'f' :: 'm' :: 'd' :: 'x' :: c :: 'h' :: 't' :: 'a' :: '.' :: r =>
      match lastDot r.reverse with
      | none => none
      | some (run, n) => if c ≠ '\n' && number n && dots run then some ⟨run, ['a', 't', 'h', c, 'x', 'd', 'm', 'f'], some n⟩ else none
    | _ => none

/-- `re.match(detector, name)`: all detectors begin with `^\s*` and end with `\s*$` -/
def detect (k : Kind) (s : Text) : Option Groups := detectCore k (strip s)

/-- A path: what `os.path.dirname` and `os.path.basename` give -/
structure Path where
  dir : Text
  base : Text
deriving DecidableEq, Repr

/-- `os.path.join` -/
def Path.full (p : Path) : Text := p.dir ++ '/' :: p.base

/-- `collective_name_from_group` of the readers: ggcm_jrrle.py:270-276, ggcm_fortbin.py:360-366, athena.py:49-56, gkeyll.py:278-284, ggcm_xdmf.py:56-62 -/
def collective (k : Kind) (g : Groups) : Text :=
  match k with
  | .jrrle | .jrrleIono => g.run ++ '.' :: g.ty
  | .fortbin | .fortbinIono => g.run ++ '.' :: g.ty ++ ".b".toList
  | .athBin | .athTab | .athXdmf => g.run ++ ".STAR.".toList ++ g.ty
  | .gkeyll => g.run ++ '.' :: g.ty ++ ".STAR.h5".toList
  | .ggcmXdmf => g.run ++ '.' :: g.ty ++ ".STAR.xdmf".toList

/-- `int` of digits -/
def toNum (s : Text) : Nat := s.foldl (fun n c => n * 10 + (c.toNat - '0'.toNat)) 0

/-! ## Files -/

/-- What is in a file, or in a grid of an XDMF file -/
structure Content (α : Type) where
  time : ℚ
  fields : List String
  crds : α
deriving DecidableEq, Repr

structure World (α : Type) where
  file : Path → Content α
  /-- the grids of an XDMF file -/
  grids : Path → List (Content α)

/-- A time of a file or series: the grid with its time, and the file it is from -/
structure Entry (α : Type) where
  path : Path
  time : ℚ
  fields : List String
  crds : α
deriving DecidableEq, Repr

inductive Err
  | attribute
  | index
deriving DecidableEq, Repr

/-- A file object: `fname`, whether it is a series, the times in it, and what it keeps: `_crds`, `_fld_templates` or `_fld_list`, and what the file wrapper has read
    (`fields_seen`, or the header with time and fields) -/
structure Obj (α : Type) where
  fname : Path
  series : Bool
  entries : List (Entry α)
  crds : Option α
  templates : Option (List String)
  wrapper : Option (ℚ × List String)
deriving DecidableEq, Repr

/-- A file object before `load` -/
def Obj.new (crds : Option α) (templates : Option (List String)) : Obj α := ⟨⟨[], []⟩, false, [], crds, templates, none⟩

def Kind.isXdmf : Kind → Bool
  | .ggcmXdmf | .athXdmf => true
  | _ => false

/-- dataset.py:480-488 `DatasetTemporal.add`: appended, and sorted by time -/
def addEntry (l : List (Entry α)) (e : Entry α) : List (Entry α) :=
  match l with
  | [] => [e]
  | x :: l => if x.time ≤ e.time then x :: addEntry l e else e :: x :: l

/-- One file: `load` with one name and `_parse` (openggcm.py:737-765, ggcm_jrrle.py:207-242, ggcm_fortbin.py:296-331, athena_bin.py:69-92, 108-141, athena_tab.py:43-67,
    83-112, gkeyll.py:299-323, 340-372). Coordinates, templates and what the wrapper has read are kept. The time of OpenGGCM files is the number in the whole name. -/
def loadOne (k : Kind) (w : World α) (o : Obj α) (p : Path) : Obj α × Option Err :=
  match detect k p.base with
  | none => (o, some .attribute)
  | some _ =>
    let c := w.file p
    let crds := o.crds.getD c.crds
    match k with
    | .athBin =>
      let h := o.wrapper.getD (c.time, c.fields)
      ({ o with fname := p, series := false, entries := [⟨p, h.1, h.2, crds⟩], crds := some crds, wrapper := some h }, none)
    | .athTab =>
      let t := if o.crds.isNone then c.fields else o.templates.getD []
      ({ o with fname := p, series := false, entries := [⟨p, c.time, t, crds⟩], crds := some crds, templates := some t }, none)
    | .gkeyll =>
      let t := o.templates.getD c.fields
      ({ o with fname := p, series := false, entries := [⟨p, c.time, t, crds⟩], crds := some crds, templates := some t }, none)
    | _ =>
      match (detect k p.full).bind Groups.num with
      | none => ({ o with fname := p, crds := some crds }, some .attribute)
      | some n =>
        match o.templates with
        | some t => ({ o with fname := p, series := false, entries := [⟨p, toNum n, t, crds⟩], crds := some crds }, none)
        | none =>
          let h := o.wrapper.getD (c.time, c.fields)
          ({ o with fname := p, series := false, entries := [⟨p, toNum n, h.2, crds⟩], crds := some crds, wrapper := some h }, none)

/-- The files of a series, each with the coordinates and templates of the first: openggcm.py:774-787, athena_bin.py:97-103, athena_tab.py:73-78, gkeyll.py:330-335 -/
def loadChildren (k : Kind) (w : World α) (crds : α) (templates : Option (List String)) : List Path → Except Err (List (Entry α))
  | [] => .ok []
  | p :: ps =>
    match loadOne k w (Obj.new (some crds) templates) p with
    | (_, some e) => .error e
    | (o, none) =>
      match loadChildren k w crds templates ps with
      | .error e => .error e
      | .ok l => .ok (o.entries ++ l)

/-- xdmf.py:106-124, 247: the grids of a file, added as they are parsed; athena_xdmf.py:46-49 adds what it gets once more, ggcm_xdmf.py:91-95 does not -/
def xdmfGrids (k : Kind) (w : World α) (p : Path) : List (Entry α) :=
  let l := (w.grids p).map fun c => ⟨p, c.time, c.fields, c.crds⟩
  if k = .athXdmf then l ++ l else l

/-- `load` of the readers: openggcm.py:737-791, athena_bin.py:69-106, athena_tab.py:43-81, gkeyll.py:299-338, ggcm_xdmf.py:64-98, athena_xdmf.py:27-54. A series keeps the collective name,
    one in XDMF the name of its first file; `AthenaFileXDMF.load` looks at the name when everything is loaded. -/
def load (k : Kind) (w : World α) (o : Obj α) (names : List Path) : Obj α × Option Err :=
  match names with
  | [] => (o, some .index)
  | p :: ps =>
    if k.isXdmf then
      let o' : Obj α :=
        if ps.isEmpty then { o with fname := p, series := false, entries := (w.grids p).map fun c => ⟨p, c.time, c.fields, c.crds⟩ }
        else { o with fname := p, series := true, entries := (names.flatMap (xdmfGrids k w)).foldl addEntry [] }
      match detect k p.base with
      | none => (if k = .athXdmf then o' else o, some .attribute)
      | some _ => (o', none)
    else if ps.isEmpty then loadOne k w o p
    else
      match detect k p.base with
      | none => (o, some .attribute)
      | some g =>
        let c := w.file p
        let crds := o.crds.getD c.crds
        let t := match k with
          | .athBin => none
          | .athTab => if o.crds.isNone then some c.fields else o.templates
          | _ => some c.fields
        let o : Obj α := { o with fname := ⟨p.dir, collective k g⟩, crds := some crds, templates := t }
        match loadChildren k w crds t names with
        | .error e => (o, some e)
        | .ok l => ({ o with series := true, entries := l.foldl addEntry [] }, none)

/-- Making a file object: an exception in `load` is one of the constructor -/
def construct (k : Kind) (w : World α) (names : List Path) : Except Err (Obj α) :=
  match load k w (Obj.new none none) names with
  | (o, none) => .ok o
  | (_, some e) => .error e

/-- vfile.py:124-127 `reload`: what is in the file is removed, and `fname` is loaded -/
def reload (k : Kind) (w : World α) (o : Obj α) : Obj α × Option Err := load k w { o with entries := [] } [o.fname]

end Viscid.Series
