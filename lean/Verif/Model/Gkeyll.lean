import Verif.Model.GgcmFile
import Mathlib.Data.Real.Basic
import Mathlib.Data.Fin.VecNotation
/-!
# Model of `viscid/readers/gkeyll.py` and of the grouping in `viscid/readers/athena.py`

Computed fields of a GkeyllGrid, names of the components of a file, and groups of files. Fields are real numbers at points of
any type. Not modelled: coordinates, times, pretty names, HDF5.
-/
namespace Viscid.Gkeyll
open Viscid.GgcmFile (sortBy groupRuns Err)

inductive Exc
  | key
  deriving DecidableEq, Repr

/-- the fields of a file by name -/
abbrev Stored (ι : Type) := String → Option (ι → ℝ)

/-- which `_get_` method there is for a name; `s` is "e" or "i" -/
inductive Method
  | u (a s : String)
  | P (p a b s : String)
  | vec (base suffix : String)
  | missing

/-- the names of the methods gkeyll.py:82-200 with the fields that they use: 'rhou' + a, 'p' + p -/
def method : String → Method
  | "ux_e" => .u "x" "e"
  | "uy_e" => .u "y" "e"
  | "uz_e" => .u "z" "e"
  | "Pxx_e" => .P "xx" "x" "x" "e"
  | "Pyy_e" => .P "yy" "x" "x" "e"
  | "Pzz_e" => .P "zz" "x" "x" "e"
  | "Pxy_e" => .P "xy" "x" "y" "e"
  | "Pxz_e" => .P "xz" "x" "z" "e"
  | "Pyz_e" => .P "yz" "y" "z" "e"
  | "ux_i" => .u "x" "i"
  | "uy_i" => .u "y" "i"
  | "uz_i" => .u "z" "i"
  | "Pxx_i" => .P "xx" "x" "x" "i"
  | "Pyy_i" => .P "yy" "x" "x" "i"
  | "Pzz_i" => .P "zz" "x" "x" "i"
  | "Pxy_i" => .P "xy" "x" "y" "i"
  | "Pxz_i" => .P "xz" "x" "z" "i"
  | "Pyz_i" => .P "yz" "y" "z" "i"
  | "u_e" => .vec "u" "_e"
  | "u_i" => .vec "u" "_i"
  | "b" => .vec "B" ""
  | _ => .missing

/-- the field of the file, or KeyError -/
def fld (g : Stored ι) (k : String) : Except Exc (ι → ℝ) := match g k with | some v => .ok v | none => .error .key

/-- gkeyll.py:82-92, 136-152: `self['rhoux_e'] / self['rho_e']` -/
noncomputable def bulk (g : Stored ι) (a s : String) : Except Exc (ι → ℝ) := do
  let m ← fld g ("rhou" ++ a ++ "_" ++ s)
  let r ← fld g ("rho_" ++ s)
  .ok fun i => m i / r i

/-- gkeyll.py:100-134, 154-188: `self['pxy_e'] - self['rhoux_e'] * self['rhouy_e'] / self['rho_e']` -/
noncomputable def stress (g : Stored ι) (p a b s : String) : Except Exc (ι → ℝ) := do
  let p ← fld g ("p" ++ p ++ "_" ++ s)
  let m ← fld g ("rhou" ++ a ++ "_" ++ s)
  let n ← fld g ("rhou" ++ b ++ "_" ++ s)
  let r ← fld g ("rho_" ++ s)
  .ok fun i => p i - m i * n i / r i

/-- grid.py:271-323: a scalar field by name -/
noncomputable def scalar (g : Stored ι) (k : String) : Except Exc (ι → ℝ) :=
  match g k with
  | some v => .ok v
  | none =>
    match method k with
    | .u a s => bulk g a s
    | .P p a b s => stress g p a b s
    | _ => .error .key

/-- gkeyll.py:73-80 `_assemble_vector`, 190-204: the name, and the components -/
noncomputable def vector (g : Stored ι) (k : String) : Except Exc (String × (Fin 3 → ι → ℝ)) :=
  match method k with
  | .vec base suffix => do
    let x ← scalar g (base ++ "x" ++ suffix)
    let y ← scalar g (base ++ "y" ++ suffix)
    let z ← scalar g (base ++ "z" ++ suffix)
    .ok (base, ![x, y, z])
  | _ => .error .key

/-! ### names of components -/

/-- the lists of names at the top of the module, which are kept -/
structure Names where
  hydro : List String
  five : List String
  ten : List String
  deriving DecidableEq, Repr

/-- gkeyll.py:27-51 -/
def fresh : Names where
  hydro := ["rho", "rhoux", "rhouy", "rhouz", "e"]
  five := ["rho_e", "rhoux_e", "rhouy_e", "rhouz_e", "e_e", "rho_i", "rhoux_i", "rhouy_i", "rhouz_i", "e_i",
    "Ex", "Ey", "Ez", "Bx", "By", "Bz"]
  ten := ["rho_e", "rhoux_e", "rhouy_e", "rhouz_e", "pxx_e", "pxy_e", "pxz_e", "pyy_e", "pyz_e", "pzz_e",
    "rho_i", "rhoux_i", "rhouy_i", "rhouz_i", "pxx_i", "pxy_i", "pxz_i", "pyy_i", "pyz_i", "pzz_i",
    "Ex", "Ey", "Ez", "Bx", "By", "Bz"]

/-- gkeyll.py:53-61 `_type_info[n]` -/
def Names.info (t : Names) (n : Nat) : Option (String × List String) :=
  if n = 5 then some ("hydro", t.hydro)
  else if n = 16 then some ("five-moment", t.five)
  else if n = 26 then some ("ten-moment", t.ten)
  else none

/-- `type_info['names'].append(...)`, twice: it is the list of the module that grows -/
def Names.grow (t : Names) (n : Nat) : Names :=
  if n = 5 then { t with hydro := t.hydro ++ ["phi_E", "phi_B"] }
  else if n = 16 then { t with five := t.five ++ ["phi_E", "phi_B"] }
  else if n = 26 then { t with ten := t.ten ++ ["phi_E", "phi_B"] }
  else t

/-- gkeyll.py:63-71 `create_type_info` -/
def unknown (n : Nat) : String × List String := ("unknown", (List.range n).map fun i => "Q" ++ toString i)

/-- gkeyll.py:363-393 `_make_template`: the kind of the file, and the names of its components -/
def template (t : Names) (n : Nat) : Names × (String × List String) :=
  let r : Names × (String × List String) :=
    match t.info n with
    | some i => (t, i)
    | none =>
      match t.info (n - 2) with
      | some i => (t.grow (n - 2), (i.1, i.2 ++ ["phi_E", "phi_B"]))
      | none => (t, unknown n)
  (r.1, (r.2.1, r.2.2.take n))

/-- files that were opened -/
def after (t : Names) (l : List Nat) : Names := l.foldl (fun t n => (template t n).1) t

/-- gkeyll.py:310-312, 353-360: `field_type` of the grid of a file, which is part of a collection or not: in a collection
the template is that of the first file, and the file keeps the letter in its name -/
def kind (t : Names) (n : Nat) (inCollection : Bool) : String := if inCollection then "q" else (template t n).2.1

/-! ### groups of files -/

/-- what the regular expression finds in a name: the run, and the frame, which is a number -/
structure Found where
  run : String
  ftype : String
  frame : Int
  deriving DecidableEq, Repr

/-- `m.groups()` of a name that does not match raises AttributeError -/
def find (re : N → Option Found) : List N → Except Err (List (N × Found))
  | [] => .ok []
  | n :: ns =>
    match re n, find re ns with
    | some m, .ok l => .ok ((n, m) :: l)
    | none, _ => .error .attribute
    | _, .error e => .error e

/-- gkeyll.py:226-275 `group_fnames` -/
def groupGkeyll (re : N → Option Found) (names : List N) : Except Err (List (List N)) :=
  match find re names with
  | .error e => .error e
  | .ok [] => .error .index
  | .ok l =>
    let l := sortBy (fun a b => decide (a.2.frame ≤ b.2.frame)) l
    let l := sortBy (fun a b => decide (a.2.ftype ≤ b.2.ftype)) l
    let l := sortBy (fun a b => decide (a.2.run ≤ b.2.run)) l
    .ok ((groupRuns (fun a b => decide (a.2.run = b.2.run ∧ a.2.ftype = b.2.ftype)) l).map fun g => g.map (·.1))

/-- athena.py:19-47 `group_athena_files_common`; `ftype` is not used -/
def groupAthena (re : N → Option Found) (names : List N) : Except Err (List (List N)) :=
  match find re names with
  | .error e => .error e
  | .ok [] => .error .index
  | .ok l =>
    let l := sortBy (fun a b => decide (a.2.frame ≤ b.2.frame)) l
    let l := sortBy (fun a b => decide (a.2.run ≤ b.2.run)) l
    .ok ((groupRuns (fun a b => decide (a.2.run = b.2.run)) l).map fun g => g.map (·.1))

end Viscid.Gkeyll
