import Verif.Model.Vpic
import Verif.Spec.AthenaBin
/-!
# VPIC runs, as they are written

A run is cut into blocks, one per process; each process writes one file per set of variables, with one layer of ghost cells around its block. Only
the types of variables and axes are taken from the model.
-/
namespace Viscid.Spec.Vpic
open Viscid.Vpic Viscid.Spec.AthenaBin

/-- node `m` of the whole run along an axis -/
def node (a : Axis) (m : Nat) : ℚ := a.xl + m * a.dx

/-- a block has `l` cells along an axis: its upper end is there, up to less than half a cell -/
def Cells (a : Axis) (l : Nat) : Prop := 0 < a.dx ∧ |a.xh - node a l| < a.dx / 2

/-- name of component `c` of `n` -/
def letter (n c : Nat) : String :=
  if n = 3 then ["X", "Y", "Z"].getD c ""
  else if n = 6 then ["XX", "YY", "ZZ", "YZ", "ZX", "XY"].getD c ""
  else ["A", "B", "C", "D", "E", "F", "G", "H", "I", "J", "K", "L", "M", "N"].getD c ""

/-- name of component `c` of a variable of a set -/
def label (base : String) (v : Var) (c : Nat) : String :=
  let name := if base = "fields" then v.name else v.name ++ " (" ++ base ++ ")"
  if v.comps = 1 then name else name ++ " " ++ letter v.comps c

/-- all components of the variables, in order, each with the place of its variable -/
def components (vars : List Var) : List (Nat × Var × Nat) := vars.zipIdx.flatMap fun vi => (List.range vi.1.comps).map fun c => (vi.2, vi.1, c)

/-- what one process writes: cells without ghost cells, the parts of the header nobody reads, values of component `c` of variable `v` in the cells from
0 to `n + 1`, of which the first and the last are ghost cells -/
structure Dump where
  nx : Nat
  ny : Nat
  nz : Nat
  pre : List UInt8
  mid : List UInt8
  val : Nat → Nat → Nat → Nat → Nat → List UInt8

structure Dump.Sized (d : Dump) : Prop where
  pre : d.pre.length = 64
  mid : d.mid.length = 24
  val : ∀ v c i j k, (d.val v c i j k).length = 4
  nx : d.nx + 2 < 2 ^ 31
  ny : d.ny + 2 < 2 ^ 31
  nz : d.nz + 2 < 2 ^ 31

/-- one component: x varies fastest -/
def Dump.comp (d : Dump) (v c : Nat) : List (List UInt8) :=
  (List.range (d.nz + 2)).flatMap fun k => (List.range (d.ny + 2)).flatMap fun j => (List.range (d.nx + 2)).map fun i => d.val v c i j k

/-- the file: sizes of types, numbers to recognise the order of bytes, header, sizes with ghost cells, and the components -/
def Dump.file (d : Dump) (vars : List Var) : List UInt8 :=
  [8, 2, 4, 4, 8] ++ [0xfe, 0xca, 0xef, 0xbe, 0xad, 0xde] ++ [0, 0, 0x80, 0x3f] ++ [0, 0, 0, 0, 0, 0, 0xf0, 0x3f] ++ d.pre ++ d.mid ++
    int4 (d.nx + 2) ++ int4 (d.ny + 2) ++ int4 (d.nz + 2) ++ (components vars).flatMap fun vc => (d.comp vc.1 vc.2.2).flatMap fun w => w

/-- decimal numerals -/
inductive Decimal : List Char → Nat → Prop
  | digit (d : Nat) : d < 10 → Decimal [Char.ofNat (48 + d)] d
  | snoc (cs : List Char) (n d : Nat) : Decimal cs n → d < 10 → Decimal (cs ++ [Char.ofNat (48 + d)]) (10 * n + d)

/-- the directory of step `n` -/
def StepDir (dir : List Char) (n : Nat) : Prop := ∃ cs, Decimal cs n ∧ dir = ['T', '.'] ++ cs

/-- names in which no dot comes before a digit, such as `rundata` or `info.txt` -/
def Plain (dir : List Char) : Prop := ∀ pre c post, dir = pre ++ '.' :: c :: post → c.isDigit = false

end Viscid.Spec.Vpic
