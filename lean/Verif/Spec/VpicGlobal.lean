import Verif.Model.VpicGlobal
import Verif.Spec.LogValue
/-!
# What is in the global file of a VPIC run
-/
namespace Viscid.Spec.VpicGlobal
open Viscid.LogValue (Text)
open Viscid.VpicGlobal (Descr FieldSet Val St)
open Viscid.Vpic (Basic)
open Viscid.Spec.LogValue (IntText)
open Viscid.Spec.AsCotr (Blank)

/-- `line` is these words, with blanks before, between and behind them -/
inductive Words : Text → List Text → Prop
  | nil {b} : (∀ c ∈ b, Blank c) → Words b []
  | cons {b w r ws} : (∀ c ∈ b, Blank c) → w ≠ [] → (∀ c ∈ w, ¬ Blank c) → (∀ c, r.head? = some c → Blank c) → Words r ws →
      Words (b ++ w ++ r) (w :: ws)

/-- a comment or a blank line -/
def Skip (l : Text) : Prop := ∃ b r, l = b ++ r ∧ (∀ c ∈ b, Blank c) ∧ (r = [] ∨ r.head? = some '#')

/-- `l` is these words, and no comment -/
def Line (l : Text) (w : Text) (ws : List Text) : Prop := Words l (w :: ws) ∧ w.head? ≠ some '#'

/-- a variable, and the line it is described in -/
structure Var where
  line : Text
  name : Text
  kind : Text
  comps : Nat
  basic : Basic

/-- the words for a basic type -/
def Typed : Basic → Text → Text → Prop
  | .float4, t, b => t = "FLOATING_POINT".toList ∧ IntText b 4
  | .int2, t, b => t = "INTEGER".toList ∧ IntText b 2

/-- the name in quotes, then the kind, the number of components, the type and its number of bytes -/
def Var.Ok (v : Var) : Prop :=
  ∃ b rest n t k, v.line = b ++ '"' :: v.name ++ '"' :: rest ∧ (∀ c ∈ b, Blank c) ∧ '"' ∉ v.name ∧ '"' ∉ rest ∧
    Words rest [v.kind, n, t, k] ∧ IntText n v.comps ∧ Typed v.basic t k

/-- variables as they are numbered: each begins where the components of those before it end -/
def numbered (vs : List Var) : List Descr :=
  vs.mapIdx fun i v => ⟨v.name, v.kind, v.comps, v.basic, (((vs.take i).map Var.comps).sum : Nat)⟩

/-- lines before the variables of a species: comments, and keywords with one word -/
inductive Head
  | skip (l : Text)
  | pair (l key val : Text)

def Head.line : Head → Text
  | .skip l => l
  | .pair l _ _ => l

def Head.Ok : Head → Prop
  | .skip l => Skip l
  | .pair l k v => Line l k [v] ∧ k ≠ "HYDRO_DATA_VARIABLES".toList

/-- `v` is what was last given for `key` -/
def Given (hs : List Head) (key v : Text) : Prop :=
  ∃ a l b, hs = a ++ Head.pair l key v :: b ∧ ∀ l' v', Head.pair l' key v' ∉ b

/-- a species -/
structure Species where
  head : List Head
  line : Text
  dir : Text
  base : Text
  vars : List Var

def Species.lines (s : Species) : List Text := s.head.map Head.line ++ s.line :: s.vars.map Var.line

def Species.Ok (s : Species) : Prop :=
  (∀ h ∈ s.head, h.Ok) ∧ (∃ n, Line s.line "HYDRO_DATA_VARIABLES".toList [n] ∧ IntText n s.vars.length) ∧
  Given s.head "SPECIES_DATA_DIRECTORY".toList s.dir ∧ Given s.head "SPECIES_DATA_BASE_FILENAME".toList s.base ∧
  ∀ v ∈ s.vars, v.Ok

/-- names of keywords with a number, a decimal number, two of them, or a word -/
def ints : List String := ["DATA_HEADER_SIZE", "GRID_TOPOLOGY_X", "GRID_TOPOLOGY_Y", "GRID_TOPOLOGY_Z"]
def floats : List String := ["GRID_DELTA_T", "GRID_CVAC", "GRID_EPS0", "GRID_DELTA_X", "GRID_DELTA_Y", "GRID_DELTA_Z"]
def pairs : List String := ["GRID_EXTENTS_X", "GRID_EXTENTS_Y", "GRID_EXTENTS_Z"]
def texts : List String := ["FIELD_DATA_DIRECTORY", "FIELD_DATA_BASE_FILENAME"]

/-- `ws` says `v` for the keyword -/
def Says (float : Text → Option ℚ) (key : String) (ws : List Text) : Val → Prop
  | .int n => key ∈ ints ∧ ∃ w, ws = [w] ∧ IntText w n
  | .flt x => key ∈ floats ∧ ∃ w, ws = [w] ∧ float w = some x
  | .two x y => key ∈ pairs ∧ ∃ u w, ws = [u, w] ∧ float u = some x ∧ float w = some y
  | .text s => key ∈ texts ∧ ws = [s]

/-- words at the beginning of a line that have a meaning -/
def known : List String := ints ++ floats ++ pairs ++ texts ++ ["VPIC_HEADER_VERSION", "FIELD_DATA_VARIABLES", "NUM_OUTPUT_SPECIES"]

/-- parts of a global file -/
inductive Part
  | skip (l : Text)
  | version (l : Text)
  | other (l : Text)
  | keyword (l : Text) (key : String) (v : Val)
  | fields (l : Text) (vars : List Var)
  | species (l : Text) (sp : List Species)

def Part.lines : Part → List Text
  | .skip l => [l]
  | .version l => [l]
  | .other l => [l]
  | .keyword l _ _ => [l]
  | .fields l vars => l :: vars.map Var.line
  | .species l sp => l :: sp.flatMap Species.lines

def Part.Ok (float : Text → Option ℚ) : Part → Prop
  | .skip l => Skip l
  | .version l => Line l "VPIC_HEADER_VERSION".toList ["1.0.0".toList]
  | .other l => ∃ w ws, Line l w ws ∧ ∀ k ∈ known, w ≠ k.toList
  | .keyword l key v => ∃ ws, Line l key.toList ws ∧ Says float key ws v
  | .fields l vars => (∃ n, Line l "FIELD_DATA_VARIABLES".toList [n] ∧ IntText n vars.length) ∧ ∀ v ∈ vars, v.Ok
  | .species l sp => (∃ n, Line l "NUM_OUTPUT_SPECIES".toList [n] ∧ IntText n sp.length) ∧ ∀ s ∈ sp, s.Ok

/-- `v` is the last value of the keyword -/
def Last (ps : List Part) (key : String) (v : Val) : Prop :=
  ∃ a l b, ps = a ++ Part.keyword l key v :: b ∧ ∀ l' v', Part.keyword l' key v' ∉ b

/-- of the last value of keywords that end in X, Y or Z -/
def IsAxis (ps : List Part) (c : String) (a : Viscid.Vpic.Axis) : Prop :=
  Last ps ("GRID_TOPOLOGY_" ++ c) (.int a.topo) ∧ Last ps ("GRID_DELTA_" ++ c) (.flt a.dx) ∧ Last ps ("GRID_EXTENTS_" ++ c) (.two a.xl a.xh)

/-- the last fields of the file, with what is given before them -/
def LastFields (ps : List Part) (dir base : Text) (vars : List Var) : Prop :=
  ∃ a l b, ps = a ++ Part.fields l vars :: b ∧ (∀ l' vs, Part.fields l' vs ∉ b) ∧ Last a "FIELD_DATA_DIRECTORY" (.text dir) ∧
    Last a "FIELD_DATA_BASE_FILENAME" (.text base)

/-- the last species of the file -/
def LastSpecies (ps : List Part) (ss : List Species) : Prop :=
  ∃ a l b, ps = a ++ Part.species l ss :: b ∧ ∀ l' vs, Part.species l' vs ∉ b

/-- fields come after their directory and base name -/
def Ordered (ps : List Part) : Prop :=
  ∀ a l vars b, ps = a ++ Part.fields l vars :: b → ∃ dir base, Last a "FIELD_DATA_DIRECTORY" (.text dir) ∧ Last a "FIELD_DATA_BASE_FILENAME" (.text base)

/-- what a species is read as -/
def Species.asSet (s : Species) : FieldSet := ⟨s.dir, s.base, numbered s.vars⟩

end Viscid.Spec.VpicGlobal
