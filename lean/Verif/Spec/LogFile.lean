import Verif.Model.LogFile
/-!
# What a log file looks like
-/
namespace Viscid.Spec.LogFile
open Viscid.LogFile (Syntax)

/-- The classes whose parameters are recorded -/
def Watched (c : String) : Prop :=
  c = "ggcm_mhd" ∨ c = "ggcm_mhd_ic" ∨ c = "ggcm_mhd_step" ∨ c = "ggcm_mhd_fld" ∨ c = "ggcm_dipole" ∨ c = "mrc_domain" ∨ c = "mrc_crds"

/-- The names of the types of MHD, as numbered in ggcm_mhd.h -/
def typeName : Nat → String
  | 0 => "MT_PRIMITIVE"
  | 1 => "MT_SEMI_CONSERVATIVE_GGCM"
  | 2 => "MT_SEMI_CONSERVATIVE"
  | 3 => "MT_FULLY_CONSERVATIVE"
  | 4 => "MT_FULLY_CONSERVATIVE_CC"
  | 5 => "MT_GKEYLL"
  | _ => "UNKNOWN"

/-- The parts of a log file: the view of a class, with a heading of two lines, or a line that is none -/
inductive Part
  | view (head h1 h2 : String) (c : String) (body : List String)
  | line (l : String)

/-- the lines -/
def Part.lines : Part → List String
  | .view head h1 h2 _ body => head :: h1 :: h2 :: (body ++ [""])
  | .line l => [l]

/-- the view of a watched class ends with the first blank line; other lines are not the beginning of one -/
def Part.Ok (x : Syntax V) : Part → Prop
  | .view head _ _ c body => x.cls head = some c ∧ Watched c ∧ (∀ l ∈ body, l ≠ "") ∧ x.param "" = none ∧ x.typ "" = none
  | .line l => ∀ c, x.cls l = some c → ¬ Watched c

/-- what a line of a view says -/
def says (x : Syntax V) (c l : String) : Option (String × V) :=
  match x.param l with
  | some (k, v) => some (c ++ "_" ++ k, v)
  | none => (x.typ l).map fun t => (c ++ "_type", x.str t)

/-- what a part says -/
def Part.says (x : Syntax V) : Part → List (String × V)
  | .view _ _ _ c body => body.filterMap (Spec.LogFile.says x c)
  | .line _ => []

end Viscid.Spec.LogFile
