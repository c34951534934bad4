import Mathlib.Data.Real.Basic
/-!
# Moments of a plasma, and the components of Gkeyll files
-/
namespace Viscid.Spec.Gkeyll

/-- species -/
inductive Species : String → Prop
  | e : Species "e"
  | i : Species "i"

inductive Letter : String → Prop
  | x : Letter "x"
  | y : Letter "y"
  | z : Letter "z"

/-- axes of the six components of a symmetric tensor, first letter not after the second -/
inductive Pair : String → String → Prop
  | xx : Pair "x" "x"
  | xy : Pair "x" "y"
  | xz : Pair "x" "z"
  | yy : Pair "y" "y"
  | yz : Pair "y" "z"
  | zz : Pair "z" "z"

/-- momentum density `m` and mass density `r` are those of a bulk velocity `u` -/
def Bulk (r m u : ℝ) : Prop := m = r * u

/-- the pressure is the second moment without that of the bulk motion -/
def Pressure (r ua ub p P : ℝ) : Prop := P = p - r * ua * ub

/-- the components of the files of one fluid -/
def hydro : List String := ["rho", "rhoux", "rhouy", "rhouz", "e"]
/-- one fluid of five moments -/
def fiveOf (s : String) : List String := ["rho_" ++ s, "rhoux_" ++ s, "rhouy_" ++ s, "rhouz_" ++ s, "e_" ++ s]
/-- one fluid of ten moments -/
def tenOf (s : String) : List String :=
  ["rho_" ++ s, "rhoux_" ++ s, "rhouy_" ++ s, "rhouz_" ++ s] ++
    (["xx", "xy", "xz", "yy", "yz", "zz"].map fun p => "p" ++ p ++ "_" ++ s)
def fields : List String := ["Ex", "Ey", "Ez", "Bx", "By", "Bz"]

/-- kinds of files with the names of their components -/
inductive Kind : String → List String → Prop
  | hydro : Kind "hydro" hydro
  | five : Kind "five-moment" (fiveOf "e" ++ fiveOf "i" ++ fields)
  | ten : Kind "ten-moment" (tenOf "e" ++ tenOf "i" ++ fields)
  | corrected {k l} : Kind k l → Kind k (l ++ ["phi_E", "phi_B"])

end Viscid.Spec.Gkeyll
