import Verif.Model.TimeDelta
/-!
# What turning numbers into times should do
-/
namespace Viscid.Spec.TimeDelta
open Viscid.NpTime

/-- `n` units `u`, in attoseconds -/
def atto (n : ℚ) (u : U) : ℚ := n * u.size

/-- `t` is within 0.01 % (and 1e-18 units) of `n` units `u`; both in attoseconds -/
def Close (t : ℚ) (n : Int) (u : U) : Prop :=
  |t - atto n u| ≤ |atto n u| / 10 ^ 4 + atto (1 / 10 ^ 18) u

/-- `n` is an integer nearest to `t` units `u` -/
def Nearest (t : ℚ) (n : Int) (u : U) : Prop := |t - atto n u| ≤ atto (1 / 2) u

end Viscid.Spec.TimeDelta
