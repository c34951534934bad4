import Verif.Model.Dipole
import Verif.Model.MapField
/-!
# Model of `dipole_map_value` of `viscid/dipole.py`

One point at a time. The interpolation is a parameter: a field of theta and phi and a point (r, theta, phi) to a value, `none` being nan.
-/
namespace Viscid.DipValue
open Viscid.Rotation Viscid.Cotr Viscid.MapField Viscid.Dipole

inductive Fail
  | map (e : MapField.Err)
  | cotr (e : Cotr.Err)

/-- dipole.py:351-383 `dipole_map_value`, with `s` for line 366-367. `fld.is_spherical` (lines 369, 379) is a method that is not called, so it is always true. -/
noncomputable def mapValue {α : Type} (p : Params) (s : Sys) (r : ℝ) (interp : Fld α → V3 → Option α) (fillna : Option α) (f : Fld α) (pt : V3) (σ : St) :
    Except Fail (Option α) :=
  match asSpherefield f ["theta", "phi"] (.str "") with
  | .error e => .error (.map e)
  | .ok g =>
    match (dipoleMapSph p s r pt σ).1 with
    | .error e => .error (.cotr e)
    | .ok a =>
      match interp g a with
      | some v => .ok (some v)
      | none => .ok fillna

end Viscid.DipValue
