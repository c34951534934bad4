import Verif.Model.Arith
import Verif.Model.Resample
/-!
# Model of `viscid/dipole.py`: set_in_region

Arrays and broadcasting are those of `Verif.Model.Arith`. Numbers are rational; arrays of integers are told apart because numbers put into them lose their fraction.
Masks that are vector fields are taken after `as_centered` and `as_layout` (dipole.py:227-228). numexpr and numpy give the same values here.
-/
namespace Viscid.Region
open Viscid.Arith
open Viscid.Layout (Arr prod)
open Viscid.Resample (store)

/-- a mask: nothing, a scalar or vector field, or an array -/
inductive Mask
  | none
  | scalar (a : Arr Bool)
  | vector (a : Arr Bool)
  | array (a : Arr Bool)

/-- `np.choose(mask, [a, b])`: `b` where the mask is True -/
def choose (mask : Arr Bool) (a b : Arr α) : Except Exc (Arr α) := do
  apply (fun m (x : α × α) => if m then x.2 else x.1) mask (← apply Prod.mk a b)

/-- `out[...] = a`: the shape of `a` has to be one that is broadcast to that of `out` -/
def assign (whole : Bool) (out : Arr ℚ) (a : Arr ℚ) : Except Exc (Arr ℚ) :=
  if bcast a.shape out.shape = some out.shape then .ok ⟨out.shape, fun idx => store whole (a.get (bidx a.shape idx))⟩ else .error .value

/-- `mask.data.reshape(list(mask.sshape) + [1])` of a scalar field (dipole.py:233-234) -/
def column (a : Arr Bool) : Arr Bool := ⟨a.shape ++ [1], fun idx => a.get idx.dropLast⟩

/-- dipole.py:209-236 `set_in_region(a, b, alpha, beta, mask, out)`. `whole`: the numbers of `a` are integers; `out`: whether its numbers are integers, and its
data; `junk` is what is in memory that has just been allocated (`empty_like`). The reshape of vector fields is a ValueError, arrays have no `sshape`. -/
def setInRegion (whole : Bool) (a b : Arr ℚ) (alpha beta : ℚ) (mask : Mask) (out : Option (Bool × Arr ℚ)) (junk : List Nat → ℚ) : Except Exc (Arr ℚ) := do
  let al := store whole alpha
  let be := store whole beta
  let vals ← apply (fun x y => al * x + be * y) a b
  let o := out.getD (whole, ⟨a.shape, junk⟩)
  match mask with
  | .none => assign o.1 o.2 vals
  | .scalar m =>
    match choose m o.2 vals >>= assign o.1 o.2 with
    | .error .value => choose (column m) o.2 vals >>= assign o.1 o.2
    | r => r
  | .vector m => choose m o.2 vals >>= assign o.1 o.2
  | .array m =>
    match choose m o.2 vals >>= assign o.1 o.2 with
    | .error .value => .error .attribute
    | r => r

end Viscid.Region
