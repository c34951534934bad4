import Verif.Model.Fortbin
import Verif.Model.Crds
/-
The ionosphere in OpenGGCM's binary files (RUN.iof.TIME.b): coordinates and data.

Models openggcm.py:808-829 (`make_crds`, `_shape_discovery_hack`), ggcm_fortbin.py:291-294, 316-330, 369-374 and field.py:724-728,
857-890, 1000-1010 for scalar fields at nodes with data in the order zyx.

Simplifications: coordinates are rational numbers; values are the bytes of floating point numbers; the layouts of fields, the
reflection of axes and transformations, of which fields of the ionosphere have none, are not modelled.
-/
namespace Viscid.IonoFile
open Viscid.Fortbin
open Viscid.AthenaBin (Word)

/-- Coordinates of the ionosphere in degrees, openggcm.py:812-814 -/
structure Crds where
  phi : List ℚ
  theta : List ℚ
deriving DecidableEq, Repr

/-- ggcm_fortbin.py:291-294 `_shape_discovery_hack`: the sizes of the first field; without one `None['dims']` is a TypeError -/
def shapeOf (file : List UInt8) : Except Err (List Nat) :=
  match openNew file with
  | .error e => .error e
  | .ok w => match (w.next file 0).2 with
    | some (_, _, m) => .ok m.dims
    | none => .error .type

/-- openggcm.py:808-814 `make_crds` for files of type iof -/
def makeCrds (file : List UInt8) : Except Err Crds :=
  match shapeOf file with
  | .error e => .error e
  | .ok [nphi, ntheta] => .ok ⟨Viscid.Crds.linspace 0 360 nphi, Viscid.Crds.linspace 0 180 ntheta⟩
  | .ok _ => .error .value

/-- The index of entry `k` of an array in C order -/
def unravel : List Nat → Nat → List Nat
  | [], _ => []
  | _ :: s, k => k / s.foldr (· * ·) 1 :: unravel s (k % s.foldr (· * ·) 1)

/-- field.py:857-890, 1000-1010: the array from the file (shape and values, in the order zyx) is transposed, and given the shape of the coordinates -/
def onGrid (c : Crds) (a : List Nat × (List Nat → Option Word)) : Except Err (Nat → Nat → Option Word) :=
  if a.1.reverse = [c.phi.length, c.theta.length] then .ok fun i j => a.2 [i, j].reverse
  else if a.1.reverse.foldr (· * ·) 1 = c.phi.length * c.theta.length then .ok fun i j => a.2 (unravel a.1.reverse (i * c.theta.length + j)).reverse
  else .error .value

/-- openggcm.py:754-791, ggcm_fortbin.py:316-330: the data of a field of `file` in a series that begins with `first`; the coordinates are those of the first file -/
def data (first file : List UInt8) (t : Item) : Except Err (Nat → Nat → Option Word) :=
  match makeCrds first with
  | .error e => .error e
  | .ok c => match fieldOf file t with
    | .error e => .error e
    | .ok a => onGrid c a

end Viscid.IonoFile
