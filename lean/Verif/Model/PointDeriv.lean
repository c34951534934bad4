import Verif.Model.Interp
import Mathlib.Data.Fin.VecNotation
/-!
# Model of `viscid/calculator/calc.py`: derivatives at a point and at an index

Rational coordinates and values; interpolation is the model of Model/Interp.lean, with its cache carried
through the six points, started at zero for each component.
-/
namespace Viscid.PointDeriv
open Viscid.Interp

/-- A cell-centred vector field: three axes and three components. -/
structure VFld where
  ax : Axis
  ay : Axis
  az : Axis
  data : Fin 3 → Nat → Nat → Nat → ℚ

def VFld.axis (B : VFld) : Fin 3 → Axis := ![B.ax, B.ay, B.az]

/-- One component as an interpolation grid. -/
def VFld.grid (B : VFld) (m : Fin 3) : Grid := ⟨B.ax, B.ay, B.az, B.data m⟩

/-- The names a Python program sees in the compiled module viscid.cython.cycalc: the functions declared with
`def` (cycalc.pyx:20, 91, 111, 113, 128, 210).  closest_ind (line 291) is declared with `cdef inline`, so it is
not among them; the method table in cycalc.c agrees. -/
def cycalcNames : List String :=
  ["interp", "interp_trilin", "interp_linear", "interp_nearest", "_py_interp_trilin", "_py_interp_nearest"]

/-- calc.py:532-538: the spacing along one axis; the closest index is searched also when the spacing is
given.  `none`: an exception (`crd[ind + 1]` past the end). -/
def spacing (a : Axis) (loc : ℚ) (d : Option ℚ) : Option ℚ :=
  match closest a loc 0 with
  | none => none
  | some i =>
    match d with
    | some d => some d
    | none =>
      match a.crds[i + 1]?, a.crds[i]? with
      | some y, some x => some (y - x)
      | _, _ => none

/-- calc.py:503-545 local_vector_points: the values `bs` (row, component) and the spacings.  `names` are the
names visible in cycalc: `cycalc.closest_ind` at line 536 raises AttributeError if it is not one of them. -/
def localPoints (names : List String) (B : VFld) (x y z : ℚ) (dx dy dz : Option ℚ) : Option ((Nat → Fin 3 → ℚ) × (Fin 3 → ℚ)) :=
  if "closest_ind" ∉ names then none else
  match spacing B.ax x dx, spacing B.ay y dy, spacing B.az z dz with
  | some hx, some hy, some hz =>
    let pts : List (ℚ × ℚ × ℚ) :=
      [(x - hx, y, z), (x + hx, y, z), (x, y - hy, z), (x, y + hy, z), (x, y, z - hz), (x, y, z + hz)]
    let run := fun m : Fin 3 => sweep trilin (pts.map fun p => (B.grid m, p)) (0, 0, 0)
    match run 0, run 1, run 2 with
    | some b0, some b1, some b2 => some (fun r m => (![b0, b1, b2] m).getD r 0, ![hx, hy, hz])
    | _, _, _ => none
  | _, _, _ => none

/-- calc.py:547-571 jacobian_at_point: entry (i, j) is ∂_j B_i. -/
def jacobianAtPoint (names : List String) (B : VFld) (x y z : ℚ) (dx dy dz : Option ℚ) : Option (Fin 3 → Fin 3 → ℚ) :=
  match localPoints names B x y z dx dy dz with
  | none => none
  | some (bs, h) =>
    some fun i => ![(bs 1 i - bs 0 i) / (2 * h 0), (bs 3 i - bs 2 i) / (2 * h 1), (bs 5 i - bs 4 i) / (2 * h 2)]

/-- calc.py:618-624 div_at_point. -/
def divAtPoint (names : List String) (B : VFld) (x y z : ℚ) (dx dy dz : Option ℚ) : Option ℚ :=
  match localPoints names B x y z dx dy dz with
  | none => none
  | some (As, h) =>
    some (0 + (As 1 0 - As 0 0) / (2 * h 0) + (As 3 1 - As 2 1) / (2 * h 1) + (As 5 2 - As 4 2) / (2 * h 2))

/-- calc.py:626-639 curl_at_point, rows as in the code: `As[2 * 1 + 1, 2]` etc. -/
def curlAtPoint (names : List String) (B : VFld) (x y z : ℚ) (dx dy dz : Option ℚ) : Option (Fin 3 → ℚ) :=
  match localPoints names B x y z dx dy dz with
  | none => none
  | some (As, h) =>
    some ![(As (2 * 1 + 1) 2 - As (2 * 1 + 0) 2) / (2 * h 1) - (As (2 * 0 + 1) 1 - As (2 * 0 + 0) 1) / (2 * h 2),
      (As (2 * 0 + 1) 0 - As (2 * 0 + 0) 0) / (2 * h 2) - (As (2 * 2 + 1) 2 - As (2 * 2 + 0) 2) / (2 * h 0),
      (As (2 * 2 + 1) 1 - As (2 * 2 + 0) 1) / (2 * h 0) - (As (2 * 1 + 1) 0 - As (2 * 1 + 0) 0) / (2 * h 1)]

/-- A numpy index: negative counts from the end; `none`: IndexError. -/
def npIndex (n : Nat) (i : Int) : Option Nat :=
  if 0 ≤ i ∧ i < n then some i.toNat else if i < 0 ∧ -n ≤ i then some (i + n).toNat else none

/-- `a[i]` with a possibly negative index. -/
def npGet (c : List ℚ) (i : Int) : Option ℚ := (npIndex c.length i).bind fun j => c[j]?

/-- `bi[i, j, k]` -/
def npData (B : VFld) (m : Fin 3) (i j k : Int) : Option ℚ :=
  match npIndex B.ax.n i, npIndex B.ay.n j, npIndex B.az.n k with
  | some i, some j, some k => some (B.data m i j k)
  | _, _, _ => none

/-- `(p - q) / (r - s)` of reads that may fail. -/
def ratio (p q r s : Option ℚ) : Option ℚ :=
  match p, q, r, s with
  | some p, some q, some r, some s => some ((p - q) / (r - s))
  | _, _, _, _ => none

/-- calc.py:573-592 jacobian_at_ind, entry (m, j). -/
def jacobianAtInd (B : VFld) (i j k : Int) (m : Fin 3) : Fin 3 → Option ℚ :=
  ![ratio (npData B m (i + 1) j k) (npData B m (i - 1) j k) (npGet B.ax.crds (i + 1)) (npGet B.ax.crds (i - 1)),
    ratio (npData B m i (j + 1) k) (npData B m i (j - 1) k) (npGet B.ay.crds (j + 1)) (npGet B.ay.crds (j - 1)),
    ratio (npData B m i j (k + 1)) (npData B m i j (k - 1)) (npGet B.az.crds (k + 1)) (npGet B.az.crds (k - 1))]

end Viscid.PointDeriv
