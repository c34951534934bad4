import Mathlib.Data.Rat.Floor
/-!
# Model of `viscid/plot/vlab.py`: colours and limits of mayavi's lookup tables

Arrays of colours are lists of rows. Maps that are asked for by name are taken from matplotlib, and are not modelled.
-/
namespace Viscid.Cmap

inductive Err
  | value
  | index
deriving DecidableEq, Repr

/-- `astype('i')` -/
def trunc (q : ℚ) : Int := if 0 ≤ q then ⌊q⌋ else ⌈q⌉

/-- `rgba.T` of rows of the same length -/
def transposed (rows : List (List Int)) : List (List Int) :=
  (List.range ((rows.headD []).length)).map fun c => rows.map fun r => r.getD c 0

/-- vlab.py:932-940: the colours of an array -/
def bytes (rows : List (List ℚ)) : Except Err (List (List Int)) :=
  if (∀ r ∈ rows, ∀ v ∈ r, 0 ≤ v) ∧ ∀ r ∈ rows, ∀ v ∈ r, v ≤ 1 then .ok (rows.map fun r => r.map fun v => trunc (255 * v))
  else
    let t := rows.map fun r => r.map trunc
    if (∃ r ∈ t, ∃ v ∈ r, v < 0) ∨ ∃ r ∈ t, ∃ v ∈ r, v > 255 then .error .value else .ok t

/-- vlab.py:915-947 `get_cmap` of an array of rows of the same length; `rgba.shape[1]` of no rows raises -/
def getCmap (rows : List (List ℚ)) : Except Err (List (List Int)) :=
  match bytes rows with
  | .error e => .error e
  | .ok [] => .error .index
  | .ok (r :: rs) =>
    let t := r :: rs
    let t := if r.length ≠ 3 ∧ r.length ≠ 4 ∧ (t.length = 3 ∨ t.length = 4) then transposed t else t
    .ok (if (t.headD []).length = 3 then t.map (· ++ [255]) else t)

/-- What can be given as `clim` -/
inductive Clim
  | none
  | pair (lo hi : ℚ)
  | num (q : ℚ)
deriving DecidableEq, Repr

/-- A lookup table of mayavi: limits, and is it logarithmic -/
structure Lut where
  lo : ℚ
  hi : ℚ
  log : Bool
deriving DecidableEq, Repr

/-- vlab.py:992-998: the limits given, and by what a symmetric range is scaled; 0 is not symmetric -/
def limits (l : Lut) (clim : Clim) (symmetric : ℚ) : Lut × ℚ :=
  match clim with
  | .pair lo hi => ({ l with lo := lo, hi := hi }, symmetric)
  | .num q => if q = 0 then (l, 1) else (l, q)
  | .none => (l, symmetric)

/-- vlab.py:991-1009: limits, and whether the default map is the symmetric one -/
def applyLimits (l : Lut) (clim : Clim) (symmetric : ℚ) (logscale : Bool) : Lut :=
  let (l, s) := limits l clim symmetric
  if logscale then { l with log := true }
  else if s ≠ 0 then { l with lo := -(s * max |l.lo| |l.hi|), hi := s * max |l.lo| |l.hi| }
  else l

/-- `np.interp(np.linspace(0, 1, n), np.linspace(0, 1, len(alpha)), alpha)` at entry `k` -/
def ramp (alpha : List ℚ) (n k : Nat) : ℚ :=
  let t : ℚ := if n ≤ 1 then 0 else k / (n - 1 : ℕ)
  let p : ℚ := t * (alpha.length - 1 : ℕ)
  let j := ⌊p⌋.toNat
  if j + 1 < alpha.length then alpha.getD j 0 + (alpha.getD (j + 1) 0 - alpha.getD j 0) * (p - j) else alpha.getD (alpha.length - 1) 0

/-- vlab.py:1022-1026: the last column of the colours, which are integers -/
def applyAlpha (rgba : List (List Int)) (alpha : List ℚ) : List (List Int) :=
  rgba.mapIdx fun k r => r.dropLast ++ [trunc (ramp alpha rgba.length k)]

end Viscid.Cmap
