import Verif.Model.Rotation
import Mathlib.Analysis.SpecialFunctions.Trigonometric.Inverse
import Mathlib.Algebra.Order.Floor.Ring
import Mathlib.Algebra.Order.Archimedean.Real.Basic
/-!
# Model of `viscid/cotr.py`: geophysical coordinate transforms

The object `Cotr` with all its caches, as a state machine: a method call takes the state of the object to a
result (a value or an exception) and a new state; state changes made before an exception survive it.

Simplifications, everywhere below: real numbers instead of floats; `rdim = 3` (with `rdim = 4` every matrix
gets one more row and column of the identity); vectors are single 3-vectors (a (3, N) array is transformed
column by column); names of systems are given stripped and in lower case (`as_crd_system`, cotr.py:295-333,
has been applied); `np.arcsin` outside of [-1, 1] is clamped where numpy gives nan (this does not happen
for the table of coefficients: `C72_axis_north`); the time is a real number of days since 1970-01-01T00:00,
i.e. rounding of times to microseconds is not modelled.
-/
namespace Viscid.Cotr
open Matrix Viscid.Rotation

noncomputable section

/-- Names of coordinate systems. `hae` occurs in the lookup table, `hea` in the list `HELIOCENTRIC`. -/
inductive Sys where
  | gei | geo | gse | gsm | sm | mag | mhd
  | hae | hea | hee | heeq
  | other (name : String)
  deriving DecidableEq, Repr

inductive Err where
  | valueError | typeError | runtimeError | notImplemented | recursion
  deriving DecidableEq, Repr

/-- Values of the table: a tuple, or a bare integer (the parentheses around one integer make no tuple). -/
inductive Entry where
  | word (l : List Int)
  | int (i : Int)
  deriving DecidableEq, Repr

/-- cotr.py:356-391 `Cotr.XFORM_LOOKUP` -/
def lookup : Sys → Sys → Option Entry
  | .gei, .gei => some (.word [0])
  | .geo, .gei => some (.word [-1])
  | .gse, .gei => some (.word [-2])
  | .gsm, .gei => some (.word [-2, -3])
  | .sm, .gei => some (.word [-2, -3, -4])
  | .mag, .gei => some (.word [-1, -5])
  | .mhd, .gei => some (.word [-2, 6])
  | .geo, .geo => some (.word [0])
  | .gse, .geo => some (.word [1, -2])
  | .gsm, .geo => some (.word [1, -2, -3])
  | .sm, .geo => some (.word [1, -2, -3, -4])
  | .mag, .geo => some (.word [-5])
  | .mhd, .geo => some (.word [1, -2, 6])
  | .gse, .gse => some (.word [0])
  | .gsm, .gse => some (.word [-3])
  | .sm, .gse => some (.word [-3, -4])
  | .mag, .gse => some (.word [2, -1, -5])
  | .mhd, .gse => some (.word [6])
  | .gsm, .gsm => some (.word [0])
  | .sm, .gsm => some (.word [-4])
  | .mag, .gsm => some (.word [3, 2, -1, -5])
  | .mhd, .gsm => some (.word [3, 6])
  | .sm, .sm => some (.word [0])
  | .mag, .sm => some (.word [4, 3, 2, -1, -5])
  | .mhd, .sm => some (.word [4, 3, 6])
  | .mag, .mag => some (.word [0])
  | .mhd, .mag => some (.word [5, 1, -2, 6])
  | .mhd, .mhd => some (.word [0])
  | .hae, .hae => some (.int 0)
  | .hee, .hae => some (.int (-11))
  | .heeq, .hae => some (.int (-12))
  | .hee, .hee => some (.int 0)
  | .heeq, .heeq => some (.int 0)
  | _, _ => none

/-- cotr.py:354 `GEOCENTRIC` -/
def geocentric : List Sys := [.gei, .geo, .gse, .gsm, .sm, .mag, .mhd]
/-- cotr.py:355 `HELIOCENTRIC` (`'hea'`, not `'hae'`) -/
def heliocentric : List Sys := [.hea, .hee, .heeq]

def deg2rad (x : ℝ) : ℝ := x * (Real.pi / 180)
def rad2deg (x : ℝ) : ℝ := x * (180 / Real.pi)

inductive Ax where
  | x | y | z
  deriving DecidableEq, Repr

/-- cotr.py:171-220 `make_rotation` with `rdim=3`: left handed around x and z, right handed around y. -/
def makeRotation (theta : ℝ) (axis : Ax) : M3 :=
  let s := Real.sin (deg2rad theta)
  let c := Real.cos (deg2rad theta)
  if theta = 0 then 1
  else match axis with
    | .x => !![1, 0, 0; 0, c, s; 0, -s, c]
    | .y => !![c, 0, s; 0, 1, 0; -s, 0, c]
    | .z => !![c, s, 0; -s, c, 0; 0, 0, 1]

/-- `np.interp(x, xp, fp)` for increasing `xp`, given as pairs: constant outside of the range. -/
def interp (x : ℝ) : List (ℝ × ℝ) → ℝ
  | [] => 0
  | [(_, y)] => y
  | (x0, y0) :: (x1, y1) :: rest =>
    if x ≤ x0 then y0
    else if x ≤ x1 then (y1 - y0) / (x1 - x0) * (x - x0) + y0
    else interp x ((x1, y1) :: rest)

/-- One row of `_IGRF`: year, g10, g11, h11. -/
structure Row where
  year : ℝ
  g10 : ℝ
  g11 : ℝ
  h11 : ℝ

/-- cotr.py:111-124 `_IGRF` -/
def igrf : List Row :=
  [⟨1950, -30554, -2250, 5815⟩, ⟨1955, -30500, -2215, 5820⟩, ⟨1960, -30421, -2169, 5791⟩,
   ⟨1965, -30334, -2119, 5776⟩, ⟨1970, -30220, -2068, 5737⟩, ⟨1975, -30100, -2013, 5675⟩,
   ⟨1980, -29992, -1956, 5604⟩, ⟨1985, -29873, -1905, 5500⟩, ⟨1990, -29775, -1848, 5406⟩,
   ⟨1995, -29692, -1784, 5306⟩, ⟨2000, -29619.40, -1728.20, 5186.10⟩,
   ⟨2005, -29554.63, -1669.05, 5077.99⟩, ⟨2010, -29496.57, -1586.42, 4944.26⟩,
   ⟨2015, -29442, -1501, 4797.10⟩]

/-- npdatetime.py:760-767 `datetime64_as_years`, of a time in days since 1970-01-01. -/
def asYears (days : ℝ) : ℝ := days / 365.242 + 1970

/-- What `Cotr.__init__` is called with. -/
structure Params where
  /-- days since 1970-01-01T00:00 -/
  days : ℝ
  dipTilt : Option ℝ := none
  dipGsm : Option ℝ := none
  notilt1967 : Bool := true

open Classical in
/-- cotr.py:131 and 446 `notilt` -/
def Params.notilt (p : Params) : Bool := p.notilt1967 && decide (|asYears p.days - 1967| < 0.0006)

/-- cotr.py:127-139 `_igrf_interpolate`: (g10, g11, h11) -/
def Params.coefs (p : Params) : ℝ × ℝ × ℝ :=
  if p.notilt then (-30554, 0, 0)
  else (interp (asYears p.days) (igrf.map fun r => (r.year, r.g10)),
        interp (asYears p.days) (igrf.map fun r => (r.year, r.g11)),
        interp (asYears p.days) (igrf.map fun r => (r.year, r.h11)))

/-- cotr.py:423-426: whole days since 1858-11-17, which is 40587 days before 1970-01-01. -/
def Params.mjd (p : Params) : ℝ := (⌊p.days + 40587⌋ : ℤ)
/-- cotr.py:428-433: hours since midnight -/
def Params.ut (p : Params) : ℝ := (p.days - (⌊p.days⌋ : ℤ)) * 24
/-- cotr.py:436 -/
def Params.t0 (p : Params) : ℝ := (p.mjd - 51544.5) / 36525

/-- cotr.py:444 `_disable_mag_crds` -/
def Params.disabled (p : Params) : Bool := p.dipTilt.isSome || p.dipGsm.isSome

/-- cotr.py:453-455: the angles are filled with 0 if one is given, or on the special day. -/
def Params.fillAngle (p : Params) (a : Option ℝ) : Option ℝ :=
  if p.disabled || p.notilt then some (a.getD 0) else a

/-- The caches of the object (cotr.py:413-414, 457-463). -/
structure St where
  emat : Int → Option M3
  xform : Sys × Sys → Option M3
  sun : Option ℝ
  geolon : Option ℝ
  geolat : Option ℝ
  qg : Option V3
  qe : Option V3
  tilt : Option ℝ
  gsm : Option ℝ

/-- cotr.py:393-472 `__init__`: empty caches, except the angles and, on the special day, the elementary
    matrices 1, 2 and 5. -/
def init (p : Params) : St where
  emat := fun i => if p.notilt = true ∧ (i.natAbs = 1 ∨ i.natAbs = 2 ∨ i.natAbs = 5) then some 1 else none
  xform := fun _ => none
  sun := none
  geolon := none
  geolat := none
  qg := none
  qe := none
  tilt := p.fillAngle p.dipTilt
  gsm := p.fillAngle p.dipGsm

/-- A method call: from a state to a result and the next state. -/
def Act (α : Type) := St → Except Err α × St

instance : Monad Act where
  pure a := fun σ => (.ok a, σ)
  bind act f := fun σ => match act σ with
    | (.ok a, σ') => f a σ'
    | (.error e, σ') => (.error e, σ')

def raise {α : Type} (e : Err) : Act α := fun σ => (.error e, σ)

/-- The pattern `if self._cached_X is None: self._cached_X = <act>; return self._cached_X`
    (reading back what was stored; never `None` then). -/
def memo {α : Type} (get : St → Option α) (set : St → α → St) (act : Act α) : Act α := fun σ =>
  match get σ with
  | some v => (.ok v, σ)
  | none => match act σ with
    | (.ok v, σ') =>
      match get (set σ' v) with
      | some r => (.ok r, set σ' v)
      | none => (.error .typeError, set σ' v)
    | (.error e, σ') => (.error e, σ')

/-- cotr.py:478-489 `sun_ecliptic_longitude` -/
def sunLon (p : Params) : Act ℝ :=
  memo St.sun (fun σ v => { σ with sun := some v }) do
    let m := 357.528 + 35999.050 * p.t0 + 0.04107 * p.ut
    let mRad := deg2rad m
    let lam := 280.460 + 36000.772 * p.t0 + 0.04107 * p.ut
    pure (lam + (1.915 - 0.0048 * p.t0) * Real.sin mRad + 0.020 * Real.sin (2 * mRad))

/-- cotr.py:491-500 `dip_geolon_rad` -/
def dipGeolon (p : Params) : Act ℝ :=
  memo St.geolon (fun σ v => { σ with geolon := some v })
    (pure (arctan2 p.coefs.2.2 p.coefs.2.1 + Real.pi))

/-- cotr.py:502-512 `dip_geolat_rad` -/
def dipGeolat (p : Params) : Act ℝ :=
  memo St.geolat (fun σ v => { σ with geolat := some v }) do
    let lam ← dipGeolon p
    let top := p.coefs.2.1 * Real.cos lam + p.coefs.2.2 * Real.sin lam
    pure (Real.pi / 2 - Real.arcsin (top / p.coefs.1))

/-- cotr.py:514-526 `Q_g` -/
def dipGeo (p : Params) : Act V3 :=
  memo St.qg (fun σ v => { σ with qg := some v }) do
    let lam ← dipGeolon p
    let phi ← dipGeolat p
    pure ![Real.cos phi * Real.cos lam, Real.cos phi * Real.sin lam, Real.sin phi]

/-- cotr.py:678-680: the product of the elementary matrices. -/
def product (em : Int → Act M3) (mat : M3) : List Int → Act M3
  | [] => pure mat
  | i :: rest => do
    let e ← em i
    product em (mat * e) rest

/-- cotr.py:682-683 -/
def storeX (a b : Sys) (mat : M3) (σ : St) : St :=
  { σ with xform := Function.update (Function.update σ.xform (a, b) mat) (b, a) (matᵀ) }

/-- cotr.py:669-680: the table, or the table for the other direction reversed. -/
def ofTable (em : Int → Act M3) (a b : Sys) : Act M3 :=
  match lookup a b with
  | some (.word l) => product em 1 l
  | some (.int _) => raise .typeError
  | none => match lookup b a with
    | some (.word l) => product em 1 (l.reverse.map fun v => -v)
    | some (.int _) => raise .typeError
    | none => raise .valueError

/-- cotr.py:652-685 `get_transform_matrix`, given the elementary matrices. -/
def getMat (em : Int → Act M3) (a b : Sys) : Act M3 :=
  memo (fun σ => σ.xform (a, b)) (fun σ m => storeX a b m σ) (ofTable em a b)

/-- cotr.py:687-724 `transform`, given the elementary matrices. -/
def transformWith (em : Int → Act M3) (a b : Sys) (v : V3) : Act V3 :=
  if a ∈ heliocentric ∧ b ∈ geocentric then raise .notImplemented
  else if a ∈ geocentric ∧ b ∈ heliocentric then raise .notImplemented
  else do
    let mat ← getMat em a b
    pure (mat *ᵥ v)

/-- cotr.py:528-532 `Q_e` -/
def dipGseWith (p : Params) (em : Int → Act M3) : Act V3 :=
  memo St.qe (fun σ v => { σ with qe := some v }) do
    let q ← dipGeo p
    transformWith em .geo .gse q

/-- cotr.py:542-553 `dip_gsm` (psi, in degrees) -/
def dipGsmWith (p : Params) (em : Int → Act M3) : Act ℝ :=
  memo St.gsm (fun σ v => { σ with gsm := some v }) do
    let q ← dipGseWith p em
    pure (rad2deg (arctan2 (q 1) (q 2)))

/-- cotr.py:555-567 `dip_tilt` (mu, in degrees) -/
def dipTiltWith (p : Params) (em : Int → Act M3) : Act ℝ :=
  memo St.tilt (fun σ v => { σ with tilt := some v }) do
    let q ← dipGseWith p em
    pure (rad2deg (arctan2 (q 0) (√(q 1 ^ 2 + q 2 ^ 2))))

/-- cotr.py:646-647 -/
def storeE (which : Int) (mat : M3) (σ : St) : St :=
  let k : Int := which.natAbs
  { σ with emat := Function.update (Function.update σ.emat (-k) (matᵀ)) k mat }

/-- cotr.py:576-644: the matrix a positive index stands for (`em` is used for the dipole angles). -/
def ematBody (p : Params) (em : Int → Act M3) (k : Nat) : Act M3 :=
  if k = 0 then pure 1
  else if k = 1 then
    pure (makeRotation (100.461 + 36000.770 * p.t0 + 15.04107 * p.ut) .z)
  else if k = 2 then do
    let lam ← sunLon p
    pure (makeRotation lam .z * makeRotation (23.439 - 0.013 * p.t0) .x)
  else if k = 3 then do
    let psi ← dipGsmWith p em
    pure (makeRotation (-psi) .x)
  else if k = 4 then do
    let mu ← dipTiltWith p em
    pure (makeRotation (-mu) .y)
  else if k = 5 then
    if p.disabled then raise .runtimeError
    else do
      let phi ← dipGeolat p
      let lam ← dipGeolon p
      pure (makeRotation (rad2deg phi - 90) .y * makeRotation (rad2deg lam) .z)
  else if k = 6 then pure !![-1, 0, 0; 0, -1, 0; 0, 0, 1]
  else if k = 11 ∨ k = 12 then raise .notImplemented
  else raise .valueError

/-- cotr.py:572-650 `_get_emat`.  The dipole angles need a transform, which needs elementary matrices: the
    depth of that recursion is bounded by a fuel, `RecursionError` if there is none left. -/
def emat (p : Params) : Nat → Int → Act M3
  | 0, _ => raise .recursion
  | n + 1, which =>
    memo (fun σ => σ.emat which) (fun σ m => storeE which m σ) (ematBody p (emat p n) which.natAbs)

/-- The recursion limit of the interpreter, as far as this class is concerned. -/
def fuel : Nat := 100

/-- The methods and properties of `Cotr`. -/
def transformMatrix (p : Params) (a b : Sys) : Act M3 := getMat (emat p fuel) a b
def transform (p : Params) (a b : Sys) (v : V3) : Act V3 := transformWith (emat p fuel) a b v
def dipGse (p : Params) : Act V3 := dipGseWith p (emat p fuel)
def dipGsm (p : Params) : Act ℝ := dipGsmWith p (emat p fuel)
def dipTilt (p : Params) : Act ℝ := dipTiltWith p (emat p fuel)
/-- cotr.py:741-751 `get_dipole_moment` -/
def dipoleMoment (p : Params) (s : Sys) (strength : ℝ) : Act V3 := transform p .sm s ![0, 0, -strength]

/-- What can be asked of the object. -/
inductive Call where
  | matrix (a b : Sys)
  | transform (a b : Sys) (v : V3)
  | sunLon | geolon | geolat | dipGeo | dipGse | dipGsm | dipTilt
  | moment (s : Sys) (strength : ℝ)

/-- The state of the object after one call, whether or not it raised. -/
def step (p : Params) (σ : St) : Call → St
  | .matrix a b => (transformMatrix p a b σ).2
  | .transform a b v => (transform p a b v σ).2
  | .sunLon => (sunLon p σ).2
  | .geolon => (dipGeolon p σ).2
  | .geolat => (dipGeolat p σ).2
  | .dipGeo => (dipGeo p σ).2
  | .dipGse => (dipGse p σ).2
  | .dipGsm => (dipGsm p σ).2
  | .dipTilt => (dipTilt p σ).2
  | .moment s m => (dipoleMoment p s m σ).2

/-- A new object after a history of calls. -/
def after (p : Params) (h : List Call) : St := h.foldl (step p) (init p)

/-- 1967-01-01T00:00, the default time (cotr.py:393): 1096 days before 1970-01-01. -/
def day1967 : ℝ := -1096

/-- cotr.py:883-898 `dipole_moment2cotr`: what the returned object was constructed with. -/
def dipoleMoment2cotr (m : V3) (s : Sys) : Except Err Params :=
  if s = .gse ∨ s = .mhd then
    let p0 : Params := { days := day1967, dipTilt := some 0, dipGsm := some 0 }
    match (transform p0 s .gse m (init p0)).1 with
    | .error e => .error e
    | .ok g => .ok { days := day1967,
                     dipTilt := some (rad2deg (arctan2 (g 0) (√(g 1 ^ 2 + g 2 ^ 2)))),
                     dipGsm := some (rad2deg (arctan2 (g 1) (g 2))) }
  else .error .valueError

end
end Viscid.Cotr
