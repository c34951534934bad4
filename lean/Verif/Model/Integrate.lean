import Verif.Model.Streamline
import Mathlib.Analysis.SpecialFunctions.Pow.Real
/-!
# Model of `viscid/cython/integrate.pyx`: the six integrators and the step-size controller

Over ℝ (floating point rounding and NaN are not modelled).  The vector field is an arbitrary function
`v`: `vscale[d] * _c_interp_trilin(fld, d, x)`; the interpolation cache does not change its values
(C17_cache_independent).  The code unrolls every stage; the model keeps each method's coefficients in a
table and evaluates the stages by one recursion, in the same order and with the same zero-field test
after each stage.
-/
namespace Viscid.Integrate
open Viscid.Streamline

/-- A method's coefficients: the rows c_ij, the weights of the solution that is kept, the weights of the
solution it is compared with (adaptive methods), the weights of the speed used for dt. -/
structure Table where
  c : List (List ℚ)
  u : List ℚ
  w : List ℚ
  t : List ℚ

/-- integrate.pyx:34-55 -/
def euler1 : Table := ⟨[[]], [1], [1], [1]⟩
/-- integrate.pyx:81-84, 120-125 -/
def rk2 : Table := ⟨[[], [1/2]], [0, 1], [0, 1], [0, 1]⟩
/-- integrate.pyx:156-166, 234-239 -/
def rk4 : Table :=
  ⟨[[], [1/2], [0, 1/2], [0, 0, 1]], [1/6, 1/3, 1/3, 1/6], [1/6, 1/3, 1/3, 1/6], [1/6, 1/3, 1/3, 1/6]⟩
/-- integrate.pyx:308-360: the step is x1 + k1, the error is |k1 - k2| (the code forms (x1 + (k1 - k2)) - x1),
dt uses kmag1. -/
def euler1a : Table := ⟨[[], [1]], [1, 0], [0, 1], [1, 0]⟩
/-- integrate.pyx:392-398, 436-458: dt uses the weights w. -/
def rk12 : Table := ⟨[[], [1/2]], [1, 0], [0, 1], [0, 1]⟩
/-- integrate.pyx:498-526, 625-658: dt uses the weights w. -/
def rk45 : Table :=
  ⟨[[], [1/4], [3/32, 9/32], [1932/2197, -7200/2197, 7296/2197],
    [439/216, -8, 3680/513, -845/4104], [-8/27, 2, -3544/2565, 1859/4104, -11/40]],
   [25/216, 0, 1408/2565, 2197/4104, -1/5, 0],
   [16/135, 0, 6656/12825, 28561/56430, -9/50, 2/55],
   [16/135, 0, 6656/12825, 28561/56430, -9/50, 2/55]⟩

/-- Σ_j a_j k_j, one component at a time as in the code. -/
noncomputable def comb (a : List ℚ) (ks : List (P3 ℝ)) : P3 ℝ :=
  ⟨(List.zipWith (fun (q : ℚ) (k : P3 ℝ) => (q : ℝ) * k.x) a ks).sum,
   (List.zipWith (fun (q : ℚ) (k : P3 ℝ) => (q : ℝ) * k.y) a ks).sum,
   (List.zipWith (fun (q : ℚ) (k : P3 ℝ) => (q : ℝ) * k.z) a ks).sum⟩

/-- x + Σ ... -/
noncomputable def shift (x d : P3 ℝ) : P3 ℝ := ⟨x.x + d.x, x.y + d.y, x.z + d.z⟩

/-- sqrt(k[0]**2 + k[1]**2 + k[2]**2) -/
noncomputable def mag (k : P3 ℝ) : ℝ := Real.sqrt (k.x ^ 2 + k.y ^ 2 + k.z ^ 2)

/-- The stages k_i = h * v(x_i) / |v(x_i)| with x_i = x + Σ_{j<i} c_ij k_j, and the speeds |v(x_i)|;
`none`: a stage met a zero vector (`return 1`). -/
noncomputable def stages (v : P3 ℝ → P3 ℝ) (x : P3 ℝ) (h : ℝ) :
    List (List ℚ) → List (P3 ℝ) → List ℝ → Option (List (P3 ℝ) × List ℝ)
  | [], ks, ms => some (ks, ms)
  | row :: rows, ks, ms =>
    let k := v (shift x (comb row ks))
    let m := mag k
    if m = 0 then none
    else stages v x h rows (ks ++ [⟨k.x * (h / m), k.y * (h / m), k.z * (h / m)⟩]) (ms ++ [m])

/-- What one attempt with step h produces: the new point, the error estimate, the increment of dt. -/
structure Attempt where
  x : P3 ℝ
  err : ℝ
  dt : ℝ

/-- One attempt of the given method (loop bodies of integrate.pyx, all methods). -/
noncomputable def attempt (T : Table) (v : P3 ℝ → P3 ℝ) (x : P3 ℝ) (h : ℝ) : Option Attempt :=
  match stages v x h T.c [] [] with
  | none => none
  | some (ks, ms) =>
    let xu := shift x (comb T.u ks)
    let xw := shift x (comb T.w ks)
    some ⟨xu, mag ⟨xw.x - xu.x, xw.y - xu.y, xw.z - xu.z⟩ / h,
      h / (List.zipWith (fun (q : ℚ) (m : ℝ) => (q : ℝ) * m) T.t ms).sum⟩

/-- integrate.pyx:34-55, 57-127, 129-241: the three methods with a fixed step. -/
noncomputable def fixed (T : Table) (v : P3 ℝ → P3 ℝ) : Integ Unit ℝ := fun _ x ds dt =>
  match attempt T v x ds with
  | none => ⟨1, x, ds, dt, ()⟩
  | some a => ⟨0, a.x, ds, dt + a.dt, ()⟩

/-- integrate.pyx:247-286 _ts_ctrl: the new step and whether to repeat. -/
noncomputable def tsCtrl (ds err maxErr smallest largest : ℝ) : ℝ × Bool :=
  let ratio := |err| / maxErr
  let absDs := |ds|
  let sign := ds / absDs
  if ratio = 0 then (ds, false)
  else if ratio ≥ 1 then
    if absDs ≤ smallest then (sign * smallest, false)
    else
      let ds' := 0.9 * ds * ratio ^ (-0.25 : ℝ)
      if |ds'| ≤ smallest then (sign * smallest, true) else (ds', true)
  else
    if absDs ≥ largest then (sign * largest, false)
    else
      let ds' := 0.9 * ds * ratio ^ (-0.2 : ℝ)
      if |ds'| ≥ largest then (sign * largest, false) else (ds', false)

/-- The controller's parameters. -/
structure Ctrl where
  maxErr : ℝ
  smallest : ℝ
  largest : ℝ

/-- `while True` of the adaptive methods (integrate.pyx:308-353, 404-451, 532-650); the outer `none`
marks a loop that has not finished within the given number of passes. -/
noncomputable def retry (C : Ctrl) (att : ℝ → Option Attempt) : Nat → ℝ → Option (ℝ × Option Attempt)
  | 0, _ => none
  | n + 1, ds =>
    match att ds with
    | none => some (ds, none)
    | some a =>
      let r := tsCtrl ds a.err C.maxErr C.smallest C.largest
      if r.2 then retry C att n r.1 else some (r.1, some a)

/-- integrate.pyx:288-362, 364-460, 462-660: the three adaptive methods, with at most `n` passes. -/
noncomputable def adaptive (T : Table) (C : Ctrl) (v : P3 ℝ → P3 ℝ) (n : Nat) (x : P3 ℝ) (ds dt : ℝ) : Option (Out Unit ℝ) :=
  match retry C (attempt T v x) n ds with
  | none => none
  | some (ds', none) => some ⟨1, x, ds', dt, ()⟩
  | some (ds', some a) => some ⟨0, a.x, ds', dt + a.dt, ()⟩

end Viscid.Integrate
