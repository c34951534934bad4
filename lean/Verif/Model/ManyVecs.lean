import Verif.Model.Mats
/-!
# Model of `viscid/cotr.py`: arrays of vectors, and the functions of the module that make their own `Cotr`

`rdim` is 3. A time is the number of days since 1970-01-01.
-/
namespace Viscid.ManyVecs
open Matrix Viscid.Cotr
open Viscid.Rotation (M3 V3)

noncomputable section

/-- An array with shape `(n,)`, or one with shape `(len(rows), n)`: every row has `n` numbers -/
inductive Arr where
  | one (v : List ℝ)
  | many (n : Nat) (rows : List (List ℝ))

/-- cotr.py:715 `np.dot(mat, vec)`: the array must have three rows -/
def dot (M : M3) (n : Nat) : List (List ℝ) → Except Err (List (List ℝ))
  | [x, y, z] =>
    let row (i : Fin 3) := (List.range n).map fun j => M i 0 * x.getD j 0 + M i 1 * y.getD j 0 + M i 2 * z.getD j 0
    .ok [row 0, row 1, row 2]
  | _ => .error .valueError

/-- cotr.py:704: `as_nvec(in_vec, ndim=self.rdim)`, the default `init_vals` -/
def pad (fill : ℝ → β) (arr : List β) : Except Err (List β) :=
  match Mats.asNvec fill arr 3 [0, 0, 0, 1] with
  | .ok l => .ok l
  | .error _ => .error .valueError

/-- cotr.py:708-719: the rows of the result, `m` is `in_vec.shape[0]` -/
def rotated (p : Params) (a b : Sys) (m n : Nat) (rows : List (List ℝ)) : Act (List (List ℝ)) :=
  if a ∈ heliocentric ∧ b ∈ geocentric then raise .notImplemented
  else if a ∈ geocentric ∧ b ∈ heliocentric then raise .notImplemented
  else do
    let mat ← transformMatrix p a b
    match dot mat n rows with
    | .ok r => pure (r.take (max m 3))
    | .error e => raise e

/-- cotr.py:687-723 `Cotr.transform`, of an array -/
def transformArr (p : Params) (a b : Sys) : Arr → Act Arr
  | .one v =>
    match pad id v with
    | .error e => raise e
    | .ok w => do
      let r ← rotated p a b v.length 1 (w.map fun x => [x])
      pure (.one (r.map fun row => row.getD 0 0))
  | .many n rows =>
    match pad (fun x => List.replicate n x) rows with
    | .error e => raise e
    | .ok w => do
      let r ← rotated p a b rows.length n w
      pure (.many n r)

/-- cotr.py:811-826 `cotr_transform` -/
def cotrTransform (days : ℝ) (a b : Sys) (vec : Arr) (notilt1967 : Bool) : Except Err Arr :=
  let p : Params := { days := days, notilt1967 := notilt1967 }
  (transformArr p a b vec (init p)).1

/-- cotr.py:828-844 `get_dipole_moment` -/
def getDipoleMoment (days : ℝ) (s : Sys) (strength : ℝ) (notilt1967 : Bool) : Except Err V3 :=
  let p : Params := { days := days, notilt1967 := notilt1967 }
  (dipoleMoment p s strength (init p)).1

/-- cotr.py:846-864 `get_dipole_moment_ang`: the time 0 is 1970-01-01 -/
def getDipoleMomentAng (tilt gsm : ℝ) (s : Sys) (strength : ℝ) : Except Err V3 :=
  let p : Params := { days := 0, dipTilt := some tilt, dipGsm := some gsm }
  (dipoleMoment p s strength (init p)).1

/-- cotr.py:753-764 `Cotr.get_dipole_angles` -/
def dipoleAngles (p : Params) : Act (ℝ × ℝ) := do
  let t ← dipTilt p
  let g ← dipGsm p
  pure (t, g)

/-- cotr.py:866-881 `get_dipole_angles` -/
def getDipoleAngles (days : ℝ) (notilt1967 : Bool) : Except Err (ℝ × ℝ) :=
  let p : Params := { days := days, notilt1967 := notilt1967 }
  (dipoleAngles p (init p)).1

end
end Viscid.ManyVecs
