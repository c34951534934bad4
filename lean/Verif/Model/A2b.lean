import Verif.Model.RotStack
import Verif.Model.Euler
/-!
# `viscid/rotation.py`: angles between vectors, rotations from vectors to vectors, for stacks of vectors

nan is `none`.
-/
namespace Viscid.A2b
open Viscid.Rotation Viscid.RotStack
open Viscid.Euler (Unit' toRad ofRad)
open scoped Matrix

/-! ### units -/

/-- `str.isspace` of ASCII -/
def isSpace (c : Char) : Bool := c = ' ' || c = '\t' || c = '\n' || c = '\r' || c = '\x0b' || c = '\x0c'

def strip (s : List Char) : List Char := ((s.dropWhile isSpace).reverse.dropWhile isSpace).reverse

/-- rotation.py:187-200 of `convert_angle`: the text of a unit -/
def unitOf (s : List Char) : Option Unit' :=
  let s := (strip s).map Char.toLower
  if ['r', 'a', 'd'].isPrefixOf s then some .rad
  else if ['d', 'e', 'g'].isPrefixOf s then some .deg
  else none

/-! ### angles -/

noncomputable section

/-- `np.linalg.norm(a, axis=-1)` -/
def nrm (a : Fin d → ℝ) : ℝ := √(∑ i, a i ^ 2)

/-- rotation.py:1268-1272: one angle; 0 / 0 is nan -/
def angle1 (a b : Fin d → ℝ) : Option ℝ :=
  if nrm a * nrm b = 0 then none else some (Real.arccos ((∑ i, a i * b i) / (nrm a * nrm b)))

/-- rotation.py:1250-1275 `angle_between(a, b, unit)`, for vectors with the same number of components -/
def angleBetween (a b : Stk (Fin d → ℝ)) (unit : List Char) : Except RotStack.Err (Stk (Option ℝ)) := do
  let l ← bcast angle1 a.list b.list
  match unitOf unit with
  | some u => close (a.single && b.single) (l.map fun x => x.map (ofRad u))
  | none => .error .value

/-! ### rotations from `a` to `b` -/

inductive Err
  | value | index | assertion
  deriving DecidableEq, Repr

def np {α : Type} : Except RotStack.Err α → Except Err α
  | .ok x => .ok x
  | .error .value => .error .value

/-- rotation.py:1305: `a /= norm`, one row -/
def unitO (v : V3) : Option V3 := if len v = 0 then none else some (unit v)

open Classical in
/-- `np.isclose(np.linalg.norm(axis), 0.0)`, one row; false for nan -/
def isNull : Option V3 → Bool
  | none => false
  | some v => decide (isClose (len v) 0)

def cross2 (a b : Option V3) : Option V3 := a.bind fun a => b.map fun b => cross a b

/-- `axis[null_mask, :] = np.cross(a[null_mask, :], [e])` -/
def fix (null : List Bool) (as : List (Option V3)) (e : V3) (ax : List (Option V3)) : List (Option V3) :=
  List.zipWith (fun (p : Bool × Option V3) x => if p.1 then p.2.map fun a => cross a e else x) (null.zip as) ax

/-- rotation.py:1310-1317: the axes; `a[null_mask, :]` is an IndexError if there are not as many `a` as axes -/
def axes (as bs : List (Option V3)) : Except Err (List (Option V3)) := do
  let ax ← np (bcast cross2 as bs)
  let null := ax.map isNull
  if null.any id then
    if as.length = ax.length then
      let ax := fix null as ex ax
      let null := ax.map isNull
      if null.any id then .ok (fix null as ey ax) else .ok ax
    else .error .index
  else .ok ax

/-- rotation.py:1308-1309 `theta_rad`, one row -/
def theta (a b : Option V3) : Option ℝ := a.bind fun a => b.map fun b => arctan2 (len (cross a b)) (dot a b)

def rotO (t : Option ℝ) (k : Option V3) : Option M3 := t.bind fun t => k.bind fun k => wxyz2rot t k

def mulO (a b : Option M3) : Option M3 := a.bind fun a => b.map fun b => a * b

/-- rotation.py:1308-1319: `wxyz2rot(theta_rad, axis)`, as many angles as axes -/
def base (as bs : List (Option V3)) : Except Err (List (Option M3)) := do
  let th ← np (bcast theta as bs)
  let ax ← axes as bs
  .ok (List.zipWith rotO th ax)

/-- rotation.py:1342-1348: `wxyz2rot(roll_rad, b)` (as in `RotStack.wxyz2rot`) times `R`, unless all rolls are 0 -/
def rolled (roll : List (Option ℝ)) (bs : List (Option V3)) (R : List (Option M3)) : Except Err (List (Option M3)) := do
  if roll.all (fun t => decide (t = some 0)) then .ok R
  else
    let ks ← np (assign (max roll.length bs.length) bs)
    let Rr ← np (bcast rotO roll ks)
    np (bcast mulO Rr R)

/-- rotation.py:1325 `new_x - np.sum(new_x * b, axis=1) * b`, one row -/
def project (x : V3) (b : Option V3) : Option V3 := b.map fun b => vsub x (vsmul (dot x b) b)

/-- rotation.py:1333-1340, one row: the roll -/
def rollOf (cx nx : Option V3) (b : Option V3) : Option ℝ :=
  cx.bind fun cx => nx.bind fun nx => b.map fun b => arctan2 (len (cross cx nx)) (dot cx nx) * sgn (dot (cross cx nx) b)

/-- `roll[~no_norm] = vs` of zeros -/
def scatter : List Bool → List (Option ℝ) → List (Option ℝ)
  | [], _ => []
  | true :: no, vs => some 0 :: scatter no vs
  | false :: no, v :: vs => v :: scatter no vs
  | false :: no, [] => some 0 :: scatter no []

/-- rotation.py:1324-1340: the rolls that turn the new x axis to `new_x`, in radians (the code turns them to the unit and back) -/
def newRoll (xs : List V3) (bs : List (Option V3)) (R : List (Option M3)) : Except Err (List (Option ℝ)) := do
  let nx ← np (bcast project xs bs)
  let no := nx.map isNull
  if no.all id then .ok (no.map fun _ => some 0)
  else
    let nx := nx.map fun x => x.bind unitO
    let cx := R.map fun R => R.bind fun R => unitO (R *ᵥ ex)
    let pr ← np (bcast Prod.mk cx nx)
    let vs ← np (bcast (fun (p : Option V3 × Option V3) b => rollOf p.1 p.2 b) pr bs)
    let vs ← np (assign (no.countP fun x => !x) vs)
    .ok (scatter no vs)

/-- rotation.py:1323 `assert roll == 0.0` -/
def noRoll : List ℝ → Except Err Unit
  | [t] => if t = 0 then .ok () else .error .assertion
  | _ => .error .value

/-- rotation.py:1296-1350, from the unit vectors (or nan) `as` and `bs` on -/
def a2bOn (single : Bool) (as bs : List (Option V3)) (roll : List ℝ) (u : Unit') (newx : Option (List V3)) : Except Err (Stk (Option M3)) := do
  let R ← base as bs
  let roll ← match newx with
    | none => Except.ok (roll.map fun t => some (toRad u t))
    | some xs => do
      noRoll roll
      newRoll xs bs R
  let R ← rolled roll bs R
  np (close single R)

/-- rotation.py:1277-1350 `a2b_rot(a, b, roll, unit, new_x)` -/
def a2b (a b : Stk V3) (roll : Stk ℝ) (u : Unit') (newx : Option (List V3)) : Except Err (Stk (Option M3)) :=
  a2bOn (a.single && b.single && roll.single) (a.list.map unitO) (b.list.map unitO) roll.list u newx

end

end Viscid.A2b
