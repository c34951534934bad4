import Verif.Model.Rotation
/-!
# Stacks of rotations: `viscid/rotation.py` for arrays with more than one rotation

An argument is one value (shape (3, 3), (4,), (3,) or ()) or a stack of values (one more axis in front). The numpy-quaternion
module is not imported. nan is `none`.
-/
namespace Viscid.RotStack
open Viscid.Rotation

/-- ValueError of numpy: shapes that do not fit -/
inductive Err
  | value
  deriving DecidableEq, Repr

inductive Stk (α : Type)
  | one (x : α)
  | many (l : List α)

/-- `x.reshape(-1, ...)` -/
def Stk.list : Stk α → List α
  | .one x => [x]
  | .many l => l

def Stk.single : Stk α → Bool
  | .one _ => true
  | .many _ => false

/-- broadcasting along the axis of the stack -/
def bcast (g : α → β → γ) (a : List α) (b : List β) : Except Err (List γ) :=
  if a.length = b.length then .ok (List.zipWith g a b)
  else match a, b with
    | [x], b => .ok (b.map (g x))
    | a, [y] => .ok (a.map fun x => g x y)
    | _, _ => .error .value

/-- `x[0]` of the result if `single_val` -/
def close (single : Bool) (l : List α) : Except Err (Stk α) :=
  if single then match l with | x :: _ => .ok (.one x) | [] => .error .value
  else .ok (.many l)

/-- rotation.py:818-841 `rotmul(*rmats)` -/
noncomputable def rotmul (rs : List (Stk M3)) : Except Err (Stk M3) := do
  let l ← rs.foldlM (fun acc r => bcast (fun a b => a * b) acc r.list) [1]
  close (rs.all Stk.single) l

/-- rotation.py:843-864 `rotate(vec, *rmats)` -/
noncomputable def rotate (v : Stk V3) (rs : List (Stk M3)) : Except Err (Stk V3) := do
  let R ← rotmul rs
  let l ← bcast (fun (a : M3) (x : V3) => a.mulVec x) R.list v.list
  close (v.single && R.single) l

/-- rotation.py:897-914: one step of the loop: `q0` and `r` get more rows first, then the rows of `r` are assigned. `q0` and `r` have
the same number of rows before. (With more than one row they would get the wrong shape, but then the product fails.) -/
noncomputable def quatStep (q0 : List Quat) (q : Stk Quat) : Except Err (List Quat) := do
  let rows := if q.list.length > q0.length then q.list.length else q0.length
  let p ← bcast qmul q0 q.list
  if p.length = rows then .ok p
  else match p with
    | [x] => .ok (List.replicate rows x)
    | _ => .error .value

/-- rotation.py:866-920 `quatmul(*quats)` -/
noncomputable def quatmul (qs : List (Stk Quat)) : Except Err (Stk Quat) := do
  let l ← qs.foldlM quatStep [⟨1, 0, 0, 0⟩]
  close (qs.all Stk.single) l

/-- assigning `l` to an array with `n` rows -/
def assign (n : Nat) (l : List α) : Except Err (List α) :=
  if l.length = n then .ok l
  else match l with
    | [x] => .ok (List.replicate n x)
    | _ => .error .value

/-- rotation.py:960-1008 `wxyz2rot` for stacks: as many matrices as there are angles or axes, whatever is more -/
noncomputable def wxyz2rot (θ : Stk ℝ) (v : Stk V3) : Except Err (Stk (Option M3)) := do
  let n := max θ.list.length v.list.length
  let ks ← assign n v.list
  let l ← bcast (fun t k => Rotation.wxyz2rot t k) θ.list ks
  close (θ.single && v.single) l

/-- rotation.py:1133-1168 `wxyz2quat` for stacks: as many quaternions as there are angles -/
noncomputable def wxyz2quat (θ : Stk ℝ) (v : Stk V3) : Except Err (Stk (Option Quat)) := do
  let p ← bcast (fun t k => Rotation.wxyz2quat t k) θ.list v.list
  let l ← assign θ.list.length p
  close (θ.single && v.single) l

/-- `{x, y, z, angle}`: rotation.py:1010-1026 `axang2rot` -/
noncomputable def axang2rot : Stk (V3 × ℝ) → Except Err (Stk (Option M3))
  | .one x => wxyz2rot (.one x.2) (.one x.1)
  | .many l => wxyz2rot (.many (l.map (·.2))) (.many (l.map (·.1)))

/-- rotation.py:1170-1187 `axang2quat` -/
noncomputable def axang2quat : Stk (V3 × ℝ) → Except Err (Stk (Option Quat))
  | .one x => wxyz2quat (.one x.2) (.one x.1)
  | .many l => wxyz2quat (.many (l.map (·.2))) (.many (l.map (·.1)))

open Classical in
/-- rotation.py:1215-1224 `quat2wxyz`, one of a stack: `m` is the norm of the last one, all are divided by it -/
noncomputable def wxyzOf (m : ℝ) (q : Quat) : Option (ℝ × V3) :=
  if m = 0 then none
  else
    let q := q.scale (1 / m)
    let vn := len ![q.x, q.y, q.z]
    some (2 * arctan2 vn q.w, if isClose vn 0 then ![0, 0, 1] else ![q.x / vn, q.y / vn, q.z / vn])

/-- rotation.py:1189-1226 `quat2wxyz` for stacks: `np.linalg.norm(q, axis=1)[-1, np.newaxis]`, IndexError if there are none -/
noncomputable def quat2wxyz (q : Stk Quat) : Except Err (Stk (Option (ℝ × V3))) :=
  match q.list.getLast? with
  | none => .error .value
  | some last => close q.single (q.list.map (wxyzOf last.norm))

end Viscid.RotStack
