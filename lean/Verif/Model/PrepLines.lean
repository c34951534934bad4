import Mathlib.Algebra.Order.Round
import Mathlib.Data.Rat.Floor
/-!
# Standardising lines for plotting: `viscid/vutil.py` `prepare_lines`

A line is the list of its columns, one list of numbers per vertex. Scalars are 2d arrays of rationals, i.e. what is left after
`np.atleast_2d`; text colours and fields as scalars are not modelled. Numbers are exact.
-/
namespace Viscid.PrepLines

inductive Err
  | valueError
  | typeError
deriving DecidableEq, Repr

/-- A 2d array. -/
structure A2 where
  rows : Nat
  cols : Nat
  get : Nat → Nat → ℚ

/-- `a.T` -/
def A2.T (a : A2) : A2 := ⟨a.cols, a.rows, fun i j => a.get j i⟩

/-- element `k` in C order -/
def A2.flat (a : A2) (k : Nat) : ℚ := a.get (k / a.cols) (k % a.cols)

/-- `a.reshape(r, c)` for `r * c` elements -/
def A2.reshape (a : A2) (r c : Nat) : A2 := ⟨r, c, fun i j => a.flat (i * c + j)⟩

/-- `np.arange(a, b)` -/
def arange (a b : ℚ) : List ℚ := (List.range ⌈b - a⌉.toNat).map fun (i : Nat) => a + i

/-- `x.astype('i')` truncates towards zero; only nonnegative numbers occur. -/
def toInt (x : ℚ) : Nat := ⌊x⌋.toNat

/-- vutil.py:337 `np.cumsum([0] + npts[:-1])` -/
def firstIdx : Nat → List Nat → List Nat
  | _, [] => []
  | acc, n :: ns => acc :: firstIdx (acc + n) ns

/-- vutil.py:338-348: the vertices, and the rows after the third. Lines with differing numbers of rows, and no lines at all,
    are ValueErrors of `np.concatenate`. -/
def vertices (lines : List (List (List ℚ))) (rows : Nat) : Except Err (List (List ℚ)) :=
  if lines = [] then .error .valueError
  else if lines.all fun l => l.all fun v => v.length == rows then .ok lines.flatten
  else .error .valueError

/-- vutil.py:481-485, one line: `np.vstack([...]).T` -/
def connect (i0 ni : Nat) : List (Nat × Nat) :=
  ((arange i0 (i0 + ni - 3 / 2)).map toInt).zip ((arange (i0 + 1) (i0 + ni - 1 / 2)).map toInt)

/-- vutil.py:479-488, the array of connections -/
def connections (npts : List Nat) : List (Nat × Nat) :=
  ((firstIdx 0 npts).zip npts).flatMap fun p => connect p.1 p.2

/-- One entry per line, each repeated for the vertices of the line: vutil.py:390-392 and 404-409. -/
def spread (npts : List Nat) (f : Nat → ℚ) : List ℚ :=
  (npts.zipIdx).flatMap fun p => List.replicate p.1 (f p.2)

/-- vutil.py:384-421: scalars of any accepted shape to a 2d array; `nl` lines, `N` vertices. -/
def shapeScalars (npts : List Nat) (s : A2) : Except Err A2 :=
  let nl := npts.length
  let N := npts.sum
  if (s.rows, s.cols) = (1, 1) then .ok ⟨1, N, fun _ _ => s.get 0 0⟩
  else if (s.rows, s.cols) = (1, nl) ∨ (s.rows, s.cols) = (nl, 1) then
    let s := s.reshape nl 1
    .ok ⟨1, N, fun _ j => (spread npts fun i => s.get i 0).getD j 0⟩
  else if (s.rows, s.cols) = (N, 1) ∨ (s.rows, s.cols) = (1, N) then .ok (s.reshape 1 N)
  else if (s.rows, s.cols) ∈ [(3, nl), (nl, 3), (4, nl), (nl, 4)] then
    let s := if (s.rows, s.cols) ∈ [(3, nl), (4, nl)] ∧ (s.rows, s.cols) ∉ [(3, 3), (4, 4)] then s.T else s
    .ok ⟨s.cols, N, fun c j => (spread npts fun i => s.get i c).getD j 0⟩
  else if (s.rows, s.cols) ∈ [(3, N), (N, 3), (4, N), (N, 4)] then
    .ok (if (s.rows, s.cols) ∈ [(3, N), (4, N)] ∧ (s.rows, s.cols) ∉ [(3, 3), (4, 4)] then s.T else s)
  else if (s.rows, s.cols) ∈ [(1, 3), (3, 1), (1, 4), (4, 1)] then
    .ok ⟨s.rows * s.cols, N, fun c _ => s.flat c⟩
  else if N ≠ 0 ∧ N ∣ s.rows * s.cols then .ok (s.reshape (s.rows * s.cols / N) N)
  else .error .valueError

/-- `x.round().astype('u1')`: half to even, then modulo 256 -/
def toByte (x : ℚ) : Nat :=
  let f := ⌊x⌋
  let r := if x - f < 1 / 2 then f else if x - f > 1 / 2 then f + 1 else if f % 2 = 0 then f else f + 1
  (r % 256).toNat

/-- all elements satisfy `p` -/
def A2.all (a : A2) (p : ℚ → Bool) : Bool :=
  (List.range a.rows).all fun i => (List.range a.cols).all fun j => p (a.get i j)

/-- The scalars returned. -/
inductive Scal
  | values (v : List ℚ)
  | colors (rows cols : Nat) (get : Nat → Nat → Nat)

/-- vutil.py:441-457 -/
def finishScalars (s : A2) : Except Err Scal :=
  if s.rows = 1 then .ok (.values ((List.range s.cols).map fun j => s.get 0 j))
  else if s.rows = 3 ∨ s.rows = 4 then
    if s.all (fun x => 0 ≤ x) ∧ s.all (fun x => x ≤ 1) then
      .ok (.colors s.rows s.cols fun i j => toByte (255 * s.get i j))
    else if s.all (fun x => 0 ≤ x) ∧ s.all (fun x => x < 256) then
      .ok (.colors s.rows s.cols fun i j => toByte (s.get i j))
    else .error .valueError
  else .error .valueError

/-- vutil.py:384-457 for numbers -/
def scalars (npts : List Nat) (s : A2) : Except Err Scal := do
  let s ← shapeScalars npts s
  finishScalars s

/-- What may be given for `scalars`: an array, or a list or tuple of rows of numbers. -/
inductive Given
  | array (s : A2)
  | list (rows : List (List ℚ))
  | tuple (rows : List (List ℚ))

/-- vutil.py:360-377: in a list each entry is replaced by a 2d array, here of one row (a number is a row of one), and they are
    concatenated along the first axis, or if that fails along the second. Tuples can't be assigned to. Nothing to concatenate
    is a ValueError both times. -/
def asArray : Given → Except Err A2
  | .array s => .ok s
  | .list rows =>
    match rows with
    | [] => .error .valueError
    | r :: rs =>
      if rs.all fun q => q.length == r.length then
        .ok ⟨rows.length, r.length, fun i j => (rows.getD i []).getD j 0⟩
      else .ok ⟨1, rows.flatten.length, fun _ j => rows.flatten.getD j 0⟩
  | .tuple [] => .error .valueError
  | .tuple _ => .error .typeError

/-- vutil.py:290-490 -/
def prepareLines (lines : List (List (List ℚ))) (rows : Nat) (given : Option Given) :
    Except Err (List (List ℚ) × Option Scal × List (Nat × Nat)) := do
  let v ← vertices lines rows
  let npts := lines.map List.length
  let given := match given with
    | some g => some g
    | none => if rows > 3 then some (.array ⟨rows - 3, v.length, fun i j => (v.getD j []).getD (i + 3) 0⟩) else none
  let v := if rows > 3 then v.map (List.take 3) else v
  match given with
  | none => .ok (v, none, connections npts)
  | some g => do
    let a ← asArray g
    let s ← scalars npts a
    .ok (v, some s, connections npts)

end Viscid.PrepLines
