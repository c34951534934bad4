import Mathlib.Analysis.Real.Sqrt
import Mathlib.Tactic.Linarith
import Mathlib.Tactic.NormNum
/-!
# Null finding: `viscid/cython/null_tools.pyx`

A vector field on a grid of `nx * ny * nz` points is a function of indices and component. Numbers are reals; rounding is
not modelled.
-/
namespace Viscid.Nulls
noncomputable section

abbrev Field := Nat → Nat → Nat → Nat → ℝ

/-- null_tools.pyx:145-150: the sign array -/
def sign (b : ℝ) : Bool := decide (b > 0)

/-- null_tools.pyx:173-179: true if neighbours in the fixed order of the corners differ anywhere. -/
def different (s000 s001 s010 s011 s100 s101 s110 s111 : Bool) : Bool :=
  (s000 ^^ s001) || (s001 ^^ s010) || (s010 ^^ s011) || (s011 ^^ s100) || (s100 ^^ s101) || (s101 ^^ s110) || (s110 ^^ s111)

/-- null_tools.pyx:159-167, for one component `d` -/
def differentAt (b : Field) (i j k d : Nat) : Bool :=
  different (sign (b i j k d)) (sign (b i j (k + 1) d)) (sign (b i (j + 1) k d)) (sign (b i (j + 1) (k + 1) d))
    (sign (b (i + 1) j k d)) (sign (b (i + 1) j (k + 1) d)) (sign (b (i + 1) (j + 1) k d))
    (sign (b (i + 1) (j + 1) (k + 1) d))

/-- null_tools.pyx:124-184 `_py_reduce_candidates`; the three lists of indices are one list of triples here. -/
def reduceCandidates (b : Field) (nx ny nz : Nat) (x y z : Nat → ℝ) (ibound : ℝ) : List (Nat × Nat × Nat) :=
  (List.range (nx - 1)).flatMap fun i => (List.range (ny - 1)).flatMap fun j => (List.range (nz - 1)).filterMap fun k =>
    if x i ^ 2 + y j ^ 2 + z k ^ 2 < ibound ^ 2 then none
    else if differentAt b i j k 0 && differentAt b i j k 1 && differentAt b i j k 2 then some (i, j, k)
    else none

/-! ## faces -/

/-- null_tools.pyx:196-200: the offsets of corner a of the six faces XY, XY, YZ, YZ, ZX, ZX -/
def oa : List (Nat × Nat × Nat) := [(0, 0, 0), (0, 0, 1), (0, 0, 0), (1, 0, 0), (0, 0, 0), (0, 1, 0)]
/-- null_tools.pyx:202-204, corner b -/
def ob : List (Nat × Nat × Nat) := [(1, 0, 0), (1, 0, 1), (0, 1, 0), (1, 1, 0), (0, 0, 1), (0, 1, 1)]
/-- null_tools.pyx:206-208, corner c -/
def oc : List (Nat × Nat × Nat) := [(0, 1, 0), (0, 1, 1), (0, 0, 1), (1, 0, 1), (1, 0, 0), (1, 1, 0)]
/-- null_tools.pyx:210-212, corner d -/
def od : List (Nat × Nat × Nat) := [(1, 0, 0), (1, 0, 1), (0, 1, 1), (1, 1, 1), (1, 0, 1), (1, 1, 1)]

/-- `f[ix + ox[i], iy + oy[i], iz + oz[i], ic]` -/
def corner (f : Field) (c : Nat × Nat × Nat) (o : List (Nat × Nat × Nat)) (i ic : Nat) : ℝ :=
  let p := o.getD i (0, 0, 0)
  f (c.1 + p.1) (c.2.1 + p.2.1) (c.2.2 + p.2.2) ic

structure Coef where
  a : ℝ
  b : ℝ
  c : ℝ
  d : ℝ

/-- null_tools.pyx:237-250: the coefficients on face `i` for component `ic` -/
def coef (f : Field) (c : Nat × Nat × Nat) (i ic : Nat) : Coef :=
  let a := corner f c oa i ic
  let b := corner f c ob i ic - a
  let c' := corner f c oc i ic - a
  ⟨a, b, c', corner f c od i ic - c' - b - a⟩

/-- null_tools.pyx:255 `a3 + b3 * rt1 + c3 * rt2 + d3 * rt1 * rt2` -/
def Coef.eval (q : Coef) (x y : ℝ) : ℝ := q.a + q.b * x + q.c * y + q.d * x * y

/-- null_tools.pyx:306-327: the roots in x -/
def rootsX (a b c : ℝ) : List ℝ :=
  if a = 0 then
    if b ≠ 0 then [-c / b] else []
  else
    let desc := b ^ 2 - 4 * a * c
    if desc > 0 then [(-b + √desc) / (2 * a), (-b - √desc) / (2 * a)]
    else if desc = 0 then [-b / (2 * a)]
    else []

/-- null_tools.pyx:329: `- (a1 + b1 * x) / (c1 + d1 * x)`, not a number or infinite (`none`) if the denominator is 0. -/
def rootY (q : Coef) (x : ℝ) : Option ℝ := if q.c + q.d * x = 0 then none else some (-(q.a + q.b * x) / (q.c + q.d * x))

/-- null_tools.pyx:332-335: every comparison with nan or infinity that counts is false. -/
def keep (x : ℝ) : Option ℝ → Option (ℝ × ℝ)
  | none => none
  | some y => if x ≥ 0 ∧ x ≤ 1 ∧ y > 0 ∧ y < 1 then some (x, y) else none

/-- null_tools.pyx:282-337 `find_roots_face` -/
def findRootsFace (q1 q2 : Coef) : List (ℝ × ℝ) :=
  let a := q1.b * q2.d - q1.d * q2.b
  let b := (q1.a * q2.d - q1.d * q2.a) + (q1.b * q2.c - q1.c * q2.b)
  let c := q1.a * q2.c - q1.c * q2.a
  (rootsX a b c).filterMap fun x => keep x (rootY q1 x)

/-! ## cells -/

structure Tally where
  all : Nat
  positive : Nat
  haveNull : Bool

/-- null_tools.pyx:253-261: one root on face `i` -/
def tallyRoot (q3 : Coef) (i : Nat) (t : Tally) (r : ℝ × ℝ) : Tally :=
  let ff3 := q3.eval r.1 r.2
  if ff3 > 0 then ⟨t.all + 1, t.positive + 1, t.haveNull⟩
  else if ff3 = 0 ∧ i % 2 = 0 then ⟨t.all + 1, t.positive, true⟩
  else ⟨t.all + 1, t.positive, t.haveNull⟩

/-- null_tools.pyx:236-261: the loop over the faces -/
def tallyFaces (f : Field) (c : Nat × Nat × Nat) (p : Nat × Nat × Nat) (haveNull : Bool) : Tally :=
  (List.range 6).foldl (fun t i =>
    (findRootsFace (coef f c i p.1) (coef f c i p.2.1)).foldl (tallyRoot (coef f c i p.2.2) i) t) ⟨0, 0, haveNull⟩

/-- null_tools.pyx:226-271: the loop over the permutations of the components, with its `break`; `have_null` is carried
    over. -/
def cellLoop (f : Field) (c : Nat × Nat × Nat) : List (Nat × Nat × Nat) → Bool → Bool
  | [], h => h
  | p :: ps, h =>
    let t := tallyFaces f c p h
    if (t.positive % 2 = 1 ∧ t.all % 2 = 0) ∨ t.haveNull = true then true
    else cellLoop f c ps t.haveNull

/-- null_tools.pyx:213-214 -/
def permuted : List (Nat × Nat × Nat) := [(0, 1, 2), (1, 2, 0), (2, 0, 1)]

/-- null_tools.pyx:186-280 `_py_find_null_cells_from_candidates` -/
def nullCells (f : Field) (inds : List (Nat × Nat × Nat)) : List (Nat × Nat × Nat) :=
  inds.filter fun c => cellLoop f c permuted false

inductive Err
  | valueError
  | indexError
deriving DecidableEq

/-- null_tools.pyx:36-50, 101-122 `find_nulls`. `np.array` of three empty lists has float elements: as candidates it does
    not fit `long[:, ::1]` (ValueError) and as null cells it cannot be an index (IndexError). -/
def findNulls (f : Field) (nx ny nz : Nat) (x y z : Nat → ℝ) (ibound : ℝ) :
    Except Err (List (Nat × Nat × Nat) × List (ℝ × ℝ × ℝ)) :=
  match reduceCandidates f nx ny nz x y z ibound with
  | [] => .error .valueError
  | c :: cs =>
    match nullCells f (c :: cs) with
    | [] => .error .indexError
    | n :: ns => .ok (n :: ns, (n :: ns).map fun p => (x p.1, y p.2.1, z p.2.2))

/-! ## classification -/

inductive Kind
  | O
  | A
  | B
deriving DecidableEq

inductive Class
  | is (k : Kind)
  /-- null_tools.pyx:94-95: only a message is printed and the null is in no list. -/
  | unknown
  | assertionError
deriving DecidableEq

/-- An eigenvalue: real and imaginary part. -/
abbrev Ev := ℝ × ℝ

/-- `np.isclose(e, 0.0, atol=atol)`: `rtol` does not matter, it is multiplied by 0. -/
def isZero (atol : ℝ) (e : Ev) : Bool := decide (√(e.1 ^ 2 + e.2 ^ 2) ≤ atol)

/-- null_tools.pyx:66-74 -/
def isReal (atol : ℝ) (e : Ev) : Bool := !isZero atol e && decide (|e.2| ≤ atol)
/-- null_tools.pyx:72-74 -/
def isComplex (atol : ℝ) (e : Ev) : Bool := !isZero atol e && !decide (|e.2| ≤ atol)

/-- null_tools.pyx:76-95, the eigenvalues of one null; a missing second complex eigenvalue cannot happen for three. -/
def classify (atol : ℝ) (es : List Ev) : Class :=
  let zeros := es.filter (isZero atol)
  let reals := es.filter (isReal atol)
  let complexes := es.filter (isComplex atol)
  if zeros.length = 1 then .is .O
  else if reals.length = 1 ∧ zeros.length = 0 then
    if |(complexes.getD 0 (0, 0)).2 + (complexes.getD 1 (0, 0)).2| ≤ atol then
      if (reals.getD 0 (0, 0)).1 > 0 then .is .A else .is .B
    else .assertionError
  else if reals.length = 3 then
    if (reals.filter fun e => decide (e.1 > 0)).length = 1 then .is .A else .is .B
  else .unknown

end
end Viscid.Nulls
