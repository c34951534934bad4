import Verif.Model.Basic
/-!
# Model of the enumeration of seed points: `viscid/seed.py`, `viscid/coordinate.py`

Lists for one dimensional arrays; an array of shape (d, N) is the list of its d rows.  The elements are of any type.
(`np.prod` of no lengths is 1.0, a float; recent versions of numpy refuse it as a number of repetitions in
`Volume._make_local_points`, where it is not converted.  That is not modelled: the product is the number 1.)
-/
namespace Viscid.Seed

universe u
variable {α : Type u}

/-- `np.repeat(l, n)`: every element `n` times. -/
def npRepeat (l : List α) (n : Nat) : List α := l.flatMap fun a => List.replicate n a

/-- `np.tile(l, n)`: the whole list `n` times. -/
def npTile (l : List α) (n : Nat) : List α := (List.replicate n l).flatten

/-- `np.prod` of a list of lengths. -/
def nprod (l : List Nat) : Nat := l.foldl (· * ·) 1

/-- coordinate.py:1069-1079 `StructuredCrds.get_points` and seed.py:823-830 `Volume._make_local_points`: row `i` is
    `np.repeat(np.tile(c, prod(shape[:i])), prod(shape[i + 1:]))`. -/
def gridRows (axes : List (List α)) : List (List α) :=
  let shape := axes.map List.length
  (List.range axes.length).map fun i =>
    npRepeat (npTile (axes.getD i []) (nprod (shape.take i))) (nprod (shape.drop (i + 1)))

/-- `itertools.product(*axes)`, as in coordinate.py:1130-1134 `iter_points`, seed.py:843-845 `Volume.iter_points`. -/
def product : List (List α) → List (List α)
  | [] => [[]]
  | a :: as => a.flatMap fun x => (product as).map (x :: ·)

/-- coordinate.py:1126-1128 `get_nr_points`, seed.py:801-802 -/
def nrPoints (axes : List (List α)) : Nat := nprod (axes.map List.length)

inductive Err where
  | valueError | runtimeError | typeError
  deriving DecidableEq, Repr

/-- seed.py:794-799 `Volume._get_uv_xind`: the first dimension of length 1. -/
def uvXind (n : List Nat) : Except Err Nat :=
  match n.findIdx? (· == 1) with
  | some i => .ok i
  | none => .error .runtimeError

/-- seed.py:804-807 `Volume.get_uv_shape` -/
def volumeUvShape (n : List Nat) : Except Err (List Nat) := do
  let i ← uvXind n
  pure (n.eraseIdx i)

/-- seed.py:660-666 `Plane._make_local_points`, the rows, for the axes `l` and `m` and the third coordinate `n` (an
    array of length 1, repeated by broadcasting); also seed.py:1330-1335 `SphericalPatch._make_local_points`
    without the third row. -/
def planeRows (l m : List α) (n : α) : List (List α) :=
  [npRepeat l m.length, npTile m l.length, List.replicate (l.length * m.length) n]

/-- seed.py:1054-1066 `Sphere._make_local_points`, the rows r, u, v. -/
def sphereRows (thetaPhi : Bool) (r : α) (theta phi : List α) : List (List α) :=
  if thetaPhi then
    [List.replicate (theta.length * phi.length) r, npRepeat theta phi.length, npTile phi theta.length]
  else
    [List.replicate (theta.length * phi.length) r, npRepeat phi theta.length, npTile theta phi.length]

/-! ## `Point` -/

/-- A two dimensional array. -/
structure Arr2 (α : Type u) where
  nrow : Nat
  ncol : Nat
  at' : Nat → Nat → α

/-- `a.T` -/
def Arr2.T (a : Arr2 α) : Arr2 α := ⟨a.ncol, a.nrow, fun i j => a.at' j i⟩

/-- seed.py:319-337 `Point._make_local_points` of a two dimensional array: 3 rows, one column for each point. -/
def pointLocal (pts : Arr2 α) : Except Err (Arr2 α) :=
  if pts.nrow = 3 then .ok pts
  else if pts.ncol = 3 then .ok pts.T
  else .error .valueError

/-- `Point.get_points`: what `_make_local_points` makes is also kept in place of the given points, and
    converted again in the next call. -/
def pointCalls : Nat → Arr2 α → Except Err (Arr2 α)
  | 0, pts => pointLocal pts
  | k + 1, pts => match pointLocal pts with
    | .ok a => pointCalls k a
    | .error e => .error e

/-! ## Meshes of a `Sphere` -/

/-- The parts of a `Sphere` that decide on its meshes. -/
structure MeshOpts where
  /-- `theta_phi` -/
  thetaPhi : Bool
  ntheta : Nat
  nphi : Nat
  /-- `_skipped_poles()` -/
  skip0 : Bool
  skip1 : Bool
  /-- `self._spans_phi and not self._resolve_phi_endpoint()` -/
  seam : Bool

/-- `arr.reshape((nu, nv))`: C order. -/
def reshape2 (nu nv : Nat) (l : List α) : List (List α) :=
  (List.range nu).map fun i => (l.drop (i * nv)).take nv

/-- Concatenation of one more column (of copies of `p`) in front of or behind a mesh. -/
def addCol (front : Bool) (p : α) (m : List (List α)) : List (List α) :=
  m.map fun r => if front then p :: r else r ++ [p]

/-- Concatenation of one more row (of copies of `p`). -/
def addRow (front : Bool) (n : Nat) (p : α) (m : List (List α)) : List (List α) :=
  if front then List.replicate n p :: m else m ++ [List.replicate n p]

/-- seed.py:1116-1157 `Sphere.as_mesh`, of the list of seed points; `p0` and `p1` are the two pole points
    `p0 + r * pole`, `p0 - r * pole`. -/
def asMesh (o : MeshOpts) (fill : Bool) (p0 p1 : α) (pts : List α) : List (List α) :=
  let m := if o.thetaPhi then reshape2 o.ntheta o.nphi pts else reshape2 o.nphi o.ntheta pts
  if !fill then m
  else
    let m := if o.skip0 then (if o.thetaPhi then addRow true o.nphi p0 m else addCol true p0 m) else m
    let m := if o.skip1 then (if o.thetaPhi then addRow false o.nphi p1 m else addCol false p1 m) else m
    let m := if o.seam then
        (if o.thetaPhi then m.map (fun r => r ++ r.take 1) else m ++ m.take 1)
      else m
    if o.thetaPhi then m else m.reverse

/-- seed.py:1159-1196 `Sphere.arr2mesh`; `mean` is `np.mean`. -/
def arr2mesh (o : MeshOpts) (fill : Bool) (mean : List α → α) (arr : List α) : List (List α) :=
  let m := if o.thetaPhi then reshape2 o.ntheta o.nphi arr else reshape2 o.nphi o.ntheta arr
  if !fill then m
  else
    let m := if o.skip0 then
        (if o.thetaPhi then addRow true o.nphi (mean (m.headD [])) m
         else addCol true (mean (m.flatMap fun r => r.take 1)) m)
      else m
    let m := if o.skip1 then
        (if o.thetaPhi then addRow false o.nphi (mean (m.getLastD [])) m
         else addCol false (mean (m.flatMap fun r => r.drop (r.length - 1))) m)
      else m
    let m := if o.seam then
        (if o.thetaPhi then m.map (fun r => r ++ r.take 1) else m ++ m.take 1)
      else m
    if o.thetaPhi then m else m.reverse

end Viscid.Seed
