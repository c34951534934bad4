import Verif.Model.Basic
import Mathlib.Data.Rat.Floor
/-!
# Model of `viscid/calculator/cluster.py`

Indices are integers, coordinates are rational.  Distances are kept squared: the code compares square roots
of integers, stored as single precision floats, with 1.5 or 1.1; the comparisons that matter (distances
0, 1 and √2) come out as here.
-/
namespace Viscid.Cluster

/-- A point in a cluster: its number in the input (`clusters`), its index pair after unwrapping (`cli`) and its
location after unwrapping (`clx`).  The code keeps three parallel lists that it updates together. -/
structure Entry where
  num : Nat
  ind : Int × Int
  loc : ℚ × ℚ
  deriving DecidableEq, Repr

/-- Squared distance of two index pairs. -/
def distSq (p q : Int × Int) : Int := (p.1 - q.1) * (p.1 - q.1) + (p.2 - q.2) * (p.2 - q.2)

/-- `np.min(...)` at cluster.py:23 and 26; clusters are never empty (an empty one would raise, here 0). -/
def minDist (cl : List (Int × Int)) (p : Int × Int) : Int :=
  match cl with
  | [] => 0
  | q :: qs => qs.foldl (fun m q => min m (distSq q p)) (distSq q p)

/-- cluster.py:13-33 distance_to_clusters for one cluster: the squared distance and the sign of the shift. -/
def clusterDist (alt : List (Int × Int)) (p : Int × Int) (cl : List (Int × Int)) : Int × (Int × Int) :=
  let r := alt.foldl (fun (best : Int × (Int × Int)) a =>
    let d := minDist cl (p.1 + a.1, p.2 + a.2)
    if d < best.1 then (d, a) else best) (minDist cl p, (0, 0))
  (r.1, (r.2.1.sign, r.2.2.sign))

/-- cluster.py:63 and 94: `dists < thresh` with thresh = 1.5 or 1.1, on squared distances. -/
def near (diagonals : Bool) (d : Int) : Bool := if diagonals then 4 * d < 9 else 100 * d < 121

/-- The argument `periodic` for one axis: False (or "0"), True, or '+'. -/
inductive Per
  | off | on | plus
  deriving DecidableEq, Repr

/-- What the loop knows about the domain: pdN, pdL (cluster.py:67-76) and alt (77-83). -/
structure Domain where
  n : Int × Int
  len : ℚ × ℚ
  alt : List (Int × Int)
  diagonals : Bool

/-- cluster.py:107-111, 117-118: shift an entry by a multiple of the period. -/
def shift (D : Domain) (w : Int × Int) (e : Entry) : Entry :=
  ⟨e.num, (e.ind.1 + w.1 * D.n.1, e.ind.2 + w.2 * D.n.2), (e.loc.1 + w.1 * D.len.1, e.loc.2 + w.2 * D.len.2)⟩

/-- `np.flatnonzero(touching)`: the positions, from `i` on, of the clusters the test accepts. -/
def flatnonzero (t : List Entry → Bool) : Nat → List (List Entry) → List Nat
  | _, [] => []
  | i, c :: cs => if t c then i :: flatnonzero t (i + 1) cs else flatnonzero t (i + 1) cs

/-- Distance and shift between the point of an entry and a cluster. -/
def toCluster (D : Domain) (e : Entry) (cl : List Entry) : Int × (Int × Int) :=
  clusterDist D.alt e.ind (cl.map (·.ind))

/-- cluster.py:103-111, one turn of the merging loop: pop cluster k and append it, shifted, to the new cluster.
The first component holds the old clusters, the second the new one (the last element of the code's list). -/
def mergeTurn (D : Domain) (e : Entry) (s : List (List Entry) × List Entry) (k : Nat) : List (List Entry) × List Entry :=
  match s.1[k]? with
  | none => s
  | some c =>
    let w := (toCluster D e c).2
    (s.1.eraseIdx k, s.2 ++ c.map (shift D (-w.1, -w.2)))

/-- cluster.py:88-122, the body of the loop over the points. -/
def addPoint (D : Domain) (cls : List (List Entry)) (e : Entry) : List (List Entry) :=
  let t := fun c => near D.diagonals (toCluster D e c).1
  match flatnonzero t 0 cls with
  | [] => cls ++ [[e]]
  | [k] => cls.modify k fun c => c ++ [shift D (toCluster D e c).2 e]
  | ks => let s := ks.reverse.foldl (mergeTurn D e) (cls, [e]); s.1 ++ [s.2]

/-- cluster.py:65-76 for one axis: pdN and pdL.  `none`: IndexError for an empty array, or '+' with fewer than two
values. -/
def domainAxis (c : List ℚ) (p : Per) : Option (Int × ℚ) :=
  match c.getLast?, c.head? with
  | some hi, some lo =>
    match p with
    | .off => some (0, 0)
    | .on => some (c.length, hi - lo)
    | .plus =>
      match c.dropLast.getLast? with
      | some b => some (c.length, hi - lo + (hi - b))
      | none => none
  | _, _ => none

/-- cluster.py:65-83: the bookkeeping. -/
def domain (x y : List ℚ) (per : Per × Per) (diagonals : Bool) : Option Domain :=
  match domainAxis x per.1, domainAxis y per.2 with
  | some (nx, lx), some (ny, ly) =>
    let a1 := if per.1 ≠ .off then [(-nx, 0), (nx, 0)] else []
    let a2 := if per.2 ≠ .off then [(0, -ny), (0, ny)] else []
    let a3 := if per.1 ≠ .off ∧ per.2 ≠ .off then [(-nx, -ny), (nx, ny)] else []
    some ⟨(nx, ny), (lx, ly), a1 ++ a2 ++ a3, diagonals⟩
  | _, _ => none

/-- `np.average` of one coordinate of a cluster. -/
def average (l : List ℚ) : ℚ := l.sum / l.length

/-- cluster.py:127: `pts -= pdL * floor((pts - xl) / (xh - xl))` for one coordinate.  `none` is nan: an axis
with xh = xl divides zero by zero (or by a nonzero number, giving an infinity, which times zero is nan; for a
periodic axis of zero length pdL is zero as well). -/
def wrapBack (c : List ℚ) (L v : ℚ) : Option ℚ :=
  let xl := c.headD 0
  let xh := c.getLastD 0
  if xh - xl = 0 then none else some (v - L * (⌊(v - xl) / (xh - xl)⌋ : Int))

/-- cluster.py:35-128 find_clusters.  `none`: an exception.  A point with an index out of range raises
IndexError in some turn of the loop, which discards everything, so it is tested first here. -/
def findClusters (inds : List (Nat × Nat)) (x y : List ℚ) (multiple : Bool) (per : Per × Per) (diagonals : Bool) :
    Option (List (Option ℚ × Option ℚ)) :=
  match domain x y per diagonals with
  | none => none
  | some D =>
    if multiple then
      if ∀ p ∈ inds, p.1 < x.length ∧ p.2 < y.length then
        let es := inds.zipIdx.map fun (p, i) => (⟨i, (p.1, p.2), (x.getD p.1 0, y.getD p.2 0)⟩ : Entry)
        let cls := es.foldl (addPoint D) []
        some (cls.map fun c => (wrapBack x D.len.1 (average (c.map (·.loc.1))),
          wrapBack y D.len.2 (average (c.map (·.loc.2)))))
      else none
    else
      -- cluster.py:124: rows instead of columns: `inds[0, :]` is the first point, `inds[1, :]` the second
      match inds with
      | p :: q :: _ =>
        match x[p.1]?, x[p.2]?, y[q.1]?, y[q.2]? with
        | some a, some b, some c, some d =>
          some [(wrapBack x D.len.1 (average [a, b]), wrapBack y D.len.2 (average [c, d]))]
        | _, _, _, _ => none
      | _ => none

end Viscid.Cluster
