import Verif.Model.Basic
import Verif.Model.Cluster
/-!
# Model of `viscid/calculator/separator.py`

Coordinates are rationals (rounding is not modelled). Tracing is a parameter: the topology of a point of the uv map is
`topo (u, v)`, which stands for `seed.to_3d`, `seed.uv_to_local` and `calc_streamlines`. Plotting and printing are dropped.
-/
namespace Viscid.Separator
open Viscid.Cluster (Per findClusters)

/-- A rectangle of the uv map: `xlim`, `ylim` -/
structure Rect where
  xl : ℚ
  xh : ℚ
  yl : ℚ
  yh : ℚ
deriving DecidableEq, Repr

/-- A quadrant string. A hexadecimal digit is the number of the quadrant (bit 0: right, bit 1: upper), with
    `UNEVEN_MASK` if the parent was split unevenly. -/
abbrev Quad := List Nat

/-- separator.py:12 `UNEVEN_MASK` -/
def unevenMask : Nat := 8

/-- separator.py:13, 496, 515: where a rectangle is split -/
def midpt (digit : Nat) : ℚ := if digit &&& unevenMask ≠ 0 then 13 / 20 else 1 / 2

/-- separator.py:490-508, one turn of the loop -/
def sub (r : Rect) (digit : Nat) : Rect :=
  let xm := r.xl + midpt digit * (r.xh - r.xl)
  let ym := r.yl + midpt digit * (r.yh - r.yl)
  ⟨if digit &&& 1 ≠ 0 then xm else r.xl, if digit &&& 1 ≠ 0 then r.xh else xm,
   if digit &&& 2 ≠ 0 then ym else r.yl, if digit &&& 2 ≠ 0 then r.yh else ym⟩

/-- separator.py:484-510 `_quadrent_limits` -/
def limits (q : Quad) (ext : Rect) : Rect := q.foldl sub ext

inductive Err
  | indexError
  | typeError
  | nameError
  | recursionError
  | other
deriving DecidableEq, Repr

/-- separator.py:512-517 `_quadrent_center`; the empty string has no last digit -/
def center (q : Quad) (ext : Rect) : Except Err (ℚ × ℚ) :=
  match q.getLast? with
  | none => .error .indexError
  | some d =>
    let r := limits q ext
    .ok (r.xl + midpt d * (r.xh - r.xl), r.yl + midpt d * (r.yh - r.yl))

/-- `np.linspace(a, b, n)` -/
def linspace (a b : ℚ) (n : Nat) : List ℚ := (List.range n).map fun (i : Nat) => a + (i : ℚ) * ((b - a) / ((n : ℚ) - 1))

/-- One of the twelve lines: `np.linspace(x0, x1, n), np.linspace(y0, y1, n)` -/
def seg (x0 x1 y0 y1 : ℚ) (n : Nat) : List (ℚ × ℚ) := (linspace x0 x1 n).zip (linspace y0 y1 n)

/-- separator.py:361-388: the twelve lines around the quadrants -/
def segments (xl xm xh yl ym yh : ℚ) (nxm nym : Nat) : List (List (ℚ × ℚ)) :=
  [seg xl xm yl yl nxm, seg xm xm yl ym nym, seg xm xl ym ym nxm, seg xl xl ym yl nym,
   seg xm xh yl yl nxm, seg xh xh yl ym nym, seg xh xm ym ym nxm,
   seg xh xh ym yh nym, seg xh xm yh yh nxm, seg xm xm ym yh nym,
   seg xm xl yh yh nxm, seg xl xl yh ym nym]

/-- separator.py:395-400: the topologies, cut into pieces of the lengths of the lines -/
def cut : List Nat → List Nat → List (List Nat)
  | [], _ => []
  | n :: ns, l => l.take n :: cut ns (l.drop n)

/-- `arr[:-1]` -/
def snip (l : List Nat) : List Nat := l.dropLast

/-- `arr[-1:0:-1]` -/
def snipRev (l : List Nat) : List Nat := (l.drop 1).reverse

/-- separator.py:402-420: the topologies around each quadrant -/
def quadTopo (t : Nat → List Nat) : List (List Nat) :=
  [snip (t 0) ++ snip (t 1) ++ snip (t 2) ++ snip (t 3),
   snip (t 4) ++ snip (t 5) ++ snip (t 6) ++ snipRev (t 1),
   snipRev (t 2) ++ snip (t 9) ++ snip (t 10) ++ snip (t 11),
   snipRev (t 6) ++ snip (t 7) ++ snip (t 8) ++ snipRev (t 9)]

/-- separator.py:440-443: the topologies around all four -/
def perimeter (t : Nat → List Nat) : List Nat :=
  (t 0).reverse ++ (t 4).reverse ++ (t 5).reverse ++ (t 7).reverse ++ (t 8).reverse ++ (t 10).reverse ++ (t 11).reverse ++
    (t 3).reverse

/-- The arguments of the search that stay the same: topology of a point, `perimeter_check`, `seed.uv_shape`,
    `seed.uv_extent`, `min_depth`, `max_depth` -/
structure Cfg where
  topo : ℚ × ℚ → Nat
  check : List Nat → Bool
  nx : Nat
  ny : Nat
  ext : Rect
  minDepth : Int
  maxDepth : Int

/-- separator.py:347-400: the topologies along the twelve lines -/
def lines (c : Cfg) (base : Quad) (mask : Nat) : Nat → List Nat :=
  let lo := limits (base ++ [0 ||| mask]) c.ext
  let hi := limits (base ++ [3 ||| mask]) c.ext
  let segs := segments lo.xl lo.xh hi.xh lo.yl lo.yh hi.yh (c.nx / 2) (c.ny / 2)
  let all := segs.flatten.map c.topo
  fun i => (cut (segs.map List.length) all).getD i []

/-- separator.py:315-482 `_get_sep_pts_bisect`, but for what the outermost call does with the result (see `outer`). A call
    takes one unit of fuel from those it makes; `none`: out of fuel (the recursion limit). -/
def bisect (c : Cfg) : Nat → Quad → Nat → Option (List Quad)
  | 0, _, _ => none
  | fuel + 1, base, mask =>
    if (base.length : Int) = c.maxDepth then some [base]
    else
      let t := lines c base mask
      let go := fun i => if c.check ((quadTopo t).getD i []) then bisect c fuel (base ++ [i ||| mask]) 0 else some []
      match go 0, go 1, go 2, go 3 with
      | some r0, some r1, some r2, some r3 =>
        let ret := r0 ++ r1 ++ r2 ++ r3
        if ret.length = 0 then
          if mask ≠ 0 then
            if (base.length : Int) > c.minDepth then some [base] else some []
          else if c.check (perimeter t) then bisect c fuel base unevenMask
          else some []
        else some ret
      | _, _, _, _ => none

/-- What the outermost call returns: points of the uv map, or (`max_depth == 0`, separator.py:319-320) a list of strings -/
inductive Out
  | strings (l : List Quad)
  | points (l : List (ℚ × ℚ))
deriving DecidableEq, Repr

/-- separator.py:315-338, 461-482: the outermost call, with `make_3d=False` -/
def outer (c : Cfg) (fuel : Nat) (startUneven : Bool) : Except Err Out :=
  if c.maxDepth = 0 then .ok (.strings [[]])
  else match bisect c fuel [] (if startUneven then unevenMask else 0) with
    | none => .error .recursionError
    | some ret => do
      let pts ← ret.mapM fun q => center q c.ext
      .ok (.points pts)

/-- `pts.shape[1]`; a list has no shape -/
def Out.count : Out → Except Err Nat
  | .points l => .ok l.length
  | .strings _ => .error .other

/-- separator.py:270-313 `get_sep_pts_bisect`, with `make_3d=False` -/
def getSepPtsBisect (c : Cfg) (fuel : Nat) : Except Err Out := do
  let even ← outer { c with minDepth := 0, maxDepth := 2 } fuel false
  let uneven ← outer { c with minDepth := 0, maxDepth := 2 } fuel true
  let ne ← even.count
  let nu ← uneven.count
  outer c fuel (if nu > ne then true else false)

/-- streamline.pyx:96-104 `TOPOLOGY_MS_SEPARATOR` -/
def msSeparator : Nat := 1 ||| 2 ||| 4 ||| 8

/-- separator.py:262-268 `perimeter_check_bitwise_or` -/
def bitwiseOr (l : List Nat) : Bool := l.foldl (· ||| ·) 0 == msSeparator

/-! ## topology_bitor_clusters -/

/-- A two dimensional array: its shape and its elements -/
structure Grid where
  n : Nat
  m : Nat
  get : Nat → Nat → Nat

/-- separator.py:182-183, `a[(0, -1), :] |= a[(-1, 0), :]`: the first and the last row become the union of both. -/
def wrapRows (a : Grid) : Except Err Grid :=
  if a.n = 0 then .error .indexError
  else .ok { a with get := fun i j => if i = 0 ∨ i = a.n - 1 then a.get 0 j ||| a.get (a.n - 1) j else a.get i j }

/-- separator.py:184-185, the same for columns -/
def wrapCols (a : Grid) : Except Err Grid :=
  if a.m = 0 then .error .indexError
  else .ok { a with get := fun i j => if j = 0 ∨ j = a.m - 1 then a.get i 0 ||| a.get i (a.m - 1) else a.get i j }

/-- separator.py:187-188 -/
def merge (a : Grid) : Grid :=
  ⟨a.n - 1, a.m - 1, fun i j => a.get i j ||| a.get i (j + 1) ||| a.get (i + 1) j ||| a.get (i + 1) (j + 1)⟩

/-- separator.py:189-190, `0.5 * (x[1:] + x[:-1])` -/
def mids (x : List ℚ) : List ℚ := List.zipWith (fun a b => 1 / 2 * (a + b)) (x.drop 1) x.dropLast

/-- separator.py:199, `np.where(a == sep_val)`: row by row -/
def whereEq (a : Grid) (v : Nat) : List (Nat × Nat) :=
  (List.range a.n).flatMap fun i => ((List.range a.m).filter fun j => a.get i j = v).map fun j => (i, j)

/-- separator.py:182-190 -/
def sweep (per : Per × Per) (s : Grid × List ℚ × List ℚ) : Except Err (Grid × List ℚ × List ℚ) := do
  let a ← if per.1 ≠ .off then wrapRows s.1 else .ok s.1
  let a ← if per.2 ≠ .off then wrapCols a else .ok a
  .ok (merge a, mids s.2.1, mids s.2.2)

/-- separator.py:181-201: turns `i`, `i + 1`, ... of the loop, with `left` of them to go. `ptBnds` tells if `pt_bnds` has
    any elements: assigning to an element of the tuple `slc` is a TypeError (194-195). -/
def loop (minDepth : Nat) (sepVal : Nat) (per : Per × Per) (ptBnds : Bool) : Nat → Nat → Grid × List ℚ × List ℚ →
    Except Err (List (Nat × Nat) × Grid × List ℚ × List ℚ)
  | 0, _, s => .ok (whereEq s.1 sepVal, s)
  | left + 1, i, s => do
    let s ← sweep per s
    if ptBnds then .error .typeError
    else
      let ind := whereEq s.1 sepVal
      if i + 1 ≥ minDepth ∧ ind ≠ [] then .ok (ind, s) else loop minDepth sepVal per ptBnds left (i + 1) s

/-- separator.py:129-226 `topology_bitor_clusters` of a field with two axes. `maskLimit` as in 174-175. If the loop makes no
    turn, `indx` is not bound. `per = none` is an empty `periodic`, which has no element 0. -/
def bitorClusters (a : Grid) (x y : List ℚ) (minDepth maxDepth : Nat) (multiple : Bool) (sepVal maskLimit : Nat)
    (per : Option (Per × Per)) (ptBnds : Bool) : Except Err (List (Option ℚ × Option ℚ)) :=
  if maxDepth = 0 then .error .nameError
  else match per with
  | none => .error .indexError
  | some per => do
    let a := if maskLimit ≠ 0 then { a with get := fun i j => a.get i j &&& maskLimit } else a
    let (ind, _, x, y) ← loop minDepth sepVal per ptBnds maxDepth 0 (a, x, y)
    match findClusters ind x y multiple per true with
    | some pts => .ok pts
    | none => .error .other

/-- What the search needs to know of a seed: `seed.pt_bnds` has elements, `seed.periodic` -/
structure SeedInfo where
  ptBnds : Bool
  periodic : Option (Per × Per)

/-- seed.py:973-992 `pt_bnds` and `periodic` of a sphere: which of its limits in theta are poles, if it spans phi -/
def sphereInfo (pole0 pole1 spansPhi thetaPhi : Bool) : SeedInfo :=
  ⟨pole0 || pole1, if spansPhi then some (if thetaPhi then (.off, .on) else (.on, .off)) else none⟩

/-- separator.py:239-260: seeds without the attributes, e.g. planes -/
def plainInfo : SeedInfo := ⟨false, some (.off, .off)⟩

/-- separator.py:239-260 `get_sep_pts_bitor` with the default arguments, given the topologies of the seeds -/
def getSepPtsBitor (s : SeedInfo) (a : Grid) (x y : List ℚ) : Except Err (List (Option ℚ × Option ℚ)) :=
  bitorClusters a x y 1 10 true msSeparator 15 s.periodic s.ptBnds

/-! ## trace_separator -/

abbrev Pt := ℚ × ℚ × ℚ

/-- The parts of `trace_separator` that are parameters: the separator points around a null, the separator points ahead of
    a line that came from the first point to the second, and if a point is within `1.01 * r` of another. -/
structure Tracer where
  around : Pt → List Pt
  ahead : Pt → Pt → List Pt
  close : Pt → Pt → Bool

/-- separator.py:96-120, the inner loop: follow a line (given in reverse) until there are no points ahead or a null is
    close. Gives the line and the new stubs. `none`: out of fuel, the loop has no bound. `np.min` of no nulls is a
    ValueError (`other`). -/
def follow (t : Tracer) (nulls : List Pt) : Nat → List Pt → List (List Pt) → Option (Except Err (List Pt × List (List Pt)))
  | 0, _, _ => none
  | fuel + 1, last :: prev :: rest, stubs =>
    match t.ahead prev last with
    | [] => some (.ok (last :: prev :: rest, stubs))
    | p :: ps =>
      if nulls = [] then some (.error .other)
      else if nulls.any fun n => t.close n p then some (.ok (last :: prev :: rest, stubs))
      else follow t nulls fuel (p :: last :: prev :: rest) ((ps.map fun q => [q, last]).reverse ++ stubs)
  | _ + 1, _, _ => some (.error .other)

/-- separator.py:92-123, the outer loop; lines and stubs are in reverse. -/
def drain (t : Tracer) (nulls : List Pt) : Nat → List (List Pt) → List (List Pt) → Option (Except Err (List (List Pt)))
  | _, [], done => some (.ok done)
  | 0, _ :: _, _ => none
  | fuel + 1, stub :: stubs, done =>
    match follow t nulls (fuel + 1) stub stubs with
    | none => none
    | some (.error e) => some (.error e)
    | some (.ok (sep, stubs)) => drain t nulls fuel stubs (done ++ [sep])

/-- `np.argmin` -/
def argmin : List ℚ → Nat
  | [] => 0
  | [_] => 0
  | a :: b :: l => if a ≤ (b :: l).getD (argmin (b :: l)) 0 then 0 else argmin (b :: l) + 1

/-- separator.py:64-123 without the cache, given the nulls. `np.argmin` of nothing is a ValueError. -/
def trace (t : Tracer) (fuel : Nat) (nulls : List Pt) : Option (Except Err (List (List Pt))) :=
  match nulls with
  | [] => some (.error .other)
  | p :: ps =>
    let k := argmin ((p :: ps).map fun n => n.2.1)
    let p0 := (p :: ps).getD k p
    let nulls2 := (p :: ps).eraseIdx k
    match drain t nulls2 fuel ((t.around p0).map fun q => [q, p0]) [] with
    | some (.ok seps) => some (.ok (seps.map List.reverse))
    | r => r

/-- The argument `cache` -/
inductive Cache
  | yes
  | no
  | force
deriving DecidableEq, Repr

/-- The arguments that matter for the name of the cache file, and two that matter for the result -/
structure Args where
  dir : String
  run : String
  time : ℚ
  slc : String
  r : ℚ
deriving DecidableEq

/-- Rounding to an integer, halves to even: `"{:.0f}".format(x)` -/
def roundEven (x : ℚ) : Int :=
  let f := ⌊x⌋
  if x - f < 1 / 2 then f else if x - f > 1 / 2 then f + 1 else if f % 2 = 0 then f else f + 1

/-- separator.py:49-51: the name of the cache file -/
def fileName (a : Args) : String × String × Int := (a.dir, a.run, roundEven a.time)

/-- separator.py:47-127: the cache. Files are named after directory, run and the time rounded to an integer; `compute`
    stands for everything in the `except` branch, with the other arguments (grid, slice, r, trace options) in `A`. -/
def cached [DecidableEq N] (name : A → N) (compute : A → R) (files : List (N × R)) (c : Cache) (args : A) :
    R × List (N × R) :=
  match (if c = .force then none else (files.find? fun p => p.1 = name args).map (·.2)) with
  | some r => (r, files)
  | none =>
    let r := compute args
    (r, if c = .no then files else (name args, r) :: files)

end Viscid.Separator
