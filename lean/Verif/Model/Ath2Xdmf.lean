import Mathlib.Data.Rat.Defs
import Mathlib.Algebra.Order.Field.Rat
import Mathlib.Algebra.Order.Group.Unbundled.Abs
/-!
# Model of joining the files of processes: `scripts/athena2xdmf`

One time step. Axes are z, y, x (0, 1, 2). Coordinate arrays have at least one entry. `target_arr[list of slices]` is what it is for a tuple of slices.
`np.empty` is `none` everywhere. Not modelled: iteration over times, names of files, writing.
-/
namespace Viscid.Ath2Xdmf

inductive Err
  | value
  | runtime
deriving DecidableEq

/-- `xi[0]`, `xi[-1]` -/
def first (l : List ℚ) : ℚ := l.headD 0
def last (l : List ℚ) : ℚ := l.getLastD 0

/-- athena2xdmf:28, `np.isclose(a, b, rtol, atol)` -/
def close (a b : ℚ) : Bool := decide (|a - b| ≤ 1 / 10 ^ 14 * |b|)

/-- athena2xdmf:71-79: where the array goes among those so far -/
def place (xi : List ℚ) : List (List ℚ) → Except Err (List (List ℚ))
  | [] => .ok [xi]
  | u :: us =>
    if first xi < first u then if last xi > first u then .error .value else .ok (xi :: u :: us)
    else (place xi us).map (u :: ·)

/-- athena2xdmf:57-79: the next array. What should compare the ends compares the beginnings once more. -/
def add (us : List (List ℚ)) (xi : List ℚ) : Except Err (List (List ℚ)) :=
  match us.find? (fun u => close (first xi) (first u)) with
  | some u =>
    if xi.length ≠ u.length then .error .value
    else if !close (first xi) (first u) then .error .value
    else .ok us
  | none => place xi us

/-- athena2xdmf:53-79: the arrays that differ, of one axis -/
def uniques (xs : List (List ℚ)) : Except Err (List (List ℚ)) := xs.foldlM add []

structure Grid (V : Type) where
  time : ℚ
  crds : Fin 3 → List ℚ
  data : (Fin 3 → Nat) → V

/-- athena2xdmf:89-99, one axis: the number of the array among those that differ -/
def posOf (us : List (List ℚ)) (xi : List ℚ) : Except Err Nat :=
  if xi.length - 1 < 1 then .error .value
  else match us.findIdx? (fun u => close (first xi) (first u)) with
    | some k => .ok k
    | none => .error .runtime

def all3 (f : Fin 3 → Except Err A) : Except Err (Fin 3 → A) := do
  let a ← f 0
  let b ← f 1
  let c ← f 2
  return fun i => match i with
    | 0 => a
    | 1 => b
    | 2 => c

/-- athena2xdmf:89-90: number of nodes or of cells -/
def size (node : Bool) (xi : List ℚ) : Nat := if node then xi.length else xi.length - 1

/-- athena2xdmf:109, 112 `np.sum(nnodes[i, :ip[i, igrid]])`: over grids in the order of the files -/
def start (ns : List Nat) (k : Nat) : Nat := (ns.take k).sum

/-- athena2xdmf:119-124 -/
def coordsOf : List (List ℚ) → List ℚ
  | [] => []
  | u :: us => u ++ (us.map List.tail).flatten

/-- athena2xdmf:146 `target_arr[slices[i]] = data`: slices end where the array ends; the shapes have to match, or be one -/
def assign (shape : Fin 3 → Nat) (t : (Fin 3 → Nat) → Option V) (beg n : Fin 3 → Nat) (d : (Fin 3 → Nat) → V) : Except Err ((Fin 3 → Nat) → Option V) :=
  if ∀ i, min (beg i + n i) (shape i) - min (beg i) (shape i) = n i ∨ n i = 1 then
    .ok fun idx => if ∀ i, beg i ≤ idx i ∧ idx i < min (beg i + n i) (shape i) then some (d fun i => idx i - beg i) else t idx
  else .error .value

structure Out (V : Type) where
  crds : Fin 3 → List ℚ
  shape : Fin 3 → Nat
  data : (Fin 3 → Nat) → Option V

/-- athena2xdmf:40-149: one field of one time step, node or cell centred -/
def join (node : Bool) (gs : List (Grid V)) : Except Err (Out V) := do
  match gs with
  | [] => throw .value
  | g0 :: rest =>
    if rest.any (fun g => g.time ≠ g0.time) then throw .value
  let us ← all3 fun i => uniques (gs.map (·.crds i))
  let ps ← gs.mapM fun g => all3 fun i => posOf (us i) (g.crds i)
  let crds := fun i => coordsOf (us i)
  let shape := fun i => size node (crds i)
  let data ← (gs.zip ps).foldlM (fun t e =>
    assign shape t (fun i => start (gs.map fun g => size node (g.crds i)) (e.2 i)) (fun i => size node (e.1.crds i)) e.1.data) (fun _ => none)
  return ⟨crds, shape, data⟩

end Viscid.Ath2Xdmf
