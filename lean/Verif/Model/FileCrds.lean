import Mathlib.Data.Rat.Defs
import Mathlib.Algebra.Order.Field.Rat
/-!
# Model of coordinates of files: `_make_crds` of `viscid/readers/athena_bin.py`, `make_crds` of `viscid/readers/gkeyll.py`

Numbers are rational, rounding is not modelled. `none` is an infinite number (`np.inf`) or nan.
-/
namespace Viscid.FileCrds

inductive Err
  | index
  | key
  | value
  | runtime
deriving DecidableEq

/-- athena_bin.py:157 `cc[1:] - cc[:-1]` -/
def diffs (l : List ℚ) : List ℚ := List.zipWith (· - ·) l.tail l.dropLast

/-- `np.min` with the number before it, `none` being infinite (athena_bin.py:150-153) -/
def least (acc : Option ℚ) (l : List ℚ) : Option ℚ :=
  l.foldl (fun a x => match a with
    | none => some x
    | some y => some (min y x)) acc

/-- athena_bin.py:150-153 `dxmin`: of all axes with two centres or more -/
def dxmin (axes : List (List ℚ)) : Option ℚ := axes.foldl (fun a cc => if cc.length > 1 then least a (diffs cc) else a) none

/-- athena_bin.py:155-163: nodes of one axis. No centres are an IndexError in line 163, as in line 158 -/
def nodes (dx : Option ℚ) (cc : List ℚ) : Except Err (List (Option ℚ)) :=
  match cc with
  | [] => .error .index
  | [c] => .ok [dx.map fun d => c - 1 / 2 * d, dx.map fun d => c + 1 / 2 * d]
  | c :: _ :: _ =>
    let hd := (diffs cc).map fun d => 1 / 2 * d
    .ok (([c - hd.headD 0] ++ List.zipWith (· + ·) cc.dropLast hd ++ [cc.getLastD 0 + hd.getLastD 0]).map some)

/-- athena_bin.py:143-166 `_make_crds`: axes of the file, with their names, are those of the coordinates in the reverse order -/
def athena (clist : List (Char × List ℚ)) : Except Err (List (Char × List (Option ℚ))) := do
  let dx := dxmin (clist.map Prod.snd)
  let l ← clist.mapM fun c => do return (c.1, ← nodes dx c.2)
  return l.reverse

/-- What there is in a Gkeyll file: attributes `vsKind` and such, or arrays -/
inductive Kind
  | uniform (lower upper : List ℚ) (num : List Nat)
  | rectilinear (axes : List (List ℚ))
  | structured (shape : List Nat) (get : List Nat → ℚ)
  | other

/-- One axis: bounds and the number of nodes, or all nodes -/
inductive Crd
  | uniform (lo hi : ℚ) (n : Nat)
  | arr (l : List ℚ)

/-- gkeyll.py:405-427 `_get_single_crd`. Too many indices are a ValueError of h5py -/
def single (k : Kind) (idx : Nat) : Except Err Crd :=
  match k with
  | .uniform lower upper num =>
    if idx ≥ num.length then .error .index
    else match lower[idx]?, upper[idx]?, num[idx]? with
      | some lo, some hi, some n => .ok (.uniform lo hi (n + 1))
      | _, _, _ => .error .index
  | .rectilinear axes =>
    match axes[idx]? with
    | some l => .ok (.arr l)
    | none => .error .key
  | .structured shape get =>
    match shape with
    | [nx, ny, nz, _] =>
      if idx = 0 then .ok (.arr ((List.range nx).map fun i => get [i, 0, 0, 0]))
      else if idx = 1 then .ok (.arr ((List.range ny).map fun i => get [0, i, 0, 1]))
      else if idx = 2 then .ok (.arr ((List.range nz).map fun i => get [0, 0, i, 2]))
      else .error .value
    | _ => .error .value
  | .other => .error .runtime

/-- gkeyll.py:429-448 `make_crds`, for a field of `nr` axes: an IndexError is passed over, also that of `"xyz"[i]` -/
def gkeyll (k : Kind) (nr : Nat) : Except Err (List (Char × Crd)) :=
  (List.range nr).foldlM (fun acc i =>
    match ['x', 'y', 'z'][i]? with
    | none => .ok acc
    | some c => match single k i with
      | .ok v => .ok (acc ++ [(c, v)])
      | .error .index => .ok acc
      | .error e => .error e) []

end Viscid.FileCrds
