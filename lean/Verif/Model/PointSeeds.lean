import Verif.Model.Layout
/-!
# Seeds given as arrays: `Point`, `MeshPoints` and `RectilinearMeshPoints` of `viscid/seed.py`

Element types are not modelled, nor that arrays may share memory.
-/
namespace Viscid.PointSeeds
open Viscid.Layout (Arr prod reshape)

inductive Err
  | value
  | index
  | key
  | recursion
deriving DecidableEq, Repr

/-- `arr.T` -/
def T (a : Arr α) : Arr α := ⟨a.shape.reverse, fun i => a.get i.reverse⟩

/-- `arr.reshape((3, -1))` -/
def threeRows (a : Arr α) : Except Err (Arr α) :=
  match reshape a [3, prod a.shape / 3] with
  | .ok b => .ok b
  | .error _ => .error .value

/-- seed.py:320-337 `Point._make_local_points`; the two branches of the code do the same -/
def pointLocal (a : Arr α) : Except Err (Arr α) :=
  match a.shape.head?, a.shape.getLast? with
  | some f, some l => if f = 3 then threeRows a else if l = 3 then threeRows (T a) else .error .value
  | _, _ => .error .index

/-- a `Point`: `pts`, `_cache` and `_points` -/
structure Point (α : Type u) where
  pts : Arr α
  cache : Bool
  points : Option (Arr α)

/-- seed.py:225-232 `get_points` of a `Point`; `_make_local_points` puts what it makes in the place of `pts` -/
def Point.getPoints (p : Point α) : Except Err (Arr α × Point α) :=
  match p.points with
  | some b => .ok (b, p)
  | none =>
    match pointLocal p.pts with
    | .error e => .error e
    | .ok b => .ok (b, { p with pts := b, points := if p.cache then some b else none })

/-- seed.py:308-309 `Point.get_nr_points` -/
def Point.nrPoints (p : Point α) : Except Err Nat :=
  match p.getPoints with
  | .error e => .error e
  | .ok (b, _) => match b.shape.getLast? with
    | some n => .ok n
    | none => .error .index

/-- seed.py:234-248 `iter_points`: `zip` of three rows -/
def iter (b : Arr α) : List (α × α × α) :=
  (List.range ((b.shape[1]?).getD 0)).map fun k => (b.get [0, k], b.get [1, k], b.get [2, k])

/-- a `MeshPoints` -/
structure Mesh (α : Type u) where
  pts : Arr α
  nu : Nat
  nv : Nat

/-- seed.py:356-368 `MeshPoints.__init__` -/
def meshInit (a : Arr α) : Except Err (Mesh α) :=
  match a.shape[0]? with
  | none => .error .index
  | some n =>
    if n ≠ 3 then .error .value
    else
      match a.shape[1]?, a.shape[2]? with
      | some nu, some nv => .ok ⟨a, nu, nv⟩
      | _, _ => .error .index

/-- seed.py:370-371 -/
def Mesh.nrPoints (m : Mesh α) : Nat := m.nu * m.nv

/-- seed.py:376-377 `MeshPoints.get_local_shape`, which calls itself; the number is that of calls Python allows -/
def Mesh.localShape (m : Mesh α) : Nat → Except Err (List Nat)
  | 0 => .error .recursion
  | n + 1 => m.localShape n

/-- seed.py:382-383, 388-389 `to_3d` of `_make_local_points` -/
def Mesh.points (m : Mesh α) : Except Err (Arr α) := threeRows m.pts

/-- seed.py:405-406 `as_mesh` -/
def Mesh.asMesh (m : Mesh α) : Except Err (Arr α) :=
  match m.points with
  | .error e => .error e
  | .ok b => match reshape b [3, m.nu, m.nv] with
    | .ok c => .ok c
    | .error _ => .error .value

/-- seed.py:408-409 `arr2mesh` of an array with an axis -/
def Mesh.arr2mesh (m : Mesh α) (l : List β) (d : β) : Except Err (Arr β) :=
  match reshape ⟨[l.length], fun i => (l[(i.head?).getD 0]?).getD d⟩ [m.nu, m.nv] with
  | .ok c => .ok c
  | .error _ => .error .value

/-- one entry of `mesh_axes` -/
inductive Ax
  | num (n : Int)
  | chr (c : Char)
deriving DecidableEq, Repr

/-- seed.py:422-423: the number of an entry -/
def lookAx : Ax → Except Err Nat
  | .num 0 => .ok 0
  | .num 1 => .ok 1
  | .chr 'x' => .ok 0
  | .chr 'y' => .ok 1
  | _ => .error .key

/-- seed.py:414-430 `RectilinearMeshPoints`: the axes of the mesh, for two entries of `mesh_axes` -/
def rectAxes (a : Arr α) (u v : Ax) : Except Err (List α × List α) :=
  match lookAx u, lookAx v with
  | .ok i, .ok j =>
    match meshInit a with
    | .error e => .error e
    | .ok m => .ok ((List.range m.nu).map fun k => m.pts.get [i, k, 0], (List.range m.nv).map fun k => m.pts.get [j, 0, k])
  | .error e, _ => .error e
  | _, .error e => .error e

end Viscid.PointSeeds
