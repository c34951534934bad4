import Verif.Model.LazySlice
import Verif.Model.Hdf5
/-!
# Model of `H5pyDataWrapper` of `viscid/readers/hdf5.py`

An array in an hdf5 file, or one component of it, that is read when it is used. The file does not change, and its element type is
not modelled. h5py reads forward only (`LazySlice.h5index`).
-/
namespace Viscid.Hdf5Wrap
open Viscid.Layout (Arr)
open Viscid.LazySlice (Idx Err full h5index)
open Viscid.Hdf5 (T)

/-- The wrapper, hdf5.py:19-38: the array of the file, and `_shape` once it was read -/
structure W (α : Type) where
  dset : Arr α
  compDim : Option Int
  compIdx : Int
  transpose : Bool
  cache : Option (List Nat)

/-- hdf5.py:31-38 `__init__` -/
def new (dset : Arr α) (compDim : Option Int) (compIdx : Int) (transpose : Bool) : W α := ⟨dset, compDim, compIdx, transpose, none⟩

/-- `list.pop(i)` -/
def pop (l : List Nat) (i : Int) : Except Err (List Nat) :=
  if 0 ≤ i ∧ i < l.length then .ok (l.eraseIdx i.toNat)
  else if i < 0 ∧ -(l.length : Int) ≤ i then .ok (l.eraseIdx (i + l.length).toNat)
  else .error .indexError

/-- hdf5.py:40-51 `_read_info`: the shape in the file, without the axis of components -/
def readInfo (w : W α) : Except Err (List Nat) :=
  match w.compDim with
  | none => .ok w.dset.shape
  | some d => pop w.dset.shape d

/-- `_shape`, read if it is not known (hdf5.py:57-58) -/
def known (w : W α) : Except Err (List Nat) × W α :=
  match w.cache with
  | some s => (.ok s, w)
  | none => match readInfo w with
    | .ok s => (.ok s, { w with cache := some s })
    | .error e => (.error e, w)

/-- hdf5.py:53-62 `shape` -/
def shape (w : W α) : Except Err (List Nat) × W α :=
  match known w with
  | (.ok s, w) => (.ok (if w.transpose then s.reverse else s), w)
  | (.error e, w) => (.error e, w)

/-- hdf5.py:72-76 `__len__` -/
def len (w : W α) : Except Err Nat × W α :=
  match shape w with
  | (.ok s, w) => (match if w.transpose then s.getLast? else s.head? with | some n => .ok n | none => .error .indexError, w)
  | (.error e, w) => (.error e, w)

/-- An entry of a tuple of indices -/
inductive Ent
  | idx (i : Idx)
  | dots
  deriving DecidableEq, Repr

/-- What is between the brackets: an integer, slice or `...`, a tuple of them, or a list of integers -/
inductive Item
  | one (e : Ent)
  | tuple (l : List Ent)
  | list (l : List Int)
  deriving DecidableEq, Repr

def whole : Ent := .idx full

/-- hdf5.py:86-91: `list(slc)`, or `[slc]` if that is a TypeError -/
def entries : Item → List Ent
  | .one e => [e]
  | .tuple l => l
  | .list l => l.map fun i => .idx (.int i)

/-- `l.insert(k, x)` -/
def insertAt (l : List β) (k : Nat) (x : β) : List β := l.take k ++ x :: l.drop k

/-- hdf5.py:83-102 `_inject_comp_slice`, with axes of components: `slc` is None for all of it -/
def inject (w : W α) (d : Int) (slc : Option Item) : Except Err (List Ent) × W α :=
  match shape w with
  | (.error e, w) => (.error e, w)
  | (.ok s, w) =>
    let l := match slc with
      | some it => entries it ++ List.replicate (s.length - (entries it).length) whole
      | none => List.replicate s.length whole
    let d' := if d < 0 then d + s.length + 1 else d
    let w := { w with compDim := some d' }
    if d' < 0 then (.error .valueError, w) else (.ok (insertAt l d'.toNat (.idx (.int w.compIdx))), w)

/-- indices without dots, if there are none -/
def plain : List Ent → Option (List Idx)
  | [] => some []
  | .idx i :: l => (plain l).map (i :: ·)
  | .dots :: _ => none

/-- numpy and h5py: dots stand for as many whole axes as are left; there may be one of them -/
def expand (n : Nat) : List Ent → List Idx → Except Err (List Idx)
  | [], acc => .ok acc
  | .idx i :: l, acc => expand n l (acc ++ [i])
  | .dots :: l, acc => match plain l with
    | some r => .ok (acc ++ List.replicate (n - acc.length - r.length) full ++ r)
    | none => .error .indexError

/-- `dset[item]` of h5py -/
def h5get (a : Arr α) (l : List Ent) : Except Err (Arr α) := do
  let idx ← expand a.shape.length l []
  h5index a idx

/-- `a[item]` of numpy; a list of integers takes these rows -/
def npGet (a : Arr α) : Item → Except Err (Arr α)
  | .one e => do LazySlice.index a (← expand a.shape.length [e] [])
  | .tuple l => do LazySlice.index a (← expand a.shape.length l [])
  | .list l => match a.shape with
    | [] => .error .indexError
    | n :: s => do
      let rows ← l.mapM fun i => match LazySlice.axisSel n (.int i) with
        | .ok (.one p) => .ok p
        | _ => .error .indexError
      .ok (LazySlice.gather a (.many rows :: s.map fun m => .many (List.range m)))

/-- the array as it is given out: hdf5.py:117-118, 124-127 -/
def out (w : W α) (a : Arr α) : Arr α := if w.transpose then T a else a

/-- hdf5.py:78-81, 104-118 `__array__`, by `read_direct` of all of it -/
def array (w : W α) : Except Err (Arr α) × W α :=
  match shape w with
  | (.error e, w) => (.error e, w)
  | (.ok _, w) => match w.compDim with
    | none => (.ok (out w w.dset), w)
    | some d => match inject w d none with
      | (.error e, w) => (.error e, w)
      | (.ok l, w) => ((h5get w.dset l).map (out w), w)

/-- hdf5.py:120-127 `__getitem__`; h5py's reading of lists of integers is not modelled (an error here) -/
def getItem (w : W α) (it : Item) : Except Err (Arr α) × W α :=
  match w.compDim with
  | none => (match it with
    | .list _ => .error .indexError
    | it => (h5get w.dset (entries it)).map (out w), w)
  | some d => match inject w d (some it) with
    | (.error e, w) => (.error e, w)
    | (.ok l, w) => ((h5get w.dset l).map (out w), w)

/-- what users do with a wrapper -/
inductive Op
  | shape
  | len
  | array
  | item (it : Item)

/-- the wrapper afterwards -/
def Op.after (w : W α) : Op → W α
  | .shape => (Hdf5Wrap.shape w).2
  | .len => (Hdf5Wrap.len w).2
  | .array => (Hdf5Wrap.array w).2
  | .item it => (getItem w it).2

end Viscid.Hdf5Wrap
