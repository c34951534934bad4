import Verif.Model.FwdSlice
import Verif.Model.Layout
import Verif.Spec.Slice
/-!
# Slicing a field whose data is still on disk: `viscid/field.py` `_finalize_slice`

The source is an hdf5 data set (`_hypersliceable`), stored either x first or z first (`zyx_native`); axes may be reflected.
Selections arrive as one integer or slice per axis (`make_slice` of the coordinates made them, see `Select` and `FillSel`).
Not modelled: index arrays and new axes in the selection, transform functions applied after reading, forced layouts, the
coordinates of the result and the conversion of a single number.
-/
namespace Viscid.LazySlice
open Viscid.FwdSlice (Slc makeFwd fwdInt)
open Viscid.Spec.Slice (pyIndices)
open Viscid.Layout (Arr reshape)

inductive Err
  | indexError
  | valueError
  | assertionError
  | zeroDivision
deriving DecidableEq, Repr

/-- One entry of an index tuple -/
inductive Idx
  | int (i : Int)
  | slc (s : Slc)
deriving DecidableEq, Repr

/-- `slice(None)` -/
def full : Idx := .slc ⟨none, none, none⟩

/-- What one entry picks from an axis: one position (the axis disappears) or a list of positions. -/
inductive Sel
  | one (p : Nat)
  | many (l : List Nat)
deriving DecidableEq, Repr

/-- numpy indexing of one axis of length `L` -/
def axisSel (L : Nat) : Idx → Except Err Sel
  | .int i => if -(L : Int) ≤ i ∧ i < L then .ok (.one (if i < 0 then i + L else i).toNat) else .error .indexError
  | .slc s => if s.step = some 0 then .error .valueError
              else .ok (.many ((pyIndices L s.start s.stop (s.step.getD 1)).map Int.toNat))

/-- An index tuple on a shape; axes the tuple does not reach are kept whole. -/
def sels : List Nat → List Idx → Except Err (List Sel)
  | [], [] => .ok []
  | [], _ :: _ => .error .indexError
  | L :: S, [] => do
    let s ← axisSel L full
    let r ← sels S []
    .ok (s :: r)
  | L :: S, i :: I => do
    let s ← axisSel L i
    let r ← sels S I
    .ok (s :: r)

/-- The index in the source for an index in the picked array -/
def subst : List Sel → List Nat → List Nat
  | [], _ => []
  | .one p :: ss, j => p :: subst ss j
  | .many l :: ss, j => l.getD (j.headD 0) 0 :: subst ss j.tail

/-- Shape of the picked array -/
def shapeOf : List Sel → List Nat
  | [] => []
  | .one _ :: ss => shapeOf ss
  | .many l :: ss => l.length :: shapeOf ss

def gather (a : Arr α) (ss : List Sel) : Arr α := ⟨shapeOf ss, fun j => a.get (subst ss j)⟩

/-- `a[tuple(idx)]` of a numpy array -/
def index (a : Arr α) (idx : List Idx) : Except Err (Arr α) := do
  let ss ← sels a.shape idx
  .ok (gather a ss)

/-- h5py only reads forward: the step of a slice has to be positive. -/
def forward : Idx → Bool
  | .int _ => true
  | .slc s => s.step.getD 1 > 0

/-- `H5pyDataWrapper.__getitem__` (readers/hdf5.py:120-127) without `transpose` and `comp_dim` -/
def h5index (a : Arr α) (idx : List Idx) : Except Err (Arr α) :=
  if idx.all forward then index a idx else .error .valueError

def ofFwdErr : FwdSlice.Err → Err
  | .indexError => .indexError
  | .assertionError => .assertionError
  | .zeroDivision => .zeroDivision

/-- sliceutil.py:909-975 for one axis: the entry of the first slice and of the second, which is nothing if the axis is
    gone, else `[::-1]` or `[::1]`. -/
def fwdAxis (L : Nat) (i : Idx) (rev : Bool) : Except Err (Idx × Option Bool) :=
  match i with
  | .int i => .ok (.int (fwdInt L i rev), none)
  | .slc s => match makeFwd L s rev with
    | .ok (first, flip) => .ok (.slc first, some flip)
    | .error e => .error (ofFwdErr e)

/-- sliceutil.py:890-979 `make_fwd_slice(shape, slices, reverse, cull_second=False)`: missing slices are whole axes,
    missing `reverse` flags are False, slices past the shape become `slice(None)`. -/
def fwd : List Nat → List Idx → List Bool → Except Err (List (Idx × Option Bool))
  | [], I, _ => .ok (I.map fun _ => (full, some false))
  | L :: S, I, R => do
    let x ← fwdAxis L (I.headD full) (R.headD false)
    let r ← fwd S I.tail R.tail
    .ok (x :: r)

/-- An entry of the second slice -/
def second : Option Bool → Option Idx
  | none => none
  | some flip => some (.slc ⟨none, none, some (if flip then -1 else 1)⟩)

inductive Center
  | node
  | cell
  | face
  | edge
deriving DecidableEq, Repr

/-- A field: the numbers of nodes and of cells along the (xyz) axes, where the values are, which axes are reflected, if the
    source is stored zyx, the components (`none` for a scalar field, else if they come first and how many), the source. -/
structure Fld (α : Type u) where
  nc : List Nat
  cc : List Nat
  center : Center
  reflect : List Bool
  zyx : Bool
  comps : Option (Bool × Nat)
  src : Arr α

/-- field.py:706-719 `sshape` -/
def Fld.sshape (f : Fld α) : List Nat := if f.center = .node then f.nc else f.cc

/-- `list.insert(nr_comp, x)`: in front if the components come first, else at the end -/
def put (first : Bool) (x : β) (l : List β) : List β := if first then x :: l else l ++ [x]

/-- `put` for fields with components -/
def Fld.withComp (f : Fld α) (x : Nat → β) (l : List β) : List β :=
  match f.comps with
  | none => l
  | some (first, n) => put first (x n) l

/-- field.py:684-692 `shape` -/
def Fld.shape (f : Fld α) : List Nat := f.withComp id f.sshape

/-- field.py:694-703, 721-726 `native_shape` -/
def Fld.nativeShape (f : Fld α) : List Nat := f.withComp id (if f.zyx then f.sshape.reverse else f.sshape)

/-- `np.transpose` with all axes reversed, all but the first, all but the last -/
def revAll (a : Arr α) : Arr α := ⟨a.shape.reverse, fun j => a.get j.reverse⟩
def revTail (a : Arr α) : Arr α :=
  ⟨a.shape.take 1 ++ (a.shape.drop 1).reverse, fun j => a.get (j.take 1 ++ (j.drop 1).reverse)⟩
def revInit (a : Arr α) : Arr α :=
  ⟨a.shape.dropLast.reverse ++ a.shape.drop (a.shape.length - 1),
   fun j => a.get (j.dropLast.reverse ++ j.drop (j.length - 1))⟩

/-- field.py:850-885 `_xyz_src_data`. `nr_comp` of an interlaced field is the number of its spatial axes, and it is an
    error (`list.remove`) if the source has no such axis. -/
def Fld.xyz (f : Fld α) : Except Err (Arr α) :=
  if f.zyx then match f.comps with
    | none => .ok (revAll f.src)
    | some (true, _) => .ok (revTail f.src)
    | some (false, _) => if f.src.shape.length = f.sshape.length + 1 then .ok (revInit f.src) else .error .valueError
  else .ok f.src

/-- coordinate.py:431-446 `reflect_fld_arr`, which is told `iscentered("Cell")` (field.py:998) -/
def Fld.reflectArr (f : Fld α) (a : Arr α) : Except Err (Arr α) := do
  let shape := f.withComp id (if f.center = .cell then f.cc else f.nc)
  let rev := f.withComp (fun _ => false) f.reflect
  let xs ← fwd shape [] rev
  let b ← index a (xs.map (·.1))
  index b (xs.filterMap fun x => second x.2)

/-- field.py:889-1008 `data` of a field that is not in memory (`_src_data_to_ndarray`, `_dat_to_ndarray`,
    `_reshape_ndarray_to_crds`) -/
def Fld.data (f : Fld α) : Except Err (Arr α) := do
  let a ← f.xyz
  match reshape a f.shape with
  | .ok b => f.reflectArr b
  | .error _ => .error .valueError

/-- field.py:1243-1254: slicing the whole data, which is what happens if the field is in memory -/
def Fld.loaded (f : Fld α) (slices : List Idx) (comp : Idx) : Except Err (Arr α) := do
  let d ← f.data
  index d (f.withComp (fun _ => comp) slices)

/-- field.py:1193-1205, for sources with fewer axes than the field: the entries of axes whose length is that of the next
    axis of the source are kept. -/
def hack : List Nat → List Nat → List (Idx × Option (Option Bool)) → Except Err (List (Idx × Option (Option Bool)))
  | _, _, [] => .ok []
  | [], _, _ :: _ => .error .indexError
  | _ :: _, [], _ :: _ => .error .indexError
  | s :: src, n :: native, x :: xs =>
    if s = n then do
      let r ← hack src native xs
      .ok (x :: r)
    else hack (s :: src) native xs

def Idx.isInt : Idx → Bool
  | .int _ => true
  | .slc _ => false

/-- `izip_longest` of the first and second slices (field.py:1199-1201) -/
def zipLongest : List Idx → List (Option Bool) → List (Idx × Option (Option Bool))
  | [], _ => []
  | a :: as, [] => (a, none) :: zipLongest as []
  | a :: as, b :: bs => (a, some b) :: zipLongest as bs

/-- field.py:1169-1191. If the source is not stored zyx the native lists are the very same list objects (1176-1177), so
    that the component's entry is inserted twice. -/
def Fld.native (f : Fld α) (xs : List (Idx × Option Bool)) (comp : Idx) : List Idx × List (Option Bool) :=
  let fst := xs.map (·.1)
  let snd := xs.map (·.2)
  let nfst := if f.zyx then fst.reverse else fst
  let nsnd := if f.zyx then snd.reverse else snd
  match f.comps with
  | none => (nfst, nsnd)
  | some (first, _) =>
    if f.zyx then (put first comp nfst, if comp.isInt then nsnd else put first (some false) nsnd)
    else (put first comp (put first comp nfst),
          if comp.isInt then nsnd else put first (some false) (put first (some false) nsnd))

/-- field.py:1217-1229: back to xyz -/
def Fld.back (f : Fld α) (comp : Idx) (a : Arr α) : Arr α :=
  if f.zyx then
    match f.comps with
    | none => revAll a
    | some (first, _) => if comp.isInt then revAll a else if first then revTail a else revInit a
  else a

/-- field.py:1153-1254: slicing a field that is not in memory -/
def Fld.lazy (f : Fld α) (slices : List Idx) (comp : Idx) : Except Err (Arr α) := do
  let xs ← fwd f.sshape slices f.reflect
  let (nfst, nsnd) := f.native xs comp
  let (nfst, nsnd) ←
    if f.src.shape.length ≠ nfst.length then do
      let r ← hack f.src.shape f.nativeShape (zipLongest nfst nsnd)
      .ok (r.map (·.1), r.filterMap (·.2))
    else .ok (nfst, nsnd)
  if f.src.shape.length = nfst.length then do
    let a ← h5index f.src nfst
    let b ← index a (nsnd.filterMap second)
    .ok (f.back comp b)
  else f.loaded slices comp

end Viscid.LazySlice
