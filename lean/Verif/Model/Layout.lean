/-!
# Layouts of vector fields: `viscid/field.py`

An array is its shape and a function of the index. Element types, memory order (`C_CONTIGUOUS` is a parameter), reflected
coordinates, transform functions and `zyx_native` sources are not modelled.
-/
namespace Viscid.Layout

/-- field.py:27-31 -/
inductive Layout
  | default
  | interlaced
  | flat
  | scalar
  | other
deriving DecidableEq, Repr

structure Arr (α : Type u) where
  shape : List Nat
  get : List Nat → α

inductive Err
  | runtimeError
  | valueError
  | indexError
deriving DecidableEq, Repr

/-- `np.prod` -/
def prod (l : List Nat) : Nat := l.foldr (· * ·) 1

/-- field.py:1046-1050: axes of length 1 are removed from the front while there are too many axes. -/
def trim (n : Nat) : Nat → List Nat → List Nat
  | 0, s => s
  | fuel + 1, s => if s.length + 1 > n then (if 1 ∈ s then trim n fuel (s.erase 1) else s) else s

/-- field.py:1010-1085 `_detect_layout` for an array of shape `dat` on a grid of shape `sshape`. As in the code `sshape2` is
    computed from the shape of the data. -/
def detect (sshape dat : List Nat) : Layout :=
  if dat = sshape then .scalar
  else
    let s := trim dat.length sshape.length sshape
    let dat2 := dat.filter (· > 1)
    let sshape2 := dat.filter (· > 1)
    if dat = s then .scalar
    else if dat.tail = s then .flat
    else if dat.dropLast = s ∨ dat2.dropLast = sshape2 then .interlaced
    else if dat.head? = some (prod s) then .interlaced
    else if dat.getLast? = some (prod s) then .flat
    else if dat2 = sshape2 then .scalar
    else if dat2.tail = sshape2 then .flat
    else if dat2.dropLast = sshape2 then .interlaced
    else .other

/-- A vector field: the grid's shape, the array it was made from, the forced layout and the cached `_nr_comp`. The caches
    `_layout` and `_nr_comps` only depend on what is there and are not written out. -/
structure Fld (α : Type u) where
  sshape : List Nat
  src : Arr α
  force : Layout
  nrCompCache : Option Nat

/-- A new object has empty caches (field.py:497-575). -/
def new (sshape : List Nat) (src : Arr α) (force : Layout := .default) : Fld α := ⟨sshape, src, force, none⟩

/-- field.py:600-609 `layout` -/
def Fld.layout (f : Fld α) : Layout := if f.force ≠ .default then f.force else detect f.sshape f.src.shape

/-- field.py:640-661 `nr_comps` -/
def Fld.nrComps (f : Fld α) : Except Err Nat :=
  match detect f.sshape f.src.shape with
  | .interlaced => match f.src.shape.getLast? with
    | some n => .ok n
    | none => .error .indexError
  | .flat => match f.src.shape.head? with
    | some n => .ok n
    | none => .error .indexError
  | .scalar => .ok 1
  | _ => .error .runtimeError

/-- field.py:664-681 `nr_comp`: cached when it is first asked for -/
def Fld.nrComp (f : Fld α) : Except Err Nat :=
  match f.nrCompCache with
  | some n => .ok n
  | none => match f.layout with
    | .flat => .ok 0
    | .interlaced => .ok f.sshape.length
    | .scalar => .ok f.sshape.length
    | _ => .error .runtimeError

/-- field.py:684-692 `shape` (`list.insert` past the end appends) -/
def Fld.shape (f : Fld α) : Except Err (List Nat) := do
  let i ← f.nrComp
  let n ← f.nrComps
  .ok (f.sshape.take i ++ n :: f.sshape.drop i)

/-- Position of an index in C order -/
def ravel : List Nat → List Nat → Nat
  | _ :: s, i :: idx => i * prod s + ravel s idx
  | _, _ => 0

/-- The index at a position in C order -/
def unravel : List Nat → Nat → List Nat
  | [], _ => []
  | _ :: s, k => k / prod s :: unravel s (k % prod s)

/-- `arr.reshape(shape)` -/
def reshape (a : Arr α) (shape : List Nat) : Except Err (Arr α) :=
  if a.shape = shape then .ok a
  else if prod a.shape = prod shape then .ok ⟨shape, fun idx => a.get (unravel a.shape (ravel shape idx))⟩
  else .error .valueError

/-- field.py:889-944 `_src_data_to_ndarray`, with 945-1008 `_dat_to_ndarray`, `_reshape_ndarray_to_crds`. Assigning to a
    part of another shape is a ValueError (numpy would broadcast parts of length 1). -/
def Fld.data (f : Fld α) : Except Err (Arr α) := do
  let srcLayout := detect f.sshape f.src.shape
  if f.force = .default ∨ f.force = srcLayout then
    reshape f.src (← f.shape)
  else if srcLayout = .other then
    reshape f.src (← f.shape)
  else if f.force = .flat then
    if srcLayout ≠ .interlaced then .error .runtimeError
    else
      let shape ← f.shape
      if shape.tail = f.src.shape.dropLast then
        .ok ⟨shape, fun idx => f.src.get (idx.tail ++ [idx.headD 0])⟩
      else .error .valueError
  else if f.force = .interlaced then
    if srcLayout ≠ .flat then .error .runtimeError
    else
      let shape ← f.shape
      if shape.dropLast = f.src.shape.tail then
        .ok ⟨shape, fun idx => f.src.get (idx.getLastD 0 :: idx.dropLast)⟩
      else .error .valueError
  else .error .valueError

/-- Reading `data` leaves `_nr_comp` cached (`shape` is used to reshape). -/
def Fld.load (f : Fld α) : Except Err (Fld α × Arr α) := do
  let a ← f.data
  let i ← f.nrComp
  .ok ({ f with nrCompCache := some i }, a)

/-- What `as_layout` returns: nothing (`None`), the field itself, a new field, or, if there is only one number, that
    number (`wrap`, field.py:1827-1829). -/
inductive Ret (α : Type u)
  | none
  | self
  | field (f : Fld α)
  | number

/-- field.py:2341-2374 `VectorField.as_layout`; `contiguous` says if the data is C contiguous. `wrap` makes a new field from
    the array, with nothing but the given context in `deep_meta`. -/
def Fld.asLayout (f : Fld α) (to : Layout) (forceContiguous contiguous : Bool) : Except Err (Ret α) :=
  if f.layout = to then
    if forceContiguous then do
      let a ← f.data
      if !contiguous then
        if prod a.shape = 1 then .ok .number else .ok (.field (new f.sshape a))
      else .ok .self
    else .ok .none
  else do
    let a ← f.data
    if prod a.shape = 1 then .ok .number else .ok (.field (new f.sshape a to))

/-- The field that is meant by what `as_layout` returns. -/
def Ret.fld (f : Fld α) : Ret α → Option (Fld α)
  | .self => some f
  | .field g => some g
  | _ => Option.none

/-- field.py:611-620, the setter of `layout` (the cache of the data is dropped if the layout changes). -/
def Fld.setLayout (f : Fld α) (to : Layout) : Fld α := { f with force := to }

/-! ## transposing -/

/-- The exception `e` for an index out of range -/
def orRaise (e : Err) : Option β → Except Err β
  | some x => .ok x
  | none => .error e

/-- field.py:2167-2185 `transpose` of a field with named axes `crds` (name and array of each); `nrComp` is `none` for scalar
    fields. Gives the new coordinates and the new array. Negative axes are not modelled. -/
def transpose (crds : List β) (nrComp : Option Nat) (data : Arr α) (axes : List Nat) : Except Err (List β × Arr α) :=
  if axes.length ≠ crds.length + (if nrComp.isSome then 1 else 0) then .error .valueError
  else do
    let caxes ← match nrComp with
      | none => .ok axes
      | some c => if c ∈ axes then .ok ((axes.erase c).map fun i => if i > c then i - 1 else i) else .error .valueError
    let new ← caxes.mapM fun i => orRaise .indexError crds[i]?
    if ¬ axes.Nodup then .error .valueError
    else
    let shape ← axes.mapM fun i => orRaise .valueError data.shape[i]?
    .ok (new, ⟨shape, fun idx => data.get ((List.range axes.length).map fun a => idx.getD (axes.idxOf a) 0)⟩)

end Viscid.Layout
