import Verif.Model.Layout
/-!
# Model of memory of fields: `as_c_contiguous` and what `as_layout` shares (`viscid/field.py`)

Memory is a number of buffers; an ndarray is a buffer, the place of its first element, its shape and its strides (in elements, of any sign). Buffers from `next` on are
free. What a field is made from is an ndarray, a file, or an ndarray that is to be laid out anew. Arrays of files that are stored zyx come out of `np.array(...)` of a
transposed view, which keeps the order of the view (field.py:871-884). Layouts are as detected (see Layout). Not modelled: parents of fields (`_parent_field`), reflected coordinates,
element types and `copy` in `deep_meta` (False, the default: numpy gives the array itself).
-/
namespace Viscid.Contig
open Viscid.Layout (prod ravel unravel)

structure Nd where
  buf : Nat
  off : Int
  shape : List Nat
  strides : List Int
deriving Repr, DecidableEq

structure Mem (α : Type) where
  val : Nat → Int → α
  next : Nat

/-- place of an element -/
def addr (a : Nd) (ix : List Nat) : Int := a.off + (List.zipWith (fun (i : Nat) (s : Int) => (i : Int) * s) ix a.strides).sum

def fetch (m : Mem α) (a : Nd) (ix : List Nat) : α := m.val a.buf (addr a ix)

def store (m : Mem α) (a : Nd) (ix : List Nat) (v : α) : Mem α :=
  { m with val := fun b k => if b = a.buf ∧ k = addr a ix then v else m.val b k }

/-- strides in C order -/
def cStrides : List Nat → List Int
  | [] => []
  | _ :: s => (prod s : Int) :: cStrides s

/-- numpy, without axes of length 0: axes of length 1 may have any stride -/
def strict : List Nat → List Int → Bool
  | n :: s, t :: ts => (n = 1 || t = (prod s : Int)) && strict s ts
  | _, _ => true

/-- `flags['C_CONTIGUOUS']` of numpy -/
def contiguous (a : Nd) : Bool := a.shape.contains 0 || strict a.shape a.strides

/-- a new array in C order with the values `f` -/
def alloc (m : Mem α) (shape : List Nat) (f : List Nat → α) : Mem α × Nd :=
  (⟨fun b k => if b = m.next then f (unravel shape k.toNat) else m.val b k, m.next + 1⟩, ⟨m.next, 0, shape, cStrides shape⟩)

/-- a new array with the order of axes reversed -/
def allocF (m : Mem α) (shape : List Nat) (f : List Nat → α) : Mem α × Nd :=
  (⟨fun b k => if b = m.next then f (unravel shape.reverse k.toNat).reverse else m.val b k, m.next + 1⟩,
   ⟨m.next, 0, shape, (cStrides shape.reverse).reverse⟩)

/-- what a field is made from; `flat` says if components are moved from the last axis to the first, or the other way -/
inductive Src (α : Type) where
  | arr (a : Nd)
  | file (zyx : Bool) (shape : List Nat) (f : List Nat → α)
  | relaid (flat : Bool) (a : Nd)

structure Fld (α : Type) where
  src : Src α
  cache : Option Nd

/-- field.py:889-935 `_src_data_to_ndarray` -/
def fromSrc (m : Mem α) : Src α → Mem α × Nd
  | .arr a => (m, a)
  | .file zyx shape f => if zyx then allocF m shape f else alloc m shape f
  | .relaid flat a =>
    if flat then alloc m (a.shape.getLastD 0 :: a.shape.dropLast) fun ix => fetch m a (ix.tail ++ [ix.headD 0])
    else alloc m (a.shape.tail ++ [a.shape.headD 0]) fun ix => fetch m a (ix.getLastD 0 :: ix.dropLast)

/-- field.py:765-771 `data`, 827-832 `_fill_cache` -/
def load (m : Mem α) (f : Fld α) : Mem α × Fld α × Nd :=
  match f.cache with
  | some a => (m, f, a)
  | none => ((fromSrc m f.src).1, { f with cache := some (fromSrc m f.src).2 }, (fromSrc m f.src).2)

/-- field.py:815-817 `is_loaded` -/
def isLoaded (f : Fld α) : Bool := f.cache.isSome

/-- field.py:819-825 `clear_cache` -/
def clear (f : Fld α) : Fld α := { f with cache := none }

/-- field.py:1824-1829 `wrap`: one element is given as a number -/
inductive Ret (α : Type) where
  | self
  | field (f : Fld α)
  | number (v : α)

/-- field.py:1814-1893 `wrap` of an array, which is `src` -/
def wrap (m : Mem α) (a : Nd) (src : Src α) : Ret α :=
  if prod a.shape = 1 then .number (fetch m a (a.shape.map fun _ => 0)) else .field ⟨src, none⟩

/-- field.py:1668-1688 `as_c_contiguous`: memory and the field afterwards, and what is returned -/
def asCContiguous (m : Mem α) (f : Fld α) : Mem α × Fld α × Ret α :=
  let r := load m f
  if contiguous r.2.2 then (r.1, r.2.1, .self)
  else
    let c := alloc r.1 r.2.2.shape (fetch r.1 r.2.2)
    (c.1, if isLoaded f then r.2.1 else clear r.2.1, wrap c.1 c.2 (.arr c.2))

/-- field.py:2356-2374 `as_layout`, to another layout than that of the field -/
def asLayout (m : Mem α) (f : Fld α) (flat : Bool) : Mem α × Fld α × Ret α :=
  let r := load m f
  (r.1, if isLoaded f then r.2.1 else clear r.2.1, wrap r.1 r.2.2 (.relaid flat r.2.2))

/-- field.py:1353-1370 `fld[...] = v` for one element -/
def write (m : Mem α) (f : Fld α) (ix : List Nat) (v : α) : Mem α × Fld α :=
  (store (load m f).1 (load m f).2.2 ix v, (load m f).2.1)

end Viscid.Contig
