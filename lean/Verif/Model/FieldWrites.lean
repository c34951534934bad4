import Verif.Model.Contig
/-!
# Model of writing to scalar fields, of `clear_cache`, `forget_source` and `rewrap_field` (`viscid/field.py`)

Memory and arrays are those of Contig. Fields are scalar, with the default layout. New arrays are taken to be in C order here (numpy keeps the order of what is copied; this does
not change values). Arrays have as many elements as the coordinates ask for, and that shape unless they are zyx. `τ` are times, `zero` is 0.0. Not modelled: reflections, parents of
fields, transform functions, other metadata.
-/
namespace Viscid.FieldWrites
open Viscid.Contig (Nd Mem fetch store alloc)
open Viscid.Layout (ravel unravel)

/-- `_src_data`: an array, or a file; `f` are the values of the file by their xyz index -/
inductive Src (α : Type) where
  | arr (a : Nd)
  | file (f : List Nat → α)

/-- a field: the shape that its coordinates give, source, cache, `meta["zyx_native"]`, `deep_meta["copy"]` and time -/
structure F (α τ : Type) where
  shape : List Nat
  src : Src α
  cache : Option Nd
  zyx : Bool
  copy : Bool
  time : τ

/-- field.py:889-902 `_src_data_to_ndarray`, 850-887 `_xyz_src_data`, 957-960 and 977-978 of `_dat_to_ndarray`, 999-1008 `_reshape_ndarray_to_crds`. A zyx array is transposed, and
the copy of that is given the shape of the coordinates. -/
def fill (m : Mem α) (f : F α τ) : Mem α × Nd :=
  match f.src with
  | .arr a =>
    if f.zyx then alloc m f.shape fun ix => fetch m a (unravel a.shape.reverse (ravel f.shape ix)).reverse
    else if f.copy then alloc m a.shape (fetch m a)
    else (m, a)
  | .file g => alloc m f.shape g

/-- field.py:765-771 `data` -/
def data (m : Mem α) (f : F α τ) : Mem α × F α τ × Nd :=
  match f.cache with
  | some a => (m, f, a)
  | none => ((fill m f).1, { f with cache := some (fill m f).2 }, (fill m f).2)

/-- what is done with a field -/
inductive Op (α : Type) where
  | read
  | write (ix : List Nat) (v : α)
  | clear
  | forget

/-- `data`; 1353-1370 `set_slice` for one element; 819-825 `clear_cache`, also at the end of `with` (1412-1415); 1279-1281 `forget_source`. The view that `forget_source` sets is
not used while there is a cache, and it is cleared with it. -/
def step (s : Mem α × F α τ) : Op α → Mem α × F α τ
  | .read => ((data s.1 s.2).1, (data s.1 s.2).2.1)
  | .write ix v => (store (data s.1 s.2).1 (data s.1 s.2).2.2 ix v, (data s.1 s.2).2.1)
  | .clear => (s.1, { s.2 with cache := none })
  | .forget => ((data s.1 s.2).1, { (data s.1 s.2).2.1 with src := .arr (data s.1 s.2).2.2 })

def run (s : Mem α × F α τ) (l : List (Op α)) : Mem α × F α τ := l.foldl step s

/-- field.py:396-401 `rewrap_field`: a field with the data of the other, `copy`, and the default time (511), whose source is forgotten at once (584-585); memory, the field as it
is then, and the new one -/
def rewrap (zero : τ) (m : Mem α) (f : F α τ) : Mem α × F α τ × F α τ :=
  let d := data m f
  let r := step (d.1, (⟨f.shape, .arr d.2.2, none, false, true, zero⟩ : F α τ)) .forget
  (r.1, d.2.1, r.2)

end Viscid.FieldWrites
