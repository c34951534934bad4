import Verif.Model.Crds
import Verif.Model.Hdf5
/-!
# Model of changing the centering of fields

`viscid/field.py`: `shell_copy`, `as_centered`, `as_cell_centered` and `as_node_centered` of node and cell centred fields, with the cache of the data that a converted
field shares with the field it was made of. The memory is a heap of arrays; a numpy array is a view of one of them, mirrored or not (`reflect_fld_arr`
gives a view that runs backwards along the reflected axes, coordinate.py:431-448). The contents of an array are opaque. Not modelled: face and edge
centred fields, sources stored z first, forced layouts, the `copy` flag of `deep_meta` (it is False unless asked for), errors of reading files.
-/
namespace Viscid.Recenter
open Viscid.Hdf5 (Center)
open Viscid.Crds (Uniform Axis)

/-- a numpy array: which memory, and if it runs backwards along the reflected axes -/
structure View where
  addr : Nat
  mir : Bool
deriving DecidableEq, Repr

/-- `_src_data`: something on disk, which gives a new array each time it is read, or an array -/
inductive Src (V : Type)
  | file (v : V)
  | mem (a : View)

/-- What is the same for all fields that are made of one field: what reversing the reflected axes does to the contents of an array, and
    `post_reshape_transform_func` with its `copy_on_transform` (readers/openggcm.py:125-172: in place if False) -/
structure Cfg (V : Type) where
  mirror : V → V
  tf : Option (V → V)
  copy : Bool

/-- a field (field.py:497-575): centering, source, if `_src_crds` has reflected axes, `_cache` and `_parent_field` -/
structure Fld (V : Type) where
  center : Center
  src : Src V
  refl : Bool
  cache : Option View
  parent : Option Nat

/-- the memory and all fields -/
structure World (V : Type) where
  heap : Nat → V
  next : Nat
  flds : List (Fld V)

/-- the contents of an array -/
def World.get (c : Cfg V) (w : World V) (a : View) : V := if a.mir then c.mirror (w.heap a.addr) else w.heap a.addr

/-- assigning the contents of an array -/
def World.put (c : Cfg V) (w : World V) (a : View) (x : V) : World V :=
  { w with heap := fun k => if k = a.addr then (if a.mir then c.mirror x else x) else w.heap k }

/-- a new array -/
def World.alloc (w : World V) (x : V) : World V × View :=
  (⟨fun k => if k = w.next then x else w.heap k, w.next + 1, w.flds⟩, ⟨w.next, false⟩)

/-- field.py:889-900, 945-998 `_src_data_to_ndarray`, `_dat_to_ndarray`: read, reverse the reflected axes, transform -/
def World.load (c : Cfg V) (w : World V) (f : Fld V) : World V × View :=
  let r := match f.src with
    | .file v => w.alloc v
    | .mem a => (w, a)
  let a : View := ⟨r.2.addr, r.2.mir != f.refl⟩
  match c.tf with
  | none => (r.1, a)
  | some g => if c.copy then r.1.alloc (g (r.1.get c a)) else (r.1.put c a (g (r.1.get c a)), a)

/-- assign `_cache` of one field, if there is one -/
def World.setCache (w : World V) (i : Option Nat) (a : Option View) : World V :=
  match i with
  | none => w
  | some i => { w with flds := w.flds.modify i fun f => { f with cache := a } }

/-- field.py:827-832 `_fill_cache` of field `i`, which is `f` -/
def World.fill (c : Cfg V) (w : World V) (i : Nat) (f : Fld V) : World V × View :=
  let r := w.load c f
  ((r.1.setCache (some i) (some r.2)).setCache f.parent (some r.2), r.2)

/-- field.py:765-771 `data` of field `i`, which is `f` -/
def World.data (c : Cfg V) (w : World V) (i : Nat) (f : Fld V) : World V × View :=
  match f.cache with
  | some a => (w, a)
  | none => w.fill c i f

/-- field.py:819-825 `clear_cache` of field `i`, which is `f` -/
def World.clear (w : World V) (i : Nat) (f : Fld V) : World V := (w.setCache (some i) none).setCache f.parent none

/-- the argument `center` of `as_centered` -/
inductive Target
  | none
  | node
  | cell
  | other (s : String)
deriving DecidableEq, Repr

/-- `center` as a centering of fields -/
def Target.center : Target → Option Center
  | .node => some .node
  | .cell => some .cell
  | _ => Option.none

/-- field.py:1599-1616 and 1640-1662: the new field. Its coordinates are made of those of the field with the reflections applied, without
    `reflect_axes` (coordinate.py:599-615, 1351-1369; field.py:1644-1645). -/
def convert (i : Nat) (f : Fld V) (ce : Center) : Fld V := ⟨ce, f.src, false, f.cache, some i⟩

/-- field.py:1564-1572: the new field of `shell_copy`, with coordinates that have reflected axes or not. There is no `_parent_field`. -/
def shell (f : Fld V) (refl : Bool) : Fld V := ⟨f.center, f.src, refl, none, none⟩

/-- what a user can do with the fields: `fields[i].as_centered(tgt)`, `fields[i].shell_copy(force)`, `fields[i].adjust_crds(...)`, look at
    `fields[i].data`, `fields[i].clear_cache()`, `fields[i].data = x`, and change the contents of `fields[i].data` in place -/
inductive Op (V : Type)
  | convert (i : Nat) (tgt : Target)
  | shell (i : Nat) (force : Bool)
  | adjust (i : Nat)
  | read (i : Nat)
  | clear (i : Nat)
  | assign (i : Nat) (x : V)
  | write (i : Nat) (g : V → V)

/-- what comes back: a field, the contents of the data, nothing or a NotImplementedError -/
inductive Out (V : Type)
  | field (i : Nat)
  | val (v : V)
  | done
  | notImplemented

/-- field.py:1579-1588 `as_centered` of field `i`, which is `f`, with 1590-1666 -/
def World.asCentered (w : World V) (i : Nat) (f : Fld V) (tgt : Target) : World V × Out V :=
  match tgt, tgt.center with
  | .none, _ => (w, .field i)
  | _, some ce => if f.center = ce then (w, .field i) else ({ w with flds := w.flds ++ [convert i f ce] }, .field w.flds.length)
  | _, none => (w, .notImplemented)

/-- field.py:1529-1573 `shell_copy` without coordinates of field `i`, which is `f` -/
def World.shellCopy (w : World V) (i : Nat) (f : Fld V) (force : Bool) : World V × Out V :=
  if f.cache.isSome && !force then (w, .field i) else ({ w with flds := w.flds ++ [shell f f.refl] }, .field w.flds.length)

/-- field.py:1778-1787, the end of `adjust_crds`: `shell_copy` with new coordinates, which have no reflected axes -/
def World.adjustCrds (w : World V) (f : Fld V) : World V × Out V := ({ w with flds := w.flds ++ [shell f false] }, .field w.flds.length)

/-- One step; nothing if there is no field `i`. The setter of `data` (field.py:772-785) clears the cache and replaces the source by the new array. -/
def World.step (c : Cfg V) (w : World V) : Op V → Option (World V × Out V)
  | .convert i tgt => w.flds[i]?.map fun f => w.asCentered i f tgt
  | .shell i force => w.flds[i]?.map fun f => w.shellCopy i f force
  | .adjust i => w.flds[i]?.map fun f => w.adjustCrds f
  | .read i => w.flds[i]?.map fun f =>
    let r := w.data c i f
    (r.1, .val (r.1.get c r.2))
  | .clear i => w.flds[i]?.map fun f => (w.clear i f, .done)
  | .assign i x => w.flds[i]?.map fun f =>
    let r := (w.clear i f).alloc x
    ({ r.1 with flds := r.1.flds.modify i fun f => { f with src := .mem r.2 } }, .done)
  | .write i g => w.flds[i]?.map fun f =>
    let r := w.data c i f
    (r.1.put c r.2 (g (r.1.get c r.2)), .done)

/-- a program -/
def World.run (c : Cfg V) (w : World V) : List (Op V) → Option (World V × List (Out V))
  | [] => some (w, [])
  | op :: ops =>
    match w.step c op with
    | none => none
    | some (w', o) =>
      match w'.run c ops with
      | none => none
      | some (w'', os) => some (w'', o :: os)

/-- at the start there is one field, which has not been read, and an array (number 0) that it may have as source -/
def start (center : Center) (refl inMemory : Bool) (v : V) : World V :=
  ⟨fun _ => v, 1, [⟨center, if inMemory then .mem ⟨0, false⟩ else .file v, refl, none, none⟩]⟩

/-! ## coordinates -/

/-- field.py:1599-1600 and coordinate.py:1351-1369: coordinates of a node centred field on uniform coordinates, made cell centred -/
def uniformToCell (u : Uniform) (w : ℚ) : Uniform := u.nc2cc w

/-- field.py:1644-1645 and coordinate.py:1378-1402 `get_clist(center="cell")` with 1268-1273: coordinates of a cell centred field on uniform
    coordinates, made node centred -/
def uniformToNode (u : Uniform) : Uniform := ⟨u.xlCc, u.xhCc, u.shapeCc⟩

/-- field.py:1644-1645: coordinates of a cell centred field on arrays, made node centred; new coordinates without reflections -/
def axisToNode (a : Axis) : Axis := ⟨a.centres, none, false⟩

/-- coordinate.py:599-615 -/
def axisToCell (a : Axis) (w : ℚ) : Option Axis := a.nc2cc w

end Viscid.Recenter
