import Verif.Model.FieldWrites
/-!
# Model of loading vector fields that are made of scalar fields (`viscid/field.py`)

Memory, arrays and scalar fields are those of FieldWrites. The components are different fields. Not modelled: conversion of types, layouts other than the default.
-/
namespace Viscid.VecLoad
open Viscid.Contig (Nd Mem fetch alloc)
open Viscid.FieldWrites (F data)

/-- field.py:964-970 of `_dat_to_ndarray`: the data of every component is taken, and its cache is cleared (819-825); memory, the components afterwards, and their arrays -/
def loadAll : Mem α → List (F α τ) → Mem α × List (F α τ) × List Nd
  | m, [] => (m, [], [])
  | m, f :: fs =>
    let d := data m f
    let r := loadAll d.1 fs
    (r.1, { d.2.1 with cache := none } :: r.2.1, d.2.2 :: r.2.2)

/-- field.py:971-974: a new array with the components one after the other. The shape is that of the first. -/
def stack (m : Mem α) (l : List Nd) : Mem α × Nd :=
  alloc m (l.length :: (l.headD ⟨0, 0, [], []⟩).shape) fun ix => fetch m (l.getD (ix.headD 0) ⟨0, 0, [], []⟩) ix.tail

/-- `data` of a field of `scalar_fields_to_vector` (field.py:308-338) that is not loaded: memory, the components afterwards, and the array -/
def vecLoad (m : Mem α) (cs : List (F α τ)) : Mem α × List (F α τ) × Nd :=
  let r := loadAll m cs
  let v := stack r.1 r.2.2
  (v.1, r.2.1, v.2)

end Viscid.VecLoad
