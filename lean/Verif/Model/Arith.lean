import Verif.Model.Layout
import Verif.Model.Hdf5
/-!
# Model of arithmetic on fields

`viscid/field.py`: the arithmetic operators, `wrap`, reductions along an axis, `trapz` and `cumtrapz`. A field has, for each axis, its name and the
coordinates of its points (nodes or centres of cells, as `get_crds` gives them). Arrays are given by shape and index function, numbers are arrays without
axes. Not modelled: types of numbers, names and times of fields, face and edge centred fields, `defer_wrapping` (it is never set), coordinates without
axes.
-/
namespace Viscid.Arith
open Viscid.Layout (Arr prod reshape new Layout)
open Viscid.Hdf5 (Center)

/-- exceptions; numpy's AxisError is both a ValueError and an IndexError -/
inductive Exc
  | value
  | index
  | runtime
  | axis
  | attribute
  | type
deriving DecidableEq, Repr

/-- the exceptions of `data` -/
def lift {β : Type} : Except Layout.Err β → Except Exc β
  | .ok b => .ok b
  | .error .valueError => .error .value
  | .error .indexError => .error .index
  | .error .runtimeError => .error .runtime

/-! ## numpy -/

/-- broadcasting of one axis -/
def bcast1 (a b : Nat) : Option Nat := if a = b then some a else if a = 1 then some b else if b = 1 then some a else none

/-- broadcasting of shapes, last axes first -/
def bcastRev : List Nat → List Nat → Option (List Nat)
  | [], l => some l
  | a :: l, [] => some (a :: l)
  | a :: l, b :: m =>
    match bcast1 a b, bcastRev l m with
    | some c, some r => some (c :: r)
    | _, _ => none

/-- broadcasting of shapes -/
def bcast (s t : List Nat) : Option (List Nat) := (bcastRev s.reverse t.reverse).map List.reverse

/-- the index of the element of an array of shape `s` which is used for an index of the result -/
def bidx (s idx : List Nat) : List Nat := List.zipWith (fun n i => if n = 1 then 0 else i) s (idx.drop (idx.length - s.length))

/-- an operator on two arrays -/
def apply (op : α → β → γ) (a : Arr α) (b : Arr β) : Except Exc (Arr γ) :=
  match bcast a.shape b.shape with
  | none => .error .value
  | some s => .ok ⟨s, fun idx => op (a.get (bidx a.shape idx)) (b.get (bidx b.shape idx))⟩

/-! ## fields -/

/-- a field: names and coordinates of the points along each axis, centering, type, forced layout and source (field.py:497-575) -/
structure Fld (α : Type) where
  axes : List (String × List ℚ)
  center : Center
  vector : Bool
  force : Layout
  src : Arr α

/-- field.py:707-720 -/
def Fld.sshape (f : Fld α) : List Nat := f.axes.map fun a => a.2.length

/-- field.py:600-609 -/
def Fld.layout (f : Fld α) : Layout := if f.vector then (new f.sshape f.src f.force).layout else .scalar

/-- field.py:766-771 `data` -/
def Fld.data (f : Fld α) : Except Exc (Arr α) :=
  if f.vector then lift (new f.sshape f.src f.force).data else lift (reshape f.src f.sshape)

/-- `nr_comp` (664-681); scalars have none: TypeError (2256-2258), which is caught wherever it is used here -/
def Fld.nrComp (f : Fld α) : Except Exc (Option Nat) :=
  if f.vector then
    match lift (new f.sshape f.src f.force).nrComp with
    | .error e => .error e
    | .ok n => .ok (some n)
  else .ok none

/-- `nr_comps` (640-661; 2260-2262) -/
def Fld.nrComps (f : Fld α) : Except Exc Nat := if f.vector then lift (new f.sshape f.src f.force).nrComps else .ok 0

/-- what `wrap` returns: a number if there is just one, or a field -/
inductive Ret (α : Type)
  | number (a : α)
  | field (f : Fld α)

/-- field.py:2326-2339 `component_fields()[0]`, the slice of a field at the first component -/
def Fld.comp0 (f : Fld α) : Except Exc (Fld α) :=
  match f.data, f.nrComp with
  | .error e, _ => .error e
  | _, .error e => .error e
  | .ok a, .ok k =>
    let k := k.getD 0
    .ok ⟨f.axes, f.center, false, .default, ⟨a.shape.eraseIdx k, fun idx => a.get (idx.insertIdx k 0)⟩⟩

/-- field.py:1814-1893 `wrap` with the coordinates `axes`; nothing of `deep_meta` is kept -/
def wrapOn (vector : Bool) (center : Center) (axes : List (String × List ℚ)) (arr : Arr α) : Except Exc (Ret α) :=
  if prod arr.shape = 1 then .ok (.number (arr.get (arr.shape.map fun _ => 0)))
  else
    let crdShape := axes.map fun a => a.2.length
    let vec := if arr.shape = crdShape then false else if arr.shape.tail = crdShape ∨ arr.shape.dropLast = crdShape then true else vector
    let g : Fld α := ⟨axes, center, vec, .default, arr⟩
    match g.nrComps with
    | .error e => .error e
    | .ok n =>
      if n = 1 then
        match g.comp0 with
        | .error e => .error e
        | .ok c => .ok (.field c)
      else .ok (.field g)

/-- field.py:1814-1893 `wrap` -/
def Fld.wrap (f : Fld α) (arr : Arr β) : Except Exc (Ret β) := wrapOn f.vector f.center f.axes arr

/-- field.py:1909-1914 and 2377-2389 `_ow` for a field: scalars get an axis for the components of a vector field -/
def Fld.ow (f : Fld α) (g : Fld β) : Except Exc (Arr β) :=
  match g.data with
  | .error e => .error e
  | .ok b =>
    if f.vector && !g.vector then
      match f.layout with
      | .interlaced => .ok ⟨b.shape ++ [1], fun idx => b.get idx.dropLast⟩
      | .flat => .ok ⟨1 :: b.shape, fun idx => b.get idx.tail⟩
      | _ => .ok b
    else .ok b

/-- the operators with a field, field.py:1916-1943 and 1989-2002; `==` and `!=` of arrays that cannot be broadcast, which are no exception, are not
modelled -/
def Fld.op (o : α → β → γ) (f : Fld α) (g : Fld β) : Except Exc (Ret γ) :=
  match f.data, f.ow g with
  | .error e, _ => .error e
  | _, .error e => .error e
  | .ok a, .ok b =>
    match apply o a b with
    | .error e => .error e
    | .ok c => f.wrap c

/-- the operators with an array or a number (field.py:1916-1962 and 1989-2002); those with the field on the right (1945-1962) are the same with the
arguments of `o` swapped -/
def Fld.opArr (o : α → β → γ) (f : Fld α) (b : Arr β) : Except Exc (Ret γ) :=
  match f.data with
  | .error e => .error e
  | .ok a =>
    match apply o a b with
    | .error e => .error e
    | .ok c => f.wrap c

/-- operators of one field, field.py:1980-1987 -/
def Fld.op1 (o : α → γ) (f : Fld α) : Except Exc (Ret γ) :=
  match f.data with
  | .error e => .error e
  | .ok a => f.wrap ⟨a.shape, fun idx => o (a.get idx)⟩

/-! ## reductions -/

/-- the position that is meant by a possibly negative index -/
def pos (n : Nat) (i : Int) : Option Nat :=
  if 0 ≤ i ∧ i < n then some i.toNat else if i < 0 ∧ -(n : Int) ≤ i then some (i + n).toNat else none

/-- a reduction of numpy along axis `k`, without or with `keepdims` -/
def reduceArr (F : List α → β) (k : Nat) (keep : Bool) (a : Arr α) : Arr β :=
  if keep then
    ⟨a.shape.set k 1, fun idx => F ((List.range (a.shape.getD k 0)).map fun i => a.get (idx.set k i))⟩
  else
    ⟨a.shape.eraseIdx k, fun idx => F ((List.range (a.shape.getD k 0)).map fun i => a.get (idx.insertIdx k i))⟩

/-- `crds.slice_keep("y=0")`, coordinate.py:807-852: the first point is kept -/
def sliceKeep (axes : List (String × List ℚ)) (k : Nat) : List (String × List ℚ) := axes.modify k fun a => (a.1, a.2.take 1)

/-- `crds.slice_reduce("y=0")`, coordinate.py:778-806: the axis goes, and so do all others with one point -/
def sliceReduce (axes : List (String × List ℚ)) (k : Nat) : List (String × List ℚ) := (axes.eraseIdx k).filter fun a => a.2.length ≠ 1

/-- `wrap` of the result of a method of numpy with an axis (field.py:1843-1861) -/
def Fld.wrapAxis (f : Fld α) (axis : Int) (keepdims : Option Bool) (arr : Arr β) : Except Exc (Ret β) :=
  if prod arr.shape = 1 then .ok (.number (arr.get (arr.shape.map fun _ => 0)))
  else
    match f.nrComp, f.data with
    | .error e, _ => .error e
    | _, .error e => .error e
    | .ok c, .ok a =>
      if c.map (fun (n : Nat) => (n : Int)) = some axis then f.wrap arr
      else
        match pos f.axes.length axis with
        | none => .error .index
        | some k =>
          let keep := keepdims.getD (a.shape.length = f.axes.length)
          wrapOn f.vector f.center (if keep then sliceKeep f.axes k else sliceReduce f.axes k) arr

/-- field.py:2004-2060 `sum`, `max`, `mean`, …: any reduction along an axis -/
def Fld.reduce (F : List α → β) (f : Fld α) (axis : Int) (keepdims : Option Bool) : Except Exc (Ret β) :=
  match f.data with
  | .error e => .error e
  | .ok a =>
    match pos a.shape.length axis with
    | none => .error .axis
    | some k => f.wrapAxis axis keepdims (reduceArr F k (keepdims.getD false) a)

/-- field.py:2021-2023 `argsort`: a method of numpy with an axis that is no reduction; `F` acts on each line along the axis -/
def Fld.along (F : List α → List β) (d : β) (f : Fld α) (axis : Int) : Except Exc (Ret β) :=
  match f.data with
  | .error e => .error e
  | .ok a =>
    match pos a.shape.length axis with
    | none => .error .axis
    | some k => f.wrapAxis axis none
        ⟨a.shape, fun idx => (F ((List.range (a.shape.getD k 0)).map fun i => a.get (idx.set k i))).getD (idx.getD k 0) d⟩

/-! ## integrals -/

/-- `get_crd(axis)` -/
def Fld.crd (f : Fld α) (axis : Int) : Except Exc (List ℚ) :=
  match pos f.axes.length axis with
  | none => .error .index
  | some k => .ok ((f.axes[k]?.map Prod.snd).getD [])

/-- field.py:2077-2085: the axis of the data -/
def Fld.dataAxis (f : Fld α) (axis : Int) : Except Exc Int :=
  match f.nrComp with
  | .error e => .error e
  | .ok none => .ok axis
  | .ok (some c) => if (c : Int) > axis then .ok axis else .ok (axis + 1)

/-- one summand of `np.trapz`; the differences of one or two points are broadcast -/
def trapTerm (x : List ℚ) (y : Nat → ℚ) (nx ny i : Nat) : ℚ :=
  let ix := if nx = 2 then 0 else i
  let iy := if ny = 2 then 0 else i
  (x.getD (ix + 1) 0 - x.getD ix 0) * (y (iy + 1) + y iy) / 2

/-- `np.trapz(arr, x, axis)` for positions `k` -/
def trapzArr (a : Arr ℚ) (x : List ℚ) (k : Nat) : Except Exc (Arr ℚ) :=
  let m := a.shape.getD k 0
  match bcast1 (x.length - 1) (m - 1) with
  | none => .error .value
  | some n => .ok ⟨a.shape.eraseIdx k, fun idx => ((List.range n).map (trapTerm x (fun i => a.get (idx.insertIdx k i)) x.length m)).sum⟩

/-- what `trapz` returns -/
inductive Out
  | arr (a : Arr ℚ)
  | field (f : Fld ℚ)

/-- the axis of the data that is meant by a slice of coordinate `k`: the components may be first (field.py:1247-1260) -/
def compShift : Except Exc (Option Nat) → Nat → Nat
  | .ok (some 0), k => k + 1
  | _, k => k

/-- field.py:2061-2100 `trapz` without `fudge_factor`: the slice at 0 (2094) is a number if only one value is left, which has no shape -/
def Fld.trapz (f : Fld ℚ) (axis : Int) : Except Exc Out :=
  match f.crd axis, f.dataAxis axis, f.data with
  | .error e, _, _ => .error e
  | _, .error e, _ => .error e
  | _, _, .error e => .error e
  | .ok x, .ok da, .ok a =>
    if f.axes.length > 1 then
      let k := (pos f.axes.length axis).getD 0
      let kd := compShift f.nrComp k
      match wrapOn f.vector f.center (f.axes.eraseIdx k) (⟨a.shape.eraseIdx kd, fun idx => a.get (idx.insertIdx kd 0)⟩ : Arr ℚ) with
      | .error e => .error e
      | .ok (.number _) => .error .attribute
      | .ok (.field g) =>
        match pos a.shape.length da with
        | none => .error .axis
        | some p =>
          match trapzArr a x p with
          | .error e => .error e
          | .ok b => .ok (.field { g with src := b, force := .default })
    else
      match pos a.shape.length da with
      | none => .error .axis
      | some p =>
        match trapzArr a x p with
        | .error e => .error e
        | .ok b => .ok (.arr b)

/-- `scipy.integrate.cumtrapz(arr, x, axis, initial)` -/
def cumtrapzArr (a : Arr ℚ) (x : List ℚ) (k : Nat) (initial : Option ℚ) : Except Exc (Arr ℚ) :=
  let m := a.shape.getD k 0
  if x.length - 1 ≠ m - 1 then .error .value
  else
    let part (idx : List Nat) (n : Nat) : ℚ := ((List.range n).map (fun i => (x.getD (i + 1) 0 - x.getD i 0) * (a.get (idx.set k (i + 1)) + a.get (idx.set k i)) / 2)).sum
    match initial with
    | some v => .ok ⟨a.shape, fun idx => if idx.getD k 0 = 0 then v else part idx (idx.getD k 0)⟩
    | none => .ok ⟨a.shape.set k (m - 1), fun idx => part idx (idx.getD k 0 + 1)⟩

/-- field.py:2102-2147 `cumtrapz` without `fudge_factor` -/
def Fld.cumtrapz (f : Fld ℚ) (axis : Int) (initial : Option ℚ) : Except Exc (Fld ℚ) :=
  match f.crd axis, f.dataAxis axis, f.data with
  | .error e, _, _ => .error e
  | _, .error e, _ => .error e
  | _, _, .error e => .error e
  | .ok x, .ok da, .ok a =>
    match pos a.shape.length da with
    | none => .error .axis
    | some p =>
      match cumtrapzArr a x p initial with
      | .error e => .error e
      | .ok b => .ok { f with src := b, force := .default }

end Viscid.Arith
