import Verif.Model.LazySlice
/-!
# Assigning to a selection of a field: `viscid/field.py` `set_slice`

The data is in memory (`self.data` loads it, field.py:765-771, 827-832), in the order of the coordinates. Selections arrive as one integer or slice per axis, and new
axes (`make_slice` of the coordinates made them, see `Select` and `FillSel`). Not modelled: index arrays, and views of the data that others hold.
-/
namespace Viscid.SetSlice
open Viscid.Layout (Arr)
open Viscid.LazySlice (Err Idx Sel axisSel full)

/-- An entry of an index tuple: a new axis, or an integer or slice -/
inductive Ent
  | newax
  | idx (i : Idx)
deriving DecidableEq, Repr

/-- What an entry picks -/
inductive SelN
  | new
  | sel (s : Sel)
deriving DecidableEq, Repr

/-- numpy indexing with new axes: an index tuple on a shape; axes the tuple does not reach are kept whole -/
def sels : List Nat → List Ent → Except Err (List SelN)
  | S, [] => .ok (S.map fun L => .sel (.many (List.range L)))
  | S, .newax :: E =>
    match sels S E with
    | .ok r => .ok (.new :: r)
    | .error e => .error e
  | [], .idx _ :: _ => .error .indexError
  | L :: S, .idx i :: E =>
    match axisSel L i with
    | .error e => .error e
    | .ok s => match sels S E with
      | .ok r => .ok (.sel s :: r)
      | .error e => .error e

/-- Shape of what is picked -/
def shapeOf : List SelN → List Nat
  | [] => []
  | .new :: ss => 1 :: shapeOf ss
  | .sel (.one _) :: ss => shapeOf ss
  | .sel (.many l) :: ss => l.length :: shapeOf ss

/-- The index in the array for an index in what is picked -/
def subst : List SelN → List Nat → List Nat
  | [], _ => []
  | .new :: ss, j => subst ss j.tail
  | .sel (.one p) :: ss, j => p :: subst ss j
  | .sel (.many l) :: ss, j => l.getD (j.headD 0) 0 :: subst ss j.tail

/-- The index in what is picked for an index in the array, if that is picked -/
def unsubst : List SelN → List Nat → Option (List Nat)
  | [], _ => some []
  | .new :: ss, k => (unsubst ss k).map (0 :: ·)
  | .sel (.one p) :: ss, k => if k.headD 0 = p then unsubst ss k.tail else none
  | .sel (.many l) :: ss, k => if k.headD 0 ∈ l then (unsubst ss k.tail).map (l.idxOf (k.headD 0) :: ·) else none

/-- `a[tuple(ents)]` of a numpy array -/
def index (a : Arr α) (ents : List Ent) : Except Err (Arr α) :=
  match sels a.shape ents with
  | .error e => .error e
  | .ok ss => .ok ⟨shapeOf ss, fun j => a.get (subst ss j)⟩

/-- Leading axes of length 1 that are too many are ignored in an assignment. -/
def strip (n : Nat) : List Nat → List Nat
  | [] => []
  | x :: l => if x = 1 ∧ n < l.length + 1 then strip n l else x :: l

/-- A shape can be broadcast to another, last axes first. -/
def fitsRev : List Nat → List Nat → Bool
  | [], _ => true
  | _ :: _, [] => false
  | x :: l, y :: m => (x == 1 || x == y) && fitsRev l m

/-- The index in an array for an index in what it is broadcast to, last axes first -/
def bidxRev : List Nat → List Nat → List Nat
  | [], _ => []
  | x :: l, j => (if x = 1 then 0 else j.headD 0) :: bidxRev l j.tail

/-- The value of an array at an index of what it is broadcast to -/
def bget (v : Arr α) (n : Nat) (j : List Nat) : α :=
  v.get (List.replicate (v.shape.length - (strip n v.shape).length) 0 ++ (bidxRev (strip n v.shape).reverse j.reverse).reverse)

/-- `a[tuple(ents)] = v` of a numpy array; a number is an array with no axes -/
def assign (a : Arr α) (ents : List Ent) (v : Arr α) : Except Err (Arr α) :=
  match sels a.shape ents with
  | .error e => .error e
  | .ok ss =>
    let S := shapeOf ss
    if fitsRev (strip S.length v.shape).reverse S.reverse then
      .ok ⟨a.shape, fun k => match unsubst ss k with
        | some j => bget v S.length j
        | none => a.get k⟩
    else .error .valueError

/-- `list.insert(i, x)` -/
def insertAt (i : Nat) (x : β) (l : List β) : List β := l.take i ++ x :: l.drop i

/-- A field in memory: the number of its spatial axes, the components (`none` for a scalar field, else if they come first and how many), the data -/
structure Fld (α : Type u) where
  nsd : Nat
  comps : Option (Bool × Nat)
  data : Arr α

/-- field.py:663-681, 2254-2256 `nr_comp`; nothing for scalar fields, where it is a TypeError -/
def Fld.nrComp (f : Fld α) : Option Nat := f.comps.map fun c => if c.1 then 0 else f.nsd

/-- field.py:1362-1368: where the entry of the component goes in an assignment -/
def Fld.setEnts (f : Fld α) (slices : List Ent) (comp : Idx) : List Ent :=
  match f.nrComp with
  | none => slices
  | some n => insertAt (n + (slices.take n).count .newax) (.idx comp) slices

/-- field.py:1353-1370 `set_slice`, `fld[sel] = v` -/
def Fld.setSlice (f : Fld α) (slices : List Ent) (comp : Idx) (v : Arr α) : Except Err (Fld α) :=
  match assign f.data (f.setEnts slices comp) v with
  | .ok d => .ok { f with data := d }
  | .error e => .error e

/-- field.py:1243-1251: where the entry of the component goes when a field is sliced -/
def Fld.getEnts (f : Fld α) (slices : List Ent) (comp : Idx) : List Ent :=
  match f.nrComp with
  | none => slices
  | some n => if n = 0 then insertAt 0 (.idx comp) slices else insertAt slices.length (.idx comp) slices

/-- field.py:1242-1254, the data of `fld[sel]` -/
def Fld.getSlice (f : Fld α) (slices : List Ent) (comp : Idx) : Except Err (Arr α) := index f.data (f.getEnts slices comp)

end Viscid.SetSlice
