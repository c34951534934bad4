import Verif.Model.Interior
import Verif.Model.FillSel
import Mathlib.Algebra.Order.Ring.Rat
import Mathlib.Order.WithBot
/-!
# Model of `viscid/amr_field.py`, `viscid/amr_grid.py`: slices and attributes of AMR fields, numpy functions on them, and when a skeleton is used again

Coordinates are rational numbers. Axes of times are not modelled.
-/
namespace Viscid.AmrSlice
open Viscid.Interior (End)
open Viscid.Select (Bound)

inductive Err
  | runtime
  | value
  | attribute
  | index
  | type
  deriving DecidableEq, Repr

/-- numbers with both infinities -/
abbrev E := WithBot (WithTop ℚ)

/-- a number -/
def num (q : ℚ) : E := ((q : WithTop ℚ) : WithBot (WithTop ℚ))

/-- a standard selection along an axis (one of the axes of the field: newaxis is not modelled) -/
inductive Sel
  | one (b : Bound)
  | slc (start stop : Bound) (step : Option Int)

/-- sliceutil.py:753-825 `sel2values(None, sel)`; sliceutil.py:321-322: a step of None has become 1 -/
def values : Sel → Except Interior.Err (End × End)
  | .one b => Interior.sel2valuesOne none b
  | .slc a b u => Interior.sel2values none a b (some (u.getD 1))

/-- an end that is not nan -/
def ext : End → Option E
  | .val q => some (num q)
  | .ninf => some ⊥
  | .pinf => some ⊤
  | .nan => none

/-- coordinate.py:583-597, one axis: nan is a RuntimeError; the ends are put in order -/
def extent1 (s : Sel) : Except Err (E × E) :=
  match values s with
  | .error _ => .error .type
  | .ok (a, b) =>
    match ext a, ext b with
    | some a, some b => .ok (if b < a then (b, a) else (a, b))
    | _, _ => .error .runtime

/-- coordinate.py:566-597 `get_slice_extent` of a selection for each axis -/
def extents : List Sel → Except Err (List (E × E))
  | [] => .ok []
  | s :: l =>
    match extent1 s, extents l with
    | .ok e, .ok es => .ok (e :: es)
    | .error e, _ => .error e
    | _, .error e => .error e

/-- xl_nc and xh_nc of a patch -/
structure Patch where
  lo : List ℚ
  hi : List ℚ
  deriving DecidableEq, Repr

/-- amr_field.py:124-126 `dim_is_2d` -/
def flat (ps : List Patch) (k : Nat) : Bool := ps.all fun p => p.lo.getD k 0 == p.hi.getD k 0

/-- `np.isclose(a, b, atol=atol)`; nothing is close to infinity -/
def isclose (atol a : ℚ) (b : E) : Bool :=
  match b with
  | some (some b) => decide (|a - b| ≤ atol + 1 / 100000 * |b|)
  | _ => false

/-- amr_field.py:145-153: whether the patch overlaps the extent, in one direction -/
def hit1 (atol : ℚ) (ps : List Patch) (p : Patch) (k : Nat) (e : E × E) : Bool :=
  flat ps k || !(decide (e.2 < num (p.lo.getD k 0 - atol)) || decide (num (p.hi.getD k 0) ≤ e.1))

/-- in all directions -/
def hit (atol : ℚ) (ps : List Patch) (p : Patch) (es : List (E × E)) : Bool := es.zipIdx.all fun e => hit1 atol ps p e.2 e.1

/-- amr_field.py:154: the lower end of the extent is at the upper end of the patch, in some direction -/
def maybe (atol : ℚ) (p : Patch) (es : List (E × E)) : Bool := es.zipIdx.any fun e => isclose atol (p.hi.getD e.2 0) e.1.1

/-- amr_field.py:99-175 `_prepare_amr_slice`, the indices of patches: those that are hit and not only maybe, or if there are none those that are maybe.
`comp`: the selection has a component, which `get_slice_extent` does not know: ValueError. -/
def patchInds (atol : ℚ) (ps : List Patch) (comp : Bool) (sel : List Sel) : Except Err (List Nat) :=
  if ps = [] then .error .value
  else if comp then .error .value
  else
    match extents sel with
    | .error e => .error e
    | .ok es =>
      let hits := (List.range ps.length).filter fun i => match ps[i]? with | some p => hit atol ps p es | none => false
      let near := fun i => match ps[i]? with | some p => maybe atol p es | none => false
      let inds := hits.filter fun i => !near i
      if inds = [] then .ok (hits.filter near) else .ok inds

/-- what `_prepare_amr_slice` returns: None, a single patch, or a list -/
inductive Found
  | nothing
  | one (i : Nat)
  | many (l : List Nat)
  deriving DecidableEq, Repr

/-- amr_field.py:157-173 -/
def found : List Nat → Found
  | [] => .nothing
  | [i] => .one i
  | l => .many l

/-- a slice of a patch: a number, or a field with the number of its values, its axes, and its data -/
inductive Piece (D : Type)
  | number (d : D)
  | fld (size : Nat) (axes : List String) (d : D)
  deriving DecidableEq, Repr

/-- the result: of a single patch, or an AMR field -/
inductive Res (D : Type)
  | single (p : Piece D)
  | amr (l : List (List String × D))
  deriving DecidableEq, Repr

def Piece.axes : Piece D → List String
  | .number _ => []
  | .fld _ a _ => a

def Piece.data : Piece D → D
  | .number d => d
  | .fld _ _ d => d

/-- amr_field.py:200-207: the axes of a field after `fld['x=:,y=newaxis,...']`, with the axes of the longest. Named axes are found as in `fill_nd_sel_list` -/
def putback (ref ax : List String) : Except Err (List String) :=
  match FillSel.fill () (fun k => "new-x" ++ toString k) ax (ref.map fun r => ⟨some r, if r ∈ ax then .sel () else .newax⟩) with
  | .ok rows => .ok (rows.map FillSel.Row.name)
  | .error .indexError => .error .index
  | .error _ => .error .value

/-- `axes[np.argmax(ndims)]`: the first of those with the most axes -/
def longest : List (List String) → List String
  | [] => []
  | a :: l => let r := longest l; if r.length ≤ a.length then a else r

/-- amr_field.py:197-208, the loop -/
def putbacks (ref : List String) : List (Piece D) → Except Err (List (List String × D))
  | [] => .ok []
  | p :: ps =>
    match (if p.axes.length < ref.length then putback ref p.axes else .ok p.axes), putbacks ref ps with
    | .ok a, .ok r => .ok ((a, p.data) :: r)
    | .error e, _ => .error e
    | _, .error e => .error e

def Piece.isNumber : Piece D → Bool
  | .number _ => true
  | _ => false

def Piece.isEmpty : Piece D → Bool
  | .fld n _ _ => n == 0
  | _ => false

/-- amr_field.py:177-210 `_finalize_amr_slice`. Numbers have no `crds`: AttributeError; `np.argmax` of nothing is a ValueError -/
def finalize (l : List (Piece D)) : Except Err (List (List String × D)) :=
  let l := l.filter fun p => !p.isEmpty
  if l.any Piece.isNumber then .error .attribute
  else if l = [] then .error .value
  else putbacks (longest (l.map Piece.axes)) l

/-- amr_field.py:223-242 `slice`, `slice_reduce`, `slice_and_keep`; `f i` is the slice of patch `i` -/
def slice [DecidableEq D] (atol : ℚ) (ps : List Patch) (comp : Bool) (sel : List Sel) (f : Nat → Piece D) : Except Err (Res D) :=
  match patchInds atol ps comp sel with
  | .error e => .error e
  | .ok l =>
    match found l with
    | .nothing => .error .attribute
    | .one i => .ok (.single (f i))
    | .many l => (finalize (l.map f)).map .amr

/-! ## attributes -/

/-- the value of an attribute that is not callable, as far as `==` is concerned: something compared by its value, an array, a field, something compared by identity -/
inductive Attr
  | plain (n : Int)
  | array (l : List Int)
  | field (l : List Int)
  | object (ident : Nat)
  deriving DecidableEq, Repr

/-- the truth of `a == b`. Arrays of one value are compared; longer ones have no truth: ValueError (none here) if the sizes are the
same, False if not (broadcasting is not modelled);
fields give fields, which are True if they have any values (a number of axes of the same sizes) -/
def eqTruth : Attr → Attr → Option Bool
  | .plain m, .plain n => some (decide (m = n))
  | .array l, .array m => if l.length = m.length then (if l = [] then some false else if l.length = 1 then some (decide (l = m)) else none) else some false
  | .field l, .field m => some (decide (l.length = m.length ∧ l ≠ []))
  | .object i, .object j => some (decide (i = j))
  | _, _ => some false

/-- the truth of `np.all(a == b)` -/
def eqAll : Attr → Attr → Bool
  | .plain m, .plain n => decide (m = n)
  | .array l, .array m => decide (l = m)
  | .field l, .field m => decide (l = m)
  | .object i, .object j => decide (i = j)
  | _, _ => false

/-- `all(... for ...)`: stops at the first that is False; a ValueError is none -/
def allTruth (a : Attr) : List Attr → Option Bool
  | [] => some true
  | b :: l =>
    match eqTruth b a with
    | none => none
    | some false => some false
    | some true => allTruth a l

/-- amr_field.py:473-498 `__getattr__` of an attribute that is not callable -/
def getattr : List Attr → Except Err Attr
  | [] => .error .index
  | a :: l =>
    let same := match allTruth a l with
      | some b => b
      | none => l.all fun b => eqAll b a
    if same then .ok a else .error .value

/-! ## numpy functions -/

/-- an array: its shape, and its values -/
structure NArr (α : Type) where
  shape : List Nat
  get : List Nat → α

/-- amr_field.py:312-332 `__array__`: the patches are stacked along a new last axis; different shapes are a ValueError, and so is nothing -/
def asArray : List (NArr α) → Except Err (NArr α)
  | [] => .error .value
  | p :: ps =>
    if ∀ q ∈ ps, q.shape = p.shape then
      .ok ⟨p.shape ++ [ps.length + 1], fun idx => match (p :: ps)[idx.getLast?.getD 0]? with
        | some q => q.get idx.dropLast
        | none => p.get idx.dropLast⟩
    else .error .value

/-- amr_field.py:334-341 `__array_wrap__`: the slices along the last axis, wrapped as the patches are; more than there are patches is an IndexError -/
def arrayWrap (npatches : Nat) (a : NArr α) : Except Err (List (NArr α)) :=
  let n := a.shape.getLast?.getD 0
  if n ≤ npatches then .ok ((List.range n).map fun i => ⟨a.shape.dropLast, fun idx => a.get (idx ++ [i])⟩) else .error .index

/-- a numpy function of one argument: element by element, with `__array__` before and `__array_wrap__` after -/
def ufunc (f : α → α) (ps : List (NArr α)) : Except Err (List (NArr α)) :=
  match asArray ps with
  | .error e => .error e
  | .ok a => arrayWrap ps.length ⟨a.shape, fun idx => f (a.get idx)⟩

/-! ## skeletons -/

/-- what a skeleton keeps of a patch: numbers of cells, lower and upper corners -/
structure Box where
  n : List Nat
  lo : List ℚ
  hi : List ℚ
  deriving DecidableEq, Repr

/-- `np.allclose(a, b)`: rtol is 1e-5, atol 1e-8 -/
def allclose (a b : List ℚ) : Bool := (List.zipWith (fun x y => decide (|x - y| ≤ 1 / 100000000 + 1 / 100000 * |y|)) a b).all id

/-- amr_grid.py:129-145 `compatable_with` -/
def compatible (skel grids : List Box) : Bool :=
  if grids.length ≠ skel.length then false
  else (List.zipWith (fun p g => decide (p.n = g.n) && allclose p.lo g.lo) skel grids).all id

/-- amr_grid.py:158-181: the boxes of the skeleton of a new AMR grid, given that of the one before -/
def skeletonOf (last : Option (List Box)) (grids : List Box) : List Box :=
  match last with
  | some s => if compatible s grids then s else grids
  | none => grids

/-- xdmf.py:233-244, vpic.py:520-528: a file with one AMR grid after the other -/
def skeletons : Option (List Box) → List (List Box) → List (List Box)
  | _, [] => []
  | last, g :: gs => let s := skeletonOf last g; s :: skeletons (some s) gs

end Viscid.AmrSlice
