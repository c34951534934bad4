import Verif.Model.AmrSlice
/-!
# Model of `viscid/amr_field.py`: methods of patches called through an AMR field, `with`, `patch_indices` and `interpolated_slice`

Patches are any objects with a state; a method may raise, return anything and change the patch it is called on.
-/
namespace Viscid.AmrCall
open Viscid.AmrSlice (Patch Sel Found Piece Res patchInds found finalize)

/-- what a method of a patch returns: a field, or something else -/
inductive Value (F V : Type)
  | field (f : F)
  | other (v : V)
deriving DecidableEq, Repr

/-- exceptions of the wrapper, or of a method -/
inductive Err (E : Type)
  | index
  | attribute
  | notCallable
  | method (e : E)
deriving DecidableEq, Repr

/-- what a call gives: an AMR field or a list -/
inductive Out (F V : Type)
  | amr (l : List F)
  | list (l : List (Value F V))
deriving DecidableEq, Repr

/-- amr_field.py:42-43 the list of the results of all patches; patches after one whose method raises are left as they were -/
def callAll (call : P → Except E (Value F V) × P) : List P → Except (Err E) (List (Value F V)) × List P
  | [] => (.ok [], [])
  | p :: ps =>
    match call p with
    | (.error e, p') => (.error (.method e), p' :: ps)
    | (.ok v, p') =>
      match callAll call ps with
      | (.error e, ps') => (.error e, p' :: ps')
      | (.ok l, ps') => (.ok (v :: l), p' :: ps')

/-- amr_field.py:19-24 `is_list_of_fields`, with the fields -/
def fields : List (Value F V) → Option (List F)
  | [] => some []
  | .field f :: l => (fields l).map (f :: ·)
  | .other _ :: _ => none

/-- amr_field.py:479-483 `_wrap`, the function called with the results -/
def wrap (l : List (Value F V)) : Out F V :=
  match fields l with
  | some fs => .amr fs
  | none => .list l

/-- amr_field.py:473-484 `__getattr__` and 27-47 `_FieldListCallableAttrWrapper`: an attribute of the first patch that is callable; all patches must have it. The
attribute is that of the first patch with `getattr(self.patches[0], name)`: IndexError without patches, AttributeError if it has none. Attributes that are not callable
are not modelled here (see `Verif.Model.AmrSlice`): an error of their own. -/
def callAttr (has : P → Bool) (callable : P → Bool) (call : P → Except E (Value F V) × P) (ps : List P) : Except (Err E) (Out F V) × List P :=
  match ps with
  | [] => (.error .index, ps)
  | p :: _ =>
    if !has p then (.error .attribute, ps)
    else if !callable p then (.error .notCallable, ps)
    else if ps.any fun q => !has q then (.error .attribute, ps)
    else
      match callAll call ps with
      | (.error e, ps') => (.error e, ps')
      | (.ok l, ps') => (.ok (wrap l), ps')

/-- amr_field.py:262-271 `with fld: body`: the caches of all patches are cleared after it; exceptions of the body are not caught, as None is returned -/
def withField (clear : P → P) (body : List P → Except E R × List P) (ps : List P) : Except E R × List P :=
  match body ps with
  | (r, ps') => (r, ps'.map clear)

/-- amr_field.py:212-221 `patch_indices` -/
def patchIndices (atol : ℚ) (ps : List Patch) (comp : Bool) (sel : List Sel) : Except AmrSlice.Err Found := (patchInds atol ps comp sel).map found

/-- amr_field.py:244-250 `interpolated_slice`; `f i` is the slice of patch `i` -/
def interpolated [DecidableEq D] (atol : ℚ) (ps : List Patch) (comp : Bool) (sel : List Sel) (f : Nat → Piece D) : Except AmrSlice.Err (Res D) :=
  match patchInds atol ps comp sel with
  | .error e => .error e
  | .ok l =>
    match found l with
    | .nothing => .error .runtime
    | .one _ => .error .runtime
    | .many l => (finalize (l.map f)).map .amr

end Viscid.AmrCall
