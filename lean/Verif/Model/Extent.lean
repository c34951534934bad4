import Verif.Model.AmrSlice
/-!
# Model of `viscid/field.py`, `viscid/amr_field.py`: limits of fields, and the extent of selections
-/
namespace Viscid.Extent
open Viscid.AmrSlice (E num Sel Patch Err extents)

/-- `np.min(_, axis=0)` of rows, and `np.max` with the other comparison; there must be rows -/
def reduce (f : ℚ → ℚ → ℚ) : List (List ℚ) → Except Err (List ℚ)
  | [] => .error .value
  | r :: rs => .ok (rs.foldl (List.zipWith f) r)

/-- amr_field.py:74-79 and 81-86 `AMRField.xl`, `AMRField.xh`: of the skeleton, if there is one, or of the patches -/
def xl (skeleton : Option (List Patch)) (ps : List Patch) : Except Err (List ℚ) := reduce min ((skeleton.getD ps).map Patch.lo)
def xh (skeleton : Option (List Patch)) (ps : List Patch) : Except Err (List ℚ) := reduce max ((skeleton.getD ps).map Patch.hi)

/-- amr_field.py:90-94, one column: what is not a number would be replaced, but coordinate.py:583-588 has raised a RuntimeError then -/
def patched (e : Option E × Option E) (lo hi : E) : Option E × Option E := (some (e.1.getD lo), some (e.2.getD hi))

/-- amr_field.py:88-95 `AMRField.get_slice_extent` and field.py:806-813 `Field.get_slice_extent`: three columns must be there; others stay.
    `lo`, `hi`: the limits of the field -/
def loop (lo hi : List E) (es : List (Option E × Option E)) : Nat → Except Err (List (Option E × Option E))
  | 0 => .ok es
  | n + 1 =>
    match loop lo hi es n with
    | .error e => .error e
    | .ok r =>
      match r[n]? with
      | none => .error .index
      | some e =>
        match e with
        | (some _, some _) => .ok r
        | _ =>
          match lo[n]?, hi[n]? with
          | some l, some h => .ok (r.set n (patched e l h))
          | _, _ => .error .index

/-- the extent of a selection for each axis: rows of lower and upper ends; `lo` and `hi` are `xl` and `xh` -/
def sliceExtent (lo hi : List ℚ) (sel : List Sel) : Except Err (List (Option E × Option E)) :=
  match extents sel with
  | .error e => .error e
  | .ok es => loop (lo.map num) (hi.map num) (es.map fun e => (some e.1, some e.2)) 3

end Viscid.Extent
