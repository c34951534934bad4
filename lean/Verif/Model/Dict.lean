/-! # Python dicts as insertion-ordered association lists

CPython dict semantics (ordered since 3.7 / OrderedDict): assigning to an existing key keeps its
position, a new key is appended, `del` removes.  Used by several models. -/
namespace Viscid

/-- A Python dict: association list in insertion order. -/
abbrev Dict (K V : Type) := List (K × V)

namespace Dict
variable {K V : Type} [DecidableEq K]

/-- `d.get(k)`; `none` is where `d[k]` raises KeyError. -/
def get? : Dict K V → K → Option V
  | [], _ => none
  | (k', v) :: d, k => if k' = k then some v else get? d k

/-- `d[k] = v`. -/
def set : Dict K V → K → V → Dict K V
  | [], k, v => [(k, v)]
  | (k', v') :: d, k, v => if k' = k then (k', v) :: d else (k', v') :: set d k v

/-- `del d[k]` (no-op when absent; callers check presence where Python raises). -/
def del : Dict K V → K → Dict K V
  | [], _ => []
  | (k', v') :: d, k => if k' = k then d else (k', v') :: del d k

/-- `list(d.keys())`. -/
def keys (d : Dict K V) : List K := d.map Prod.fst

/-- No key occurs twice (true of every Python dict). -/
def WF (d : Dict K V) : Prop := (keys d).Nodup

end Dict
end Viscid
