import Verif.Model.Readers
/-!
# Model of looking classes up by name: readers (`VFile.resolve_type`), fields (`field_type`), coordinates (`lookup_crds_type`)

`kls.__subclasses__()` is the tree of `Verif.Model.Readers`. Characters are ASCII, as far as lower case goes.
-/
namespace Viscid.KlsNames
open Viscid.Readers (Cls)

abbrev Text := List Char

/-- A class: which one, and its `__name__` (readers) or `_TYPE` (fields, coordinates) -/
structure Kls where
  id : Nat
  name : Text
  deriving DecidableEq, Repr

def lower (s : Text) : Text := s.map Char.toLower

/-- vfile.py:277-279 and 286-288: without the first 'file' -/
def dropFile : Text → Text
  | [] => []
  | c :: cs => if "file".toList.isPrefixOf (c :: cs) then (c :: cs).drop 4 else c :: dropFile cs

/-- vfile.py:276-279 -/
def normal (s : Text) : Text :=
  dropFile (lower (((s.filter (· ≠ ' ')).filter (· ≠ '_')).filter (· ≠ '-')))

/-- `s in t` -/
def isIn (s : Text) : Text → Bool
  | [] => s.isPrefixOf []
  | c :: cs => s.isPrefixOf (c :: cs) || isIn s cs

mutual
/-- vfile.py:274-292 `resolve_type`: the text is normalised again at every level -/
def resolve : Cls Kls → Text → Option Nat
  | .node k subs, s =>
    let s := normal s
    match resolveRev subs s with
    | some i => some i
    | none => if isIn s (dropFile (lower k.name)) then some k.id else none
/-- vfile.py:281-284: the loop over `reversed(cls.__subclasses__())` -/
def resolveRev : List (Cls Kls) → Text → Option Nat
  | [], _ => none
  | c :: cs, s => match resolveRev cs s with
    | some i => some i
    | none => resolve c s
end

mutual
/-- vutil.py:101-107 `subclass_spider`: the class, then its subclasses, the most recent ones first -/
def spider : Cls Kls → List Kls
  | .node k subs => k :: spiderRev subs
def spiderRev : List (Cls Kls) → List Kls
  | [] => []
  | c :: cs => spiderRev cs ++ spider c
end

/-- coordinate.py:204-206, field.py:1372-1374 `istype` -/
def istype (k : Kls) (s : Text) : Bool := k.name == lower s

/-- coordinate.py:100-104 `lookup_crds_type`, and field.py:356-358, the loop of `field_type` -/
def lookup (root : Cls Kls) (s : Text) : Option Nat := ((spider root).find? (istype · s)).map (·.id)

/-- field.py: `Field` (0) and its subclasses, lines 472, 2246, 2301, 2393, 2397 -/
def fieldTree : Cls Kls := .node ⟨0, "none".toList⟩
  [.node ⟨1, "scalar".toList⟩ [], .node ⟨2, "vector".toList⟩ [], .node ⟨3, "matrix".toList⟩ [], .node ⟨4, "tensor".toList⟩ []]

/-- coordinate.py: `Coordinates` (0) and its subclasses, lines 166, 266, 1197, 1412, 1441, 1446, 1451, 1456, 1461 -/
def crdsTree : Cls Kls := .node ⟨0, "none".toList⟩
  [.node ⟨1, "structured".toList⟩
    [.node ⟨2, "uniform".toList⟩ [.node ⟨4, "uniform_cartesian".toList⟩ [], .node ⟨6, "uniform_spherical".toList⟩ []],
     .node ⟨3, "nonuniform".toList⟩ [.node ⟨5, "nonuniform_cartesian".toList⟩ [], .node ⟨7, "nonuniform_spherical".toList⟩ []]],
   .node ⟨8, "unstructured".toList⟩ []]

/-- What is given as a type: a class (the flag: whether it is one of fields), a text, or something without `lower` -/
inductive Arg where
  | cls (i : Nat) (isField : Bool)
  | text (s : Text)
  | other
  deriving DecidableEq, Repr

inductive Err where
  | attr | notImplemented
  deriving DecidableEq, Repr

/-- field.py:340-360 `field_type`: None for a text that is not understood -/
def fieldType : Arg → Except Err (Option Nat)
  | .cls i true => .ok (some i)
  | .cls _ false => .error .attr
  | .text s => .ok (lookup fieldTree s)
  | .other => .error .attr

/-- coordinate.py:106-116 `wrap_crds`: which class is called; `build` is what its constructor does (`none`: it raises TypeError) -/
def wrapCrds (a : Arg) (build : Nat → Option Unit) : Except Err Nat :=
  let call (c : Option Nat) : Except Err Nat := match c with
    | none => .error .notImplemented
    | some i => match build i with
      | some () => .ok i
      | none => .error .notImplemented
  match a with
  | .text s => call (lookup crdsTree s)
  | .cls i _ => call (some i)
  | .other => call none

end Viscid.KlsNames
