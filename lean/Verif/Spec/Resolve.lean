import Verif.Model.Resolve
/-!
# Globbed paths
-/
namespace Viscid.Spec.Resolve
open Viscid.Resolve

/-- the things right below `n` that `p` is for: the one of that name, if there is one, or else all whose names match, in order, and
    attributes after items -/
inductive Below (glob : Key → Key → Bool) : Node → Key → Key → Node → Prop
  | exact {items attrs pre post p c} : items = pre ++ (p, c) :: post → (∀ kv ∈ pre, kv.1 ≠ p) →
      Below glob (.group items attrs) p p c
  | item {items attrs p k c} : (∀ kv ∈ items, kv.1 ≠ p) → (k, c) ∈ items → glob p k = true → Below glob (.group items attrs) p k c
  | attr {items attrs p k c} : (∀ kv ∈ items, kv.1 ≠ p) → (k, c) ∈ attrs → glob p k = true → Below glob (.group items attrs) p k c

/-- `found` is at `path` below `n`, and the path matches the pattern, part by part -/
inductive Reach (glob : Key → Key → Bool) : Node → List Key → List Key → Node → Prop
  | here {n} : Reach glob n [] [] n
  | deeper {n p ps k path c found} : Below glob n p k c → Reach glob c ps path found → Reach glob n (p :: ps) (k :: path) found

/-- the parts of a path: what is between slashes, but for those at its ends -/
def Parts (loc : List Char) (ps : List Key) : Prop :=
  ∃ a b, loc = List.replicate a '/' ++ ['/'].intercalate ps ++ List.replicate b '/' ∧ ps ≠ [] ∧ (∀ p ∈ ps, '/' ∉ p) ∧
    (['/'].intercalate ps).head? ≠ some '/' ∧ (['/'].intercalate ps).getLast? ≠ some '/'

/-- one path comes before another: where they first differ, its key comes first among the items and then the attributes -/
inductive Before : Node → List Key → List Key → Prop
  | here {n k k' c c' path path' l1 l2 l3} : n.items ++ n.attrs = l1 ++ (k, c) :: l2 ++ (k', c') :: l3 →
      Before n (k :: path) (k' :: path')
  | deeper {n k c path path'} : (k, c) ∈ n.items ++ n.attrs → Before c path path' → Before n (k :: path) (k :: path')

/-- `m` is at that path, whose parts are names -/
inductive At : Node → List Key → Node → Prop
  | here {n} : At n [] n
  | deeper {items attrs pre post p c ps m} : items = pre ++ (p, c) :: post → (∀ kv ∈ pre, kv.1 ≠ p) → At c ps m →
      At (.group items attrs) (p :: ps) m

end Viscid.Spec.Resolve
