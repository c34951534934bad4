import Verif.Model.Globbed
/-!
# Files in the order of their numbers
-/
namespace Viscid.Spec.Globbed
open Viscid.Globbed

/-- all files that have a number, in the order of the numbers -/
structure InOrder (files : List File) (s : List (String × ℚ)) : Prop where
  mem : ∀ n x, (n, x) ∈ s ↔ ⟨n, some x⟩ ∈ files
  once : (files.filter fun f => f.num.isSome).length = s.length
  order : s.Pairwise fun a b => a.2 ≤ b.2

/-- no two numbers are the same -/
def Distinct (files : List File) : Prop := (files.filterMap File.num).Nodup

/-- what a part of a slice means: nothing, an index or a value -/
inductive Means : Part → Select.Bound → Prop
  | empty : Means .empty .none
  | idx (i) : Means (.idx i) (.idx i)
  | val (v) : Means (.val v) (.val v)

end Viscid.Spec.Globbed
