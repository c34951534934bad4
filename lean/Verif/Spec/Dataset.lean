import Verif.Model.Dataset
/-! # What a temporal dataset should hold -/
namespace Viscid.Spec.Dataset
open Viscid.Dataset (Time Op)

/-- The children given to the dataset since it was last emptied, oldest first; a child without a time
counts as time 0. -/
def given {C : Type} : List (Op C) → List (Time × C) → List (Time × C)
  | [], acc => acc
  | .add t (some c) _ :: ops, acc => given ops (acc ++ [(t.getD ⟨0, false⟩, c)])
  | .add _ none _ :: ops, acc => given ops acc
  | .removeAll :: ops, _ => given ops []
  | .activate _ :: ops, acc => given ops acc

/-- `out` is `inp` in nondecreasing time order, nothing lost or added, ties in the order of `inp`. -/
structure TimeOrdered {C : Type} (inp out : List (Time × C)) : Prop where
  perm : out.Perm inp
  sorted : out.Pairwise fun a b => a.1.v ≤ b.1.v
  ties : ∀ t : ℚ, out.filter (fun c => c.1.v = t) = inp.filter (fun c => c.1.v = t)

end Viscid.Spec.Dataset
