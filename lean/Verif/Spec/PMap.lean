import Verif.Model.PMap
/-!
# Specification of `parallel.map`
-/
namespace Viscid.Spec.PMap
open Viscid.PMap

/-- `r` is what the loop `[f(a) for a in args]` gives: all values in order, or the first exception -/
inductive Loop (f : α → Except E β) : List α → Except E (List β) → Prop
  | nil : Loop f [] (.ok [])
  | cons : f a = .ok b → Loop f as (.ok bs) → Loop f (a :: as) (.ok (b :: bs))
  | here : f a = .error e → Loop f (a :: as) (.error e)
  | later : f a = .ok b → Loop f as (.error e) → Loop f (a :: as) (.error e)

end Viscid.Spec.PMap
