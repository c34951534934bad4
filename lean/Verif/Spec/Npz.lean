import Verif.Model.Npz
/-!
# What saving fields in an npz file and loading them should give
-/
namespace Viscid.Spec.Npz
open Viscid.Npz

/-- Fields that all have the coordinates `crds` and the time 0, with names that are not used for anything else. -/
structure Savable {A : Type} (ndim : A → Nat) (crds : List (String × A)) (flds : List (Fld A)) : Prop where
  some_fields : flds ≠ []
  names : (flds.map Fld.name).Nodup
  axes : (crds.map Prod.fst).Nodup
  same_crds : ∀ f ∈ flds, f.crds = crds
  start : ∀ f ∈ flds, f.time = 0
  centers : ∀ f ∈ flds, f.center ∈ ["node", "cell", "face", "edge"]
  dims : ∀ f ∈ flds, ndim f.data = crds.length ∨ ndim f.data = crds.length + 1
  no_axis : ∀ f ∈ flds, f.name ∉ crds.map Prod.fst
  names_free : ∀ f ∈ flds, f.name ∉ ["crd_names", "field_names_nc", "field_names_cc", "field_names_fc", "field_names_ec", "file"]
  axes_free : ∀ c ∈ crds, c.1 ∉ ["crd_names", "field_names_nc", "field_names_cc", "field_names_fc", "field_names_ec", "file"]

/-- `g` is the field `f` again; a vector field has one more dimension than there are axes -/
def Same {A : Type} (ndim : A → Nat) (f : Fld A) (g : LFld A) : Prop :=
  g.name = f.name ∧ g.center = f.center ∧ g.time = f.time ∧ g.data = .arr f.data ∧ (g.vector = true ↔ ndim f.data = f.crds.length + 1)

end Viscid.Spec.Npz
