import Verif.Model.FillSel
/-!
# Specification of C16: what an accepted selection must expand to
-/
namespace Viscid.FillSel
variable {N S : Type} [DecidableEq N] [DecidableEq S]

/-- What C16 demands of an accepted selection `es` on the axes `ax`: old axes in order and each once,
one new row per newaxis, the informative entries used exactly once each, and every named entry on the
row of that name. -/
structure Expansion (full : S) (ax : List N) (es : List (Entry N S)) (rows : List (Row N S)) : Prop where
  axes : (rows.filter fun r => !r.isNew).map Row.name = ax
  new : ∀ r ∈ rows, (r.isNew = true ↔ r.kind = .newax)
  count : rows.countP (fun r => r.isNew) = es.countP (fun e => decide (e.kind = .newax))
  entries : ((rows.map Row.kind).filter fun k => decide (k ≠ .newax ∧ k ≠ .sel full)).Perm
    ((es.map Entry.kind).filter fun k => decide (k ≠ .newax ∧ k ≠ .sel full ∧ k ≠ .ellipsis))
  named : ∀ e ∈ es, ∀ nm, e.name = some nm → (⟨nm, e.kind, decide (e.kind = .newax)⟩ : Row N S) ∈ rows

end Viscid.FillSel
