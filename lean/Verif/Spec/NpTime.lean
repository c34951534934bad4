import Verif.Model.NpTime
/-!
# What converting times between units should do
-/
namespace Viscid.Spec.NpTime
open Viscid.NpTime

/-- a time (not `NaT`) that fits into 64 bits -/
def Valid (t : Time) : Prop := ∃ v, t.val = some v ∧ -2 ^ 63 < v ∧ v < 2 ^ 63

/-- `t` is `a` attoseconds (since 1970 or long) -/
def Is (t : Time) (a : Int) : Prop := ∃ v, t.val = some v ∧ v * t.unit.size = a

/-- `t'` is the last whole number of units `u` not after `t` -/
def Floor (u : U) (t t' : Time) : Prop :=
  t'.delta = t.delta ∧ t'.unit = u ∧ ∃ a b, Is t a ∧ Is t' b ∧ b ≤ a ∧ a < b + u.size

/-- a 64-bit count of `u` can hold `t` (rounded down) -/
def Fits (u : U) (t : Time) : Prop := ∃ t', Floor u t t' ∧ Valid t'

/-- All we need to know about numpy: a conversion factor that does not fit into 64 bits raises OverflowError -/
def Sane (big : U → U → Bool) : Prop :=
  ∀ a b : U, 2 ^ 63 * b.size ≤ a.size → big a b = true ∧ big b a = true

/-- the unit `x` cannot be used for all of `ts`: one of them does not fit, or numpy refuses the conversion -/
def Blocked (big : U → U → Bool) (ts : List Time) (x : U) : Prop :=
  ∃ t ∈ ts, big t.unit x = true ∨ big x t.unit = true ∨ ¬ Fits x t

/-- the unit asked for: the one given, or else the finest of the times' -/
def Start (ts : List Time) (unit : Option U) (st : U) : Prop :=
  unit = some st ∨ (unit = none ∧ (∃ t ∈ ts, t.unit = st) ∧ ∀ t ∈ ts, st.idx ≤ t.unit.idx)

end Viscid.Spec.NpTime
