import Verif.Model.PlotNorm
/-! What the limits of a colour scale ought to be. -/
namespace Viscid.Spec.PlotNorm
open Viscid.PlotNorm

/-- The numbers in a field: all that are not nan, in all its patches. -/
def Vals (patches : List (List (Option ℚ))) (x : ℚ) : Prop := ∃ l ∈ patches, some x ∈ l

def Least (p : ℚ → Prop) (m : ℚ) : Prop := p m ∧ ∀ x, p x → m ≤ x
def Greatest (p : ℚ → Prop) (m : ℚ) : Prop := p m ∧ ∀ x, p x → x ≤ m

/-- The `i`-th limit that the value of `lin`, `log` or `loglog` gives, if it gives one. -/
def entry (o : Option Opt) (i : Nat) : Option Lim := match o with
  | none => none
  | some .yes => none
  | some (.val x) => if i = 0 then some x else none
  | some (.list l) => l[i]?

/-- `lin` with zero does not give limits. -/
def linEntry (o : Option Opt) (i : Nat) : Option Lim := if o = some (.val (.num 0)) then none else entry o i

/-- The `i`-th limit of `clim`. -/
def climEntry (c : Option (List Lim)) (i : Nat) : Option Lim := match c with
  | none => none
  | some l => l[i]?

/-- The `i`-th limit asked for: of `loglog`, else of `log`, else of `lin`, else of `vmin` or `vmax`, else of `clim`. -/
def asked (k : Kw) (i : Nat) : Option Lim :=
  (entry k.loglog i).or ((entry k.log i).or ((linEntry k.lin i).or ((if i = 0 then k.vmin else if i = 1 then k.vmax else none).or
    (climEntry k.clim i))))

/-- None, and the texts that mean it, are no limit. -/
def Means : Option Lim → Lim → Prop
  | none, x => x = .none
  | some .none, x => x = .none
  | some (.num q), x => x = .num q
  | some (.text s), x => if s = "None" ∨ s = "none" then x = .none else x = .text s

/-- No list of limits is longer than two. -/
def Short (k : Kw) : Prop :=
  (∀ l, k.clim = some l → l.length ≤ 2) ∧ (∀ l, k.lin = some (.list l) → l.length ≤ 2) ∧ (∀ l, k.log = some (.list l) → l.length ≤ 2) ∧
    ∀ l, k.loglog = some (.list l) → l.length ≤ 2

/-- The limit: the one asked for, or else the one of the data. -/
def Limit (p : ℚ → Prop) (best : (ℚ → Prop) → ℚ → Prop) : Lim → ℚ → Prop
  | .none, m => best p m
  | .num q, m => m = q
  | .text _, _ => False

end Viscid.Spec.PlotNorm
