import Verif.Model.Plot2d
/-! What a plot ought to show, and to leave alone. -/
namespace Viscid.Spec.Plot2d
open Viscid.Plot2d

/-- `l` is `k` times `m`, entry by entry. -/
def Times (m : ℚ) (k l : List ℚ) : Prop := l.length = k.length ∧ ∀ (i : Nat) x, k[i]? = some x → l[i]? = some (x * m)

/-- The factors of the axes and of the values: one if not given. -/
def factors (o : Opts) : ℚ × ℚ × ℚ := ((o.mod.map (·.1)).getD 1, (o.mod.map (·.2)).getD 1, o.scale.getD 1)

/-- What is drawn of a value: nothing if it is nan, or if it is not positive and only positive values are wanted. -/
def Shown (neg : Bool) (s : ℚ) : Option ℚ → Option ℚ → Prop
  | none, y => y = none
  | some x, y => if neg = true ∧ x * s ≤ 0 then y = none else y = some (x * s)

/-- The picture shows the data times the scale over the axes `x` and `y` times their factors; the axes change places if it is flipped. -/
def Shows (o : Opts) (x y : List ℚ) (data : Nat → Nat → Option ℚ) (p : Picture) : Prop :=
  let (mx, my, s) := factors o
  if o.flip then Times my y p.x ∧ Times mx x p.y ∧ ∀ i j, Shown o.maskneg s (data i j) (p.dat i j)
  else Times mx x p.x ∧ Times my y p.y ∧ ∀ i j, Shown o.maskneg s (data i j) (p.dat j i)

def Cells (s : Style) : Prop := s = .pcolormesh ∨ s = .pcolor
def Contours (s : Style) : Prop := s = .contour ∨ s = .contourf

end Viscid.Spec.Plot2d
