import Verif.Model.MapField
/-!
# Where the values of fields are, on spheres and maps
-/
namespace Viscid.Spec.MapField
open Viscid.MapField

variable {α : Type}

/-- the value (of a component) at indices of both axes -/
def value (f : Fld α) (i j c : Nat) : α :=
  match f.layout with
  | .scalar => f.data [i, j]
  | .flat _ => f.data [c, i, j]
  | .interlaced _ => f.data [i, j, c]

/-- where axis `a` is `x` and axis `b` is `y` the field has the value `v` (of component `c`), in whichever order the axes are -/
def HasValue (f : Fld α) (a : String) (x : ℝ) (b : String) (y : ℝ) (c : Nat) (v : α) : Prop :=
  ∃ i j, (f.ax0.name = a ∧ f.ax1.name = b ∧ f.ax0.crds[i]? = some x ∧ f.ax1.crds[j]? = some y ∨
      f.ax0.name = b ∧ f.ax1.name = a ∧ f.ax0.crds[i]? = some y ∧ f.ax1.crds[j]? = some x) ∧ value f i j c = v

/-- the axis of that name has these units and coordinates -/
def HasAxis (f : Fld α) (name unit : String) (crds : List ℝ) : Prop := f.ax0 = ⟨name, unit, crds⟩ ∨ f.ax1 = ⟨name, unit, crds⟩

abbrev IsAngle (u : String) : Prop := u = "deg" ∨ u = "rad"

/-- an angle in other units -/
noncomputable def inUnits (u v : String) (x : ℝ) : ℝ :=
  if u = v then x else if v = "rad" then x * Real.pi / 180 else x * 180 / Real.pi

/-- a right angle -/
noncomputable def right (u : String) : ℝ := inUnits "deg" u 90

/-- the colatitude, in radians, of what a row of points has on an axis -/
noncomputable def colatOf (ax unit : String) (y : ℝ) : ℝ :=
  if ax = "theta" then inUnits unit "rad" y else Real.pi / 2 - inUnits unit "rad" y

/-- the hemispheres -/
abbrev IsNorth (h : String) : Prop := h = "north" ∨ h = "n"
abbrev IsSouth (h : String) : Prop := h = "south" ∨ h = "s"

/-- Two axes of `f`, called `a` and `b` and in the units `u`, are those of `g`, called `a'` and `b'` in the units `u'` and in the order
    given; what was at `x` and `y` is at `x` and a right angle minus `y`. The coordinates of `b'` are in the reverse order, so they
    increase if those of `b` do. -/
structure Mapped (a b u a' b' u' : String) (order : List String) (f g : Fld α) : Prop where
  names : order = [g.ax0.name, g.ax1.name]
  layout : g.layout = f.layout
  along : ∀ l, HasAxis f a u l → HasAxis g a' u' (l.map (inUnits u u'))
  across : ∀ l, HasAxis f b u l → HasAxis g b' u' (l.map fun y => right u' - inUnits u u' y).reverse
  values : ∀ x y c v, HasValue f a x b y c v ↔ HasValue g a' (inUnits u u' x) b' (right u' - inUnits u u' y) c v

end Viscid.Spec.MapField
