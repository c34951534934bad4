import Verif.Model.Rc
/-! What a settings file means. -/
namespace Viscid.Spec.Rc
open Viscid.Rc

/-- Attributes of objects, where a module that can be imported counts as an attribute of its package. -/
abbrev World := Nat → Name → Option Val

def world (e : Env) (h : Heap) : World := fun i p => match h i p with
  | some v => some v
  | none => if e.named i then (e.imports i p).map .obj else none

/-- `s` is the names `ps` and then `n`, with dots between them. -/
def IsPath (s : List Char) (ps : List Name) (n : Name) : Prop :=
  (∀ p ∈ ps, '.' ∉ p) ∧ '.' ∉ n ∧ s = (ps.map (· ++ ['.'])).flatten ++ n

/-- From `v`, attribute after attribute, to `w`. -/
inductive Leads (W : World) : Val → List Name → Val → Prop
  | here (v) : Leads W v [] v
  | step {i p v ps w} : W i p = some v → Leads W v ps w → Leads W (.obj i) (p :: ps) w

/-- `W'` is `W` but for one attribute. -/
def Sets (W : World) (i : Nat) (n : Name) (v : Val) (W' : World) : Prop :=
  W' i n = some v ∧ ∀ j q, ¬ (j = i ∧ q = n) → W' j q = W j q

/-- The lines of a file, from the first to the last: those whose path leads to an object set its attribute, those whose path
leads nowhere are skipped. The last argument: the objects that got an attribute. -/
inductive Lines (e : Env) : World → List (Key × Val) → World → List Nat → Prop
  | done (W) : Lines e W [] W []
  | set {W W' W'' s ps n i v items os} : IsPath s ps n → Leads W (.obj root) ps (.obj i) → e.settable i = true → Sets W i n v W' →
      Lines e W' items W'' os → Lines e W ((.text s, v) :: items) W'' (i :: os)
  | skip {W W' s ps n v items os} : IsPath s ps n → (∀ w, ¬ Leads W (.obj root) ps w) →
      Lines e W items W' os → Lines e W ((.text s, v) :: items) W' os

/-- A line that is no setting at all: its key is no text, or its path leads to something on which nothing can be set. -/
def Hopeless (e : Env) (W : World) : Key × Val → Prop
  | (.other, _) => True
  | (.text s, _) => ∃ ps n w, IsPath s ps n ∧ Leads W (.obj root) ps w ∧ ∀ i, w = .obj i → e.settable i = false

/-- The path gets stuck at `v`, which has no attribute `p`. -/
def Stuck (W : World) (pre : List Name) (v : Val) (p : Name) : Prop :=
  Leads W (.obj root) pre v ∧ ∀ i, v = .obj i → W i p = none

end Viscid.Spec.Rc
