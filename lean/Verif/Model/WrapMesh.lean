import Verif.Model.SeedGrid
/-!
# Model of data on the mesh of a sphere (`viscid/seed.py`)

The meshes are those of SeedGrid. Here there are several arrays with their types, and what is made is converted to the type of the array. Numbers are rational; rounding is not modelled.
-/
namespace Viscid.WrapMesh
open Viscid.Seed

/-- Kinds of types of arrays -/
inductive DType where
  | float
  | int
  | bool
deriving DecidableEq, Repr

/-- An array: its type and its values, in order (`True` is 1, `False` is 0) -/
structure Arr where
  dtype : DType
  vals : List Rat
deriving DecidableEq, Repr

/-- A mesh of values with its type -/
structure MeshArr where
  dtype : DType
  rows : List (List Rat)
deriving DecidableEq, Repr

/-- `astype` for one number: integers are cut off towards 0, and what is not 0 is true (seed.py:285) -/
def astype : DType → Rat → Rat
  | .float, q => q
  | .int, q => ((q.num.tdiv (q.den : Int) : Int) : Rat)
  | .bool, q => if q = 0 then 0 else 1

/-- `np.mean` (seed.py:1174, 1180) -/
def mean (l : List Rat) : Rat := l.sum / (l.length : Rat)

/-- seed.py:1162-1165 (and 1120-1123): `fill_holes`, that of the seeds if it is not given -/
def fillHoles (own : Bool) (given : Option Bool) : Bool := given.getD own

/-- seed.py:280-287 `wrap_mesh` of a sphere: the vertices, and for each array its mesh. A field has been replaced by its data (283). `own` is `self.fill_holes`. -/
def wrapMesh {α : Type} (o : MeshOpts) (own : Bool) (fill : Option Bool) (p0 p1 : α) (pts : List α) (arrs : List Arr) :
    List (List α) × List MeshArr :=
  (asMesh o (fillHoles own fill) p0 p1 pts,
    arrs.map fun a => ⟨a.dtype, (arr2mesh o (fillHoles own fill) mean a.vals).map fun r => r.map (astype a.dtype)⟩)

end Viscid.WrapMesh
