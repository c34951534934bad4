import Mathlib.Analysis.Real.Sqrt
/-!
# Model of `viscid/readers/athena.py`: what an AthenaGrid gives by name

Fields are real numbers at points of any type; scalar fields only are in the files (athena_bin.py:119-133,
athena_tab.py:104-115). A grid has the fields of its file, of which the data are, or are not, in memory already (`loaded`):
grid.py:276-281 and field.py:1554-1555 give the field itself in the first case, and else a copy without data. No name that
is used here is the name of a coordinate, so that what is not a field is a KeyError. Not modelled: `beta` and `psi`
(`calculator/plasma.py`), pretty names.
-/
namespace Viscid.Athena

inductive Exc
  | key
  | notImplemented
  deriving DecidableEq, Repr

structure Fld (ι : Type) where
  name : String
  val : ι → ℝ

/-- the fields of the file by name, and whether their data is loaded -/
structure Grid (ι : Type) where
  stored : String → Option (Fld ι × Bool)

/-- a field that is given: the one in the grid, or another -/
inductive Ref (ι : Type)
  | stored (k : String)
  | fresh (f : Fld ι)

/-- the field that is meant -/
def Grid.deref (g : Grid ι) : Ref ι → Option (Fld ι)
  | .stored k => (g.stored k).map (·.1)
  | .fresh f => some f

/-- grid.py:276-281 `self._fields[fldname]`, or its shell copy -/
def Grid.raw (g : Grid ι) (k : String) : Except Exc (Ref ι) :=
  match g.stored k with
  | some (f, loaded) => .ok (if loaded then .stored k else .fresh f)
  | none => .error .key

/-- `f.name = n` -/
def Grid.rename (g : Grid ι) (n : String) : Ref ι → Grid ι × Ref ι
  | .stored k => (⟨fun j => if j = k then (g.stored j).map fun x => (⟨n, x.1.val⟩, x.2) else g.stored j⟩, .stored k)
  | .fresh f => (g, .fresh ⟨n, f.val⟩)

/-- rename what was found -/
def Grid.named (g : Grid ι) (n : String) : Except Exc (Ref ι) → Grid ι × Except Exc (Ref ι)
  | .ok r => ((g.rename n r).1, .ok (g.rename n r).2)
  | .error x => (g, .error x)

/-- `a / b`, `a * b`: a new field -/
def Grid.combine (g : Grid ι) (op : ℝ → ℝ → ℝ) (a b : Except Exc (Ref ι)) : Except Exc (Ref ι) :=
  match a, b with
  | .ok a, .ok b =>
    match g.deref a, g.deref b with
    | some x, some y => .ok (.fresh ⟨x.name, fun i => op (x.val i) (y.val i)⟩)
    | _, _ => .error .key
  | .error x, _ => .error x
  | .ok _, .error x => .error x

/-- grid.py:276-288: a field of the file, or else what the method makes -/
def Grid.orGet (g : Grid ι) (k : String) (f : Grid ι × Except Exc (Ref ι)) : Grid ι × Except Exc (Ref ι) :=
  match g.raw k with
  | .ok r => (g, .ok r)
  | .error _ => f

/-- `try: self[a] except KeyError: b` -/
def Grid.orElse (g : Grid ι) (a : String) (b : Except Exc (Ref ι)) : Except Exc (Ref ι) :=
  match g.raw a with
  | .ok r => .ok r
  | .error _ => b

/-- athena.py:70-95 `_get_bx`, `_get_by`, `_get_bz` -/
def Grid.getB (g : Grid ι) (k cell face : String) : Grid ι × Except Exc (Ref ι) :=
  g.orGet k (g.named k (g.orElse cell (g.raw face)))

/-- athena.py:97-122 `_get_vx`, `_get_vy`, `_get_vz`; `n` is the name that the field gets -/
noncomputable def Grid.getV (g : Grid ι) (k v m n : String) : Grid ι × Except Exc (Ref ι) :=
  g.orGet k (g.named n (g.orElse v (g.combine (· / ·) (g.raw m) (g.raw "d"))))

/-- athena.py:124-149 `_get_mx`, `_get_my`, `_get_mz` -/
noncomputable def Grid.getM (g : Grid ι) (k m v : String) : Grid ι × Except Exc (Ref ι) :=
  g.orGet k (g.named k (g.orElse m (g.combine (· * ·) (g.raw v) (g.raw "d"))))

/-- athena.py:63-65 `_get_p` -/
def Grid.getP (g : Grid ι) : Grid ι × Except Exc (Ref ι) := g.orGet "p" (g, g.raw "P")

/-- the components, by axis -/
noncomputable def Grid.comp (g : Grid ι) (b : Bool) : Fin 3 → Grid ι × Except Exc (Ref ι)
  | 0 => if b then g.getB "bx" "B1c" "B1" else g.getV "vx" "V1" "M1" "vx"
  | 1 => if b then g.getB "by" "B2c" "B2" else g.getV "vy" "V2" "M2" "vy"
  | 2 => if b then g.getB "bz" "B3c" "B3" else g.getV "vz" "V3" "M3" "bz"

/-- the numbers of a field that was found -/
def Grid.vals (g : Grid ι) : Except Exc (Ref ι) → Except Exc (ι → ℝ)
  | .ok r => match g.deref r with | some f => .ok f.val | none => .error .key
  | .error x => .error x

/-- `self['bx'], self['by'], self['bz']`, and the same for v -/
noncomputable def Grid.three (g : Grid ι) (b : Bool) : Grid ι × Except Exc (Fin 3 → ι → ℝ) :=
  let r0 := g.comp b 0
  let r1 := r0.1.comp b 1
  let r2 := r1.1.comp b 2
  match r0.1.vals r0.2, r1.1.vals r1.2, r2.1.vals r2.2 with
  | .ok x, .ok y, .ok z => (r2.1, .ok ![x, y, z])
  | .error e, _, _ => (r0.1, .error e)
  | .ok _, .error e, _ => (r1.1, .error e)
  | .ok _, .ok _, .error e => (r2.1, .error e)

/-- what a name gives: a scalar field, or a vector field -/
inductive Out (ι : Type)
  | scalar (r : Ref ι)
  | vector (name : String) (v : Fin 3 → ι → ℝ)

def scal (r : Grid ι × Except Exc (Ref ι)) : Grid ι × Except Exc (Out ι) := (r.1, r.2.map .scalar)

/-- athena.py:185-204 `_calc_mag`: without or with numexpr -/
noncomputable def mag (v : Fin 3 → ι → ℝ) : ι → ℝ := fun i => Real.sqrt (v 0 i ^ 2 + v 1 i ^ 2 + v 2 i ^ 2)

/-- which `_get_` method there is for a name -/
inductive Method
  | density
  | pressure
  | comp (b : Bool) (i : Fin 3)
  | momentum (k m v : String)
  | vector (b : Bool)
  | magnitude (b : Bool)
  | current
  | missing

/-- grid.py:282-288 and the names of the methods athena.py:59-216 -/
def method : String → Method
  | "rr" => .density
  | "p" => .pressure
  | "pp" => .pressure
  | "bx" => .comp true 0
  | "by" => .comp true 1
  | "bz" => .comp true 2
  | "vx" => .comp false 0
  | "vy" => .comp false 1
  | "vz" => .comp false 2
  | "mx" => .momentum "mx" "M1" "V1"
  | "my" => .momentum "my" "M2" "V2"
  | "mz" => .momentum "mz" "M3" "V3"
  | "b" => .vector true
  | "v" => .vector false
  | "bmag" => .magnitude true
  | "speed" => .magnitude false
  | "j" => .current
  | "jx" => .current
  | "jy" => .current
  | "jz" => .current
  | "jmag" => .current
  | _ => .missing

/-- grid.py:312-323, 271-301 with athena.py:59-216: `grid[s]`. There is no j in the files, and `_get_j` raises (176-183) -/
noncomputable def Grid.get (g : Grid ι) (s : String) : Grid ι × Except Exc (Out ι) :=
  match g.raw s with
  | .ok r => (g, .ok (.scalar r))
  | .error _ =>
    match method s with
    | .density => scal (g, g.raw "d")
    | .pressure => scal g.getP
    | .comp b i => scal (g.comp b i)
    | .momentum k m v => scal (g.getM k m v)
    | .vector b => ((g.three b).1, (g.three b).2.map fun v => .vector (if b then "B" else "V") v)
    | .magnitude b => ((g.three b).1, (g.three b).2.map fun v => .scalar (.fresh ⟨if b then "|B|" else "|V|", mag v⟩))
    | .current => (g, .error .notImplemented)
    | .missing => (g, .error .key)

/-- a history of names that were asked for -/
noncomputable def Grid.run (g : Grid ι) (l : List String) : Grid ι := l.foldl (fun g s => (g.get s).1) g

end Viscid.Athena
