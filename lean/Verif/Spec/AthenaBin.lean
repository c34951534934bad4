/-!
# Athena's binary files, as they are written
-/
namespace Viscid.Spec.AthenaBin

/-- bytes of an item in the file, from those with the least significant first -/
def put (big : Bool) (w : List UInt8) : List UInt8 := if big then w.reverse else w

/-- a number as four bytes, the least significant first -/
def int4 (n : Nat) : List UInt8 :=
  [UInt8.ofNat (n % 256), UInt8.ofNat (n / 256 % 256), UInt8.ofNat (n / 65536 % 256), UInt8.ofNat (n / 16777216 % 256)]

/-- a run: cells, whether there is an energy, whether there is a magnetic field, scalars, and the rest of the header -/
structure Run where
  nx : Nat
  ny : Nat
  nz : Nat
  energy : Bool
  magnetic : Bool
  nscalars : Nat
  coordsys : Nat
  gravity : Nat
  particles : Nat
  gamma : List UInt8
  cs : List UInt8
  time : List UInt8
  dt : List UInt8
  x : List (List UInt8)
  y : List (List UInt8)
  z : List (List UInt8)
  /-- values of variable v in cell (i, j, k) -/
  val : Nat → Nat → Nat → Nat → List UInt8

def Run.nvars (r : Run) : Nat := 4 + (if r.energy then 1 else 0) + (if r.magnetic then 3 else 0) + r.nscalars

/-- floats have as many bytes as they should, numbers of cells fit -/
structure Run.Sized (r : Run) (k : Nat) : Prop where
  gamma : r.gamma.length = k
  cs : r.cs.length = k
  time : r.time.length = k
  dt : r.dt.length = k
  x : r.x.length = r.nx ∧ ∀ w ∈ r.x, w.length = k
  y : r.y.length = r.ny ∧ ∀ w ∈ r.y, w.length = k
  z : r.z.length = r.nz ∧ ∀ w ∈ r.z, w.length = k
  val : ∀ v i j l, (r.val v i j l).length = k
  nx : r.nx < 2 ^ 31
  ny : r.ny < 2 ^ 31
  nz : r.nz < 2 ^ 31

/-- names of the variables, in the order of the file: conserved ones, or primitive ones -/
def Run.names (r : Run) (primitive : Bool) : List String :=
  ["d"] ++ (if primitive then ["V1", "V2", "V3"] else ["M1", "M2", "M3"]) ++
    (if r.energy then (if primitive then ["P"] else ["E"]) else []) ++
    (if r.magnetic then (if primitive then ["B1c", "B2c", "B3c"] else ["B1", "B2", "B3"]) else []) ++
    (List.range r.nscalars).map fun i => toString (r.nvars - r.nscalars + i)

/-- one variable: x varies fastest -/
def Run.field (r : Run) (v : Nat) : List (List UInt8) :=
  (List.range r.nz).flatMap fun l => (List.range r.ny).flatMap fun j => (List.range r.nx).map fun i => r.val v i j l

/-- the file -/
def Run.file (r : Run) (big : Bool) : List UInt8 :=
  put big (int4 r.coordsys) ++ put big (int4 r.nx) ++ put big (int4 r.ny) ++ put big (int4 r.nz) ++ put big (int4 r.nvars) ++
    put big (int4 r.nscalars) ++ put big (int4 r.gravity) ++ put big (int4 r.particles) ++ put big r.gamma ++ put big r.cs ++ put big r.time ++
    put big r.dt ++ r.x.flatMap (put big) ++ r.y.flatMap (put big) ++ r.z.flatMap (put big) ++
    (List.range r.nvars).flatMap fun v => (r.field v).flatMap (put big)

end Viscid.Spec.AthenaBin
