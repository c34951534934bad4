/-!
# Model of `viscid/readers/athena_bin.py`: Athena's binary files

Files are lists of bytes. Floats are their bytes, least significant first, `k` of them (4 or 8). `np.fromfile` reads as many items as there are, up
to `count`, and raises nothing. Not modelled: coordinates of nodes (lines 143-166, see C116 for the same formula), files that cannot be opened,
negative numbers of cells.
-/
namespace Viscid.AthenaBin

inductive Err
  | index
  | value
  | runtime
deriving DecidableEq, Repr

inductive Endian
  | little
  | big
deriving DecidableEq, Repr

abbrev Word := List UInt8

/-- an item, its least significant byte first -/
def native (e : Endian) (bs : List UInt8) : Word :=
  match e with
  | .little => bs
  | .big => bs.reverse

/-- `np.fromfile(f, dtype, count)`, with items of `k` bytes -/
def fromFile (e : Endian) (k : Nat) : Nat → List UInt8 → List Word
  | 0, _ => []
  | n + 1, bs => if bs.length < k ∨ k = 0 then [] else native e (bs.take k) :: fromFile e k n (bs.drop k)

/-- a number, least significant byte first -/
def unsigned : Word → Nat
  | [] => 0
  | b :: bs => b.toNat + 256 * unsigned bs

/-- dtype "i4" -/
def int32 (w : Word) : Int := if unsigned w < 2 ^ 31 then unsigned w else unsigned w - 2 ^ 32

structure Header where
  endian : Endian
  names : List String
  time : Word
  dt : Word
  x : List Word
  y : List Word
  z : List Word
  nvars : Int
  nx : Nat
  ny : Nat
  nz : Nat
  loc : Nat
deriving DecidableEq, Repr

/-- athena_bin.py:311-316: all names, by `var_type` -/
def allNames (varType : String) : Except Err (List String) :=
  if varType = "cons" then .ok ["d", "M1", "M2", "M3", "E", "B1", "B2", "B3"]
  else if varType = "prim" then .ok ["d", "V1", "V2", "V3", "P", "B1c", "B2c", "B3c"]
  else .error .runtime

/-- athena_bin.py:318-327 -/
def fieldNames (all : List String) (nvars nscalars : Int) : List String :=
  let nprim := nvars - nscalars
  all.take 4 ++ (if nprim = 5 ∨ nprim = 8 then (all.drop 4).take 1 else []) ++ (if nprim = 7 ∨ nprim = 8 then (all.drop 5).take 3 else []) ++
    (List.range (nvars - nprim).toNat).map fun (i : Nat) => toString (nprim + i)

/-- athena_bin.py:279-345 `_read_file_header`; the file is at its start; `k` is the size of `float_type_name` -/
def readHeader (k : Nat) (varType : String) (file : List UInt8) : Except Err Header :=
  if (fromFile .little 4 1 file).length < 1 then .error .index
  else
    let dims := fromFile .little 4 5 (file.drop 4)
    match dims[3]? with
    | none => .error .index
    | some nv =>
      let e : Endian := if int32 nv < 1000 then .little else .big
      match (fromFile e 4 5 (file.drop 4)).map int32 with
      | [nx, ny, nz, nvars, nscalars] =>
        match fromFile e 4 2 (file.drop 24) with
        | [_, _] =>
          match fromFile e k 2 (file.drop 32) with
          | [_, _] =>
            match allNames varType with
            | .error err => .error err
            | .ok all =>
              match fromFile e k 2 (file.drop (32 + 2 * k)) with
              | [t, dt] =>
                let loc := 32 + 4 * k
                let x := fromFile e k nx.toNat (file.drop loc)
                let y := fromFile e k ny.toNat (file.drop (loc + x.length * k))
                let z := fromFile e k nz.toNat (file.drop (loc + x.length * k + y.length * k))
                .ok ⟨e, fieldNames all nvars nscalars, t, dt, x, y, z, nvars, nx.toNat, ny.toNat, nz.toNat,
                  loc + x.length * k + y.length * k + z.length * k⟩
              | _ => .error .value
          | _ => .error .value
        | _ => .error .value
      | _ => .error .value

/-- athena_bin.py:225-245 `read_field` -/
def readField (k : Nat) (h : Header) (file : List UInt8) (i : Nat) : Except Err (List Word) :=
  if h.nvars ≤ i then .error .index
  else .ok (fromFile h.endian k (h.nx * h.ny * h.nz) (file.drop (h.loc + i * (h.nx * h.ny * h.nz * k))))

/-- athena_bin.py:380-383 `__array__`: the shape is that of the coordinates, (nz, ny, nx), in C order; a wrong size is a ValueError -/
def getArray (k : Nat) (h : Header) (nz ny nx : Nat) (file : List UInt8) (i : Nat) : Except Err (Nat → Nat → Nat → Option Word) :=
  match readField k h file i with
  | .error e => .error e
  | .ok d =>
    if d.length ≠ nz * ny * nx then .error .value
    else .ok fun iz iy ix => if iz < nz ∧ iy < ny ∧ ix < nx then d[(iz * ny + iy) * nx + ix]? else none

end Viscid.AthenaBin
