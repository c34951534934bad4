/-!
# C order, independently of the code
-/
namespace Viscid.Spec.SeedGrid

/-- Position in C order (last index fastest) of a multi-index in an array of a given shape. -/
def flat : List Nat → List Nat → Nat
  | _ :: ns, i :: is => i * ns.foldr (· * ·) 1 + flat ns is
  | _, _ => 0

/-- A multi-index within a shape. -/
def Within : List Nat → List Nat → Prop
  | [], [] => True
  | n :: ns, i :: is => i < n ∧ Within ns is
  | _, _ => False

universe u
/-- Column `k` of an array given by its rows. -/
def column {α : Type u} (rows : List (List α)) (k : Nat) : List (Option α) := rows.map fun r => r[k]?

/-- The point with coordinates number `i`, `j`, ... of the axes. -/
def pick {α : Type u} : List (List α) → List Nat → List (Option α)
  | a :: as, i :: is => a[i]? :: pick as is
  | _, _ => []

/-- Where a vertex of a mesh comes from: a seed or one of two poles. -/
inductive Src where
  | seed (k : Nat)
  | pole (i : Fin 2)
  deriving DecidableEq, Repr

/-- The number of the seed with theta number `t` and phi number `p`. -/
def seedAt (thetaPhi : Bool) (ntheta nphi t p : Nat) : Nat := if thetaPhi then t * nphi + p else p * ntheta + t

/-- The mesh of a sphere: rings from one pole to the other, the ring closed if `seam`; indices (theta, phi), or
    (phi, theta) with phi downwards. -/
def meshLayout (thetaPhi : Bool) (ntheta nphi : Nat) (pole0 pole1 seam : Bool) : List (List Src) :=
  let thetas : List (Option (Fin 2) × Nat) := (if pole0 then [(some 0, 0)] else []) ++
    (List.range ntheta).map (fun t => (none, t)) ++ (if pole1 then [(some 1, 0)] else [])
  let phis := List.range nphi ++ (if seam then [0] else [])
  let src := fun (t : Option (Fin 2) × Nat) (p : Nat) => match t.1 with
    | some i => Src.pole i
    | none => Src.seed (seedAt thetaPhi ntheta nphi t.2 p)
  if thetaPhi then thetas.map fun t => phis.map fun p => src t p
  else (phis.map fun p => thetas.map fun t => src t p).reverse

/-- The values on the ring number `t`. -/
def ring {α : Type u} (thetaPhi : Bool) (ntheta nphi t : Nat) (d : α) (arr : List α) : List α :=
  (List.range nphi).map fun p => arr.getD (seedAt thetaPhi ntheta nphi t p) d

/-- The value of a vertex. -/
def value {α : Type u} (d p0 p1 : α) (arr : List α) : Src → α
  | .seed k => arr.getD k d
  | .pole i => if i = 0 then p0 else p1

end Viscid.Spec.SeedGrid
