import Verif.Model.Xdmf
/-!
# What an XDMF file says

Written from the description of the format: a grid has its own time, or the one the collection it is in gives it by position, or the time of that
collection; its own topology and geometry, or those of the collection. Only the types of elements and nodes are taken from the model.
-/
namespace Viscid.Spec.Xdmf
open Viscid.Xdmf

/-- a uniform grid with its time, coordinates and fields -/
structure Leaf (G : Type) where
  name : String
  time : Option ℚ
  crds : Option G
  fields : List String
deriving DecidableEq, Repr

/-- the first there is -/
def first {α : Type} (a b : Option α) : Option α := match a with
  | some x => some x
  | none => b

/-- the time an element gives itself -/
def own : Option TimeEl → Option ℚ
  | some (.single v) => v
  | _ => none

/-- the time a temporal collection gives the grid at position `i` -/
def slot : Option TimeEl → Nat → Option ℚ
  | some (.list ts), i => ts[i]?
  | some (.hyperslab a b n), i => if i < n then some (a + i * b) else none
  | _, _ => none

/-- the uniform grids an element describes, within a collection with time `t`, topology `p` and geometry `g` -/
def said {G : Type} (t : Option ℚ) (p : Bool) (g : Option G) : Elem G → List (Leaf G)
  | .mk kind name topo geo tel attrs kids =>
    let t := first (own tel) t
    let p := topo || p
    let g := match geo with | some (.ok c) => some c | _ => g
    match kind with
    | .uniform => if p && g.isSome then [⟨name, t, g, attrs⟩] else []
    | .temporal => saidAt tel 0 t p g kids
    | .spatial => saidAt none 0 t p g kids
    | _ => []
where
  saidAt (tel : Option TimeEl) (i : Nat) (t : Option ℚ) (p : Bool) (g : Option G) : List (Elem G) → List (Leaf G)
    | [] => []
    | el :: els => said (first (slot tel i) t) p g el ++ saidAt tel (i + 1) t p g els

/-- the uniform grids a file describes -/
def fileSaid {G : Type} (els : List (Elem G)) : List (Leaf G) := els.flatMap (said none false none)

/-- the grids that can be reached from a node, with the time they have: their own, or that of the nearest node above; `t` is the time above -/
def leaves {G : Type} (t : Option ℚ) : Node G → List (Leaf G)
  | .grid name time crds fields => [⟨name, first time t, crds, fields⟩]
  | .series _ time kids => leavesOf (first time t) kids
  | .group _ time kids => leavesOf (first time t) kids
  | .amr _ dtime patches => leavesOf (first dtime t) patches
where
  leavesOf (t : Option ℚ) : List (Node G) → List (Leaf G)
    | [] => []
    | n :: ns => leaves t n ++ leavesOf t ns

/-- the grids in a file that was read -/
def fileLeaves {G : Type} (ns : List (Node G)) : List (Leaf G) := ns.flatMap (leaves none)

/-- time of a node, itself -/
def time {G : Type} : Node G → Option ℚ
  | .grid _ t _ _ => t
  | .series _ t _ => t
  | .group _ t _ => t
  | .amr t _ _ => t

/-- Everywhere below `n`, the children of a time series have times, in order, and the grids in each have the time of that child. -/
inductive InTime {G : Type} : Node G → Prop
  | grid (name t crds fields) : InTime (.grid name t crds fields)
  | series (name t kids) : (∀ n ∈ kids, InTime n) → (∀ n ∈ kids, ∃ v, time n = some v ∧ ∀ l ∈ leaves none n, l.time = some v) →
      kids.Pairwise (fun a b => ∀ u v, time a = some u → time b = some v → u ≤ v) → InTime (.series name t kids)
  | group (name t kids) : (∀ n ∈ kids, InTime n) → InTime (.group name t kids)
  | amr (t d kids) : (∀ n ∈ kids, InTime n) → InTime (.amr t d kids)

/-- Files the reader gets right, within a collection with time `t`: uniform grids with their own topology and geometry and at least one field; no
geometry for collections; single times only, none within something that has a time already; children of temporal collections with a
time, children of spatial collections not spatial collections themselves. -/
inductive Plain {G : Type} : Option ℚ → Elem G → Prop
  | uniform (t name c tel attrs kids) : (tel = none ∨ t = none ∧ ∃ v, tel = some (.single (some v))) → attrs ≠ [] →
      Plain t (.mk .uniform name true (some (.ok c)) tel attrs kids)
  | temporal (t name topo tel attrs kids) : (tel = none ∨ t = none ∧ ∃ v, tel = some (.single (some v))) →
      (∀ k ∈ kids, Plain (first (own tel) t) k) →
      (∀ k ∈ kids, ∀ kind name topo geo tel' attrs ks, k = .mk kind name topo geo tel' attrs ks →
        (first (own tel') (first (own tel) t)).isSome = true) →
      Plain t (.mk .temporal name topo none tel attrs kids)
  | spatial (t name topo tel attrs kids) : (tel = none ∨ t = none ∧ ∃ v, tel = some (.single (some v))) →
      (∀ k ∈ kids, Plain (first (own tel) t) k) →
      (∀ k ∈ kids, ∀ name topo geo tel attrs ks, k ≠ .mk .spatial name topo geo tel attrs ks) →
      Plain t (.mk .spatial name topo none tel attrs kids)
  | ignored (t name topo tel attrs kids) : (tel = none ∨ t = none ∧ ∃ v, tel = some (.single (some v))) →
      Plain t (.mk .ignored name topo none tel attrs kids)

end Viscid.Spec.Xdmf
