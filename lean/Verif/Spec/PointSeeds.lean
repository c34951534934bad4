import Verif.Model.PointSeeds
/-!
# Points of arrays
-/
namespace Viscid.Spec.PointSeeds
open Viscid.Layout (Arr)
open Viscid.PointSeeds (Ax)

/-- the indices of an array of this shape, the last one fastest -/
def inC : List Nat → List (List Nat)
  | [] => [[]]
  | n :: s => (List.range n).flatMap fun i => (inC s).map (i :: ·)

/-- the indices of an array of this shape, the first one fastest -/
def inF : List Nat → List (List Nat)
  | [] => [[]]
  | n :: s => (inF s).flatMap fun t => (List.range n).map (· :: t)

/-- the point at an index, of arrays with the three coordinates along the first axis -/
def ptFirst (a : Arr α) (i : List Nat) : α × α × α := (a.get (0 :: i), a.get (1 :: i), a.get (2 :: i))

/-- the point at an index, of arrays with the three coordinates along the last axis -/
def ptLast (a : Arr α) (i : List Nat) : α × α × α := (a.get (i ++ [0]), a.get (i ++ [1]), a.get (i ++ [2]))

/-- how many -/
def size : List Nat → Nat
  | [] => 1
  | n :: s => n * size s

/-- what names of axes are taken -/
def axis : Ax → Option Nat
  | .num n => if n = 0 then some 0 else if n = 1 then some 1 else none
  | .chr c => if c = 'x' then some 0 else if c = 'y' then some 1 else none

end Viscid.Spec.PointSeeds
