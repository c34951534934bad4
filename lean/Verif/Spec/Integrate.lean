import Verif.Model.Integrate
/-!
# Specification of the integrators (C24, C25, C26)

Order conditions: a Runge-Kutta method with matrix a and weights b has order p iff for every rooted tree
t with at most p nodes Σ_i b_i Φ_i(t) = 1/γ(t), where Φ_i(•) = 1, Φ_i([t₁,…,t_k]) = Π_l Σ_j a_ij Φ_j(t_l),
γ(•) = 1, γ([t₁,…,t_k]) = |t| Π γ(t_l)  (Butcher).  Trees are given as ordered trees; different
orderings of the same rooted tree give the same condition.
-/
namespace Viscid.Spec.Integrate
open Viscid.Streamline

inductive RTree where
  | node : List RTree → RTree

mutual
/-- number of nodes -/
def RTree.order : RTree → Nat
  | .node ts => orderL ts + 1
def orderL : List RTree → Nat
  | [] => 0
  | t :: ts => t.order + orderL ts
end

mutual
/-- γ(t) -/
def RTree.gamma : RTree → ℚ
  | .node ts => (orderL ts + 1 : Nat) * gammaL ts
def gammaL : List RTree → ℚ
  | [] => 1
  | t :: ts => t.gamma * gammaL ts
end

/-- Σ_j a_j b_j -/
def dot (a b : List ℚ) : ℚ := (List.zipWith (· * ·) a b).sum

mutual
/-- the vector Φ_i(t), i ranging over the stages -/
def RTree.phi (a : List (List ℚ)) : RTree → List ℚ
  | .node ts => phiL a ts
def phiL (a : List (List ℚ)) : List RTree → List ℚ
  | [] => a.map fun _ => 1
  | t :: ts => List.zipWith (· * ·) (a.map fun row => dot row (t.phi a)) (phiL a ts)
end

/-- The method with matrix a and weights b has order p. -/
def HasOrder (a : List (List ℚ)) (b : List ℚ) (p : Nat) : Prop :=
  ∀ t : RTree, t.order ≤ p → dot b (t.phi a) * t.gamma = 1

/-- Euclidean length -/
noncomputable def len3 (p : P3 ℝ) : ℝ := Real.sqrt (p.x * p.x + p.y * p.y + p.z * p.z)

/-- Euclidean distance -/
noncomputable def dist3 (p q : P3 ℝ) : ℝ := len3 ⟨q.x - p.x, q.y - p.y, q.z - p.z⟩

/-- Length of the broken line p, pts₀, pts₁, ... -/
noncomputable def arc : P3 ℝ → List (P3 ℝ) → ℝ
  | _, [] => 0
  | p, q :: qs => dist3 p q + arc q qs

end Viscid.Spec.Integrate
