/-! # Specification vocabulary for chunking (independent of the model) -/
namespace Viscid.Spec

/-- The slices tile `[a, b)`: consecutive, each with start ≤ stop. -/
def Tiles : Nat → List (Nat × Nat) → Nat → Prop
  | a, [], b => a = b
  | a, (s, e) :: rest, b => s = a ∧ s ≤ e ∧ Tiles e rest b

/-- Piece lengths differ by at most one, and never increase. -/
def Balanced (sizes : List Nat) : Prop :=
  (∀ x ∈ sizes, ∀ y ∈ sizes, x ≤ y + 1) ∧ sizes.Pairwise (· ≥ ·)

/-- Number of `j < n` with `j ≡ i (mod k)`. -/
def residueCount (n k i : Nat) : Nat := ((List.range n).filter (fun j => j % k = i)).length

end Viscid.Spec
