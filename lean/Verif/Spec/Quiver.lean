/-! Every so many points of an axis -/
namespace Viscid.Spec.Quiver

/-- `i` are the numbers, from `a`, of every `s`th of `n` points -/
def Every (a s n : Nat) (i : Nat → Nat) (count : Nat) : Prop := ∀ k, (k < count ↔ a + k * s < n) ∧ i k = a + k * s

end Viscid.Spec.Quiver
