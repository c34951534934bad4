import Mathlib.Algebra.Order.Field.Rat
/-!
# Specification for C251: timing
-/
namespace Viscid.Spec.Timeit

/-- calling a function again and again: `Calls f n s r s'` if `n + 1` calls from state `s` all return, the last of them `r`, and leave `s'` -/
inductive Calls {S R E : Type} (f : S → Except E R × S) : Nat → S → R → S → Prop
  | one (s s' : S) (r : R) : f s = (.ok r, s') → Calls f 0 s r s'
  | more (n : Nat) (s s' s'' : S) (r r' : R) : f s = (.ok r, s') → Calls f n s' r' s'' → Calls f (n + 1) s r' s''

/-- the first call to raise: `Raises f n s e s'` if the call after `n` that return raises -/
inductive Raises {S R E : Type} (f : S → Except E R × S) : Nat → S → E → S → Prop
  | now (s s' : S) (e : E) : f s = (.error e, s') → Raises f 0 s e s'
  | later (n : Nat) (s s' s'' : S) (r : R) (e : E) : f s = (.ok r, s') → Raises f n s' e s'' → Raises f (n + 1) s e s''

/-- as many values are at most `m` as are at least `m` in the sense of a median: at least half on either side -/
def Middle (l : List ℚ) (m : ℚ) : Prop :=
  l.length ≤ 2 * (l.filter (· ≤ m)).length ∧ l.length ≤ 2 * (l.filter (m ≤ ·)).length

end Viscid.Spec.Timeit
