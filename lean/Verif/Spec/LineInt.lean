import Mathlib.Algebra.Field.Basic
/-!
# Specification for C42
-/
namespace Viscid.Spec.LineInt
variable {K : Type} [Field K]

/-- Sum over the segments of a line of a quantity of the two end points. -/
def overSegments {P : Type} (q : P → P → K) : List P → K
  | a :: b :: rest => q a b + overSegments q (b :: rest)
  | _ => 0

/-- Trapezoid rule for a scalar: mean of the end values times the length of the segment. -/
def trapezoid (len : K × K × K → K) (f : K × K × K → K) : List (K × K × K) → K :=
  overSegments fun a b => (f a + f b) / 2 * len (b.1 - a.1, b.2.1 - a.2.1, b.2.2 - a.2.2)

/-- Trapezoid rule for the component along the line: mean of the end vectors dotted with the segment. -/
def trapezoidDot (F : K × K × K → K × K × K) : List (K × K × K) → K :=
  overSegments fun a b =>
    ((F a).1 + (F b).1) / 2 * (b.1 - a.1) + ((F a).2.1 + (F b).2.1) / 2 * (b.2.1 - a.2.1) +
      ((F a).2.2 + (F b).2.2) / 2 * (b.2.2 - a.2.2)

end Viscid.Spec.LineInt
