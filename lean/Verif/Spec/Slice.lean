/-! # Python slicing of a sequence of length L, as lists of selected positions

The language reference's `slice.indices` followed by `range`. -/
namespace Viscid.Spec.Slice

/-- Arithmetic progression a, a+d, ..., n terms. -/
def ap (a d : Int) (n : Nat) : List Int := (List.range n).map fun k : Nat => a + (k : Int) * d

/-- `len(range(a, b, d))` for d ≠ 0. -/
def rangeLen (a b d : Int) : Nat :=
  if d > 0 then (if a < b then ((b - a - 1) / d + 1).toNat else 0)
  else (if b < a then ((a - b - 1) / (-d) + 1).toNat else 0)

/-- `list(range(a, b, d))`. -/
def pyRange (a b d : Int) : List Int := ap a d (rangeLen a b d)

/-- One bound of `slice.indices(L)`: negative counts from the end, then clamp to [lo, hi]. -/
def clampIdx (L lo hi : Int) (v : Int) : Int := if v < 0 then max (v + L) lo else min v hi

/-- The positions selected by `seq[start:stop:step]` from a sequence of length L, in order. -/
def pyIndices (L : Int) (start stop : Option Int) (step : Int) : List Int :=
  if step > 0 then
    pyRange (start.elim 0 (clampIdx L 0 L)) (stop.elim L (clampIdx L 0 L)) step
  else
    pyRange (start.elim (L - 1) (clampIdx L (-1) (L - 1))) (stop.elim (-1) (clampIdx L (-1) (L - 1))) step

end Viscid.Spec.Slice
