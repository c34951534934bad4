import Mathlib.Algebra.Order.Field.Rat
import Mathlib.Data.Rat.Defs
/-!
# Specification for C97 to C102: rectangles, walks around them, windows and lines
-/
namespace Viscid.Spec.Separator

/-- A rectangle: left, right, lower and upper limit -/
structure Box where
  l : ℚ
  r : ℚ
  b : ℚ
  t : ℚ

def Inside (p : ℚ × ℚ) (R : Box) : Prop := R.l ≤ p.1 ∧ p.1 ≤ R.r ∧ R.b ≤ p.2 ∧ p.2 ≤ R.t

/-- `S` is a part of `R`. -/
def Within (S R : Box) : Prop := R.l ≤ S.l ∧ S.r ≤ R.r ∧ R.b ≤ S.b ∧ S.t ≤ R.t

/-- The two rectangles share at most points of their sides. -/
def Apart (R S : Box) : Prop := R.r ≤ S.l ∨ S.r ≤ R.l ∨ R.t ≤ S.b ∨ S.t ≤ R.b

def middle (R : Box) : ℚ × ℚ := ((R.l + R.r) / 2, (R.b + R.t) / 2)

/-- The first `n - 1` of `n` evenly spaced numbers from `a` to `b` -/
def side (a b : ℚ) (n : Nat) : List ℚ := (List.range (n - 1)).map fun (i : Nat) => a + (b - a) * ((i : ℚ) / ((n - 1 : Nat) : ℚ))

/-- Once around a rectangle, counterclockwise from the lower left corner: `n` points on the horizontal sides, `m` on the
    vertical ones, every corner once. -/
def walk (R : Box) (n m : Nat) : List (ℚ × ℚ) :=
  (side R.l R.r n).map (fun x => (x, R.b)) ++ (side R.b R.t m).map (fun y => (R.r, y)) ++
  (side R.r R.l n).map (fun x => (x, R.t)) ++ (side R.t R.b m).map (fun y => (R.l, y))

/-- The four parts of a rectangle that is split at the fraction `f` of both sides -/
def parts (f : ℚ) (R : Box) : List Box :=
  let x := R.l + f * (R.r - R.l)
  let y := R.b + f * (R.t - R.b)
  [⟨R.l, x, R.b, y⟩, ⟨x, R.r, R.b, y⟩, ⟨R.l, x, y, R.t⟩, ⟨x, R.r, y, R.t⟩]

/-- `T` comes from `R` by `d` times taking a quarter that is `ok`. -/
inductive Chain (ok : Box → Prop) : Box → Nat → Box → Prop
  | zero (R) : Chain ok R 0 R
  | succ (R S T d) : S ∈ parts (1 / 2) R → ok S → Chain ok S d T → Chain ok R (d + 1) T

/-- `v` is the union of the bits of the values of `a` in the window of `k + 1` by `k + 1` points that starts at `(i, j)`. -/
def Union (a : Nat → Nat → Nat) (k i j v : Nat) : Prop :=
  ∀ b, v.testBit b = true ↔ ∃ di, di ≤ k ∧ ∃ dj, dj ≤ k ∧ (a (i + di) (j + dj)).testBit b = true

/-- A line that is continued by `next`: each point from the third on is what comes next after the two before. -/
def Follows (next : P → P → Option P) : List P → Prop
  | a :: b :: c :: l => next a b = some c ∧ Follows next (b :: c :: l)
  | _ => True

end Viscid.Spec.Separator
