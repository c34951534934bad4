/-! # Specification notions for the JRRLE format -/
namespace Viscid.Spec.Jrrle

/-- The data characters of a record are printable and not space: codes 33..126. -/
def Printable (r : List Nat) : Prop := ∀ c ∈ r, 33 ≤ c ∧ c ≤ 126

/-- How many values a buffer of character codes stands for, up to its first space: a code above 127
is a count (minus 170) for the code after it. -/
def expansion : List Nat → Nat
  | [] => 0
  | [c] => if c = 32 then 0 else if c > 127 then 0 else 1
  | c :: d :: cs => if c = 32 then 0 else if c > 127 then (c - 170) + expansion cs else 1 + expansion (d :: cs)

/-- `(m, q)` is the metadata and line number of the first field called `name`. -/
def IsFirst (f : List (Option (Name × Meta))) (name : Name) (m : Meta) (q : Nat) : Prop :=
  f[q]? = some (some (name, m)) ∧ ∀ q' < q, ∀ m' : Meta, f[q']? ≠ some (some (name, m'))

/-- No field is called `name`. -/
def NoField (f : List (Option (Name × Meta))) (name : Name) : Prop :=
  ∀ (q : Nat) (m : Meta), f[q]? ≠ some (some (name, m))

end Viscid.Spec.Jrrle
