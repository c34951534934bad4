/-!
# Model of `viscid/vjson.py`: `rfind_all`

Texts are lists of characters.  rfind_all is a generator, so the model gives what the first n calls of
`next` give: the positions, and whether the generator has ended.
-/
namespace Viscid.RFind

/-- The index an end stands for in a text of length n (Python's `ADJUST_INDICES`, used by `str.rfind`). -/
def endIndex (n : Nat) : Option Int → Nat
  | none => n
  | some e => if e < 0 then (e + n).toNat else min e.toNat n

/-- `s.rfind(sub, start, end)` for a start that is not negative; `none` for -1: the last index p with
start ≤ p and p + len(sub) ≤ end at which sub occurs. -/
def rfind (s sub : List Char) (start : Nat) (e : Option Int) : Option Nat :=
  let e' := endIndex s.length e
  ((List.range' start (e' + 1 - sub.length - start)).reverse).find? fun p => sub.isPrefixOf (s.drop p)

/-- vjson.py:54-60 the loop over the substrings: the rightmost match and the length of its text
(`ind > max_found`: the first of the substrings that match there). -/
def lastMatch (s : List Char) (subs : List (List Char)) (start : Nat) (e : Option Int) : Option (Nat × Nat) :=
  subs.foldl (fun best sub =>
    match rfind s sub start e with
    | none => best
    | some ind =>
      match best with
      | none => some (ind, sub.length)
      | some (m, l) => if m < ind then some (ind, sub.length) else some (m, l)) none

/-- vjson.py:53-65 the loop of rfind_all with `while start >= 0` always true, for the first n values asked
for: the values, and whether the generator has returned. -/
def loop (s : List Char) (subs : List (List Char)) (start : Nat) : Nat → Option Int → List Nat × Bool
  | 0, _ => ([], false)
  | n + 1, e =>
    match lastMatch s subs start e with
    | none => ([], true)
    | some (p, len) =>
      let r := loop s subs start n (some ((p : Int) - ((len : Int) - 1)))
      (p :: r.1, r.2)

/-- vjson.py:41-65 rfind_all for a list of substrings (a single one is made a list).  A start below zero
ends the loop at once. -/
def rfindAll (s : List Char) (subs : List (List Char)) (start : Int) (e : Option Int) (n : Nat) :
    List Nat × Bool :=
  if 0 ≤ start then loop s subs start.toNat n e else ([], n ≠ 0)

end Viscid.RFind
