/-!
# Model of `viscid/vjson.py`: `find_all` and the text clean-up of `loads`

Strings are lists of characters; the result is the text handed to the standard `json.loads`, which is
not modelled.
-/
namespace Viscid.Vjson

/-- What Python's `str.rstrip()` strips (`str.isspace`). -/
def pySpace (c : Char) : Bool :=
  let n := c.toNat
  (9 ≤ n && n ≤ 13) || (28 ≤ n && n ≤ 32) || n == 0x85 || n == 0xa0 || n == 0x1680 ||
    (0x2000 ≤ n && n ≤ 0x200a) || n == 0x2028 || n == 0x2029 || n == 0x202f || n == 0x205f || n == 0x3000

/-- `s.rstrip()` -/
def rstrip (s : List Char) : List Char := (s.reverse.dropWhile pySpace).reverse

/-- `s.find(sub, start)` for the suffix of s that begins at index i. -/
def findFrom (sub : List Char) : List Char → Nat → Option Nat
  | [], i => if sub.isEmpty then some i else none
  | c :: r, i => if sub.isPrefixOf (c :: r) then some i else findFrom sub r (i + 1)

/-- The body of the inner loop of find_all (vjson.py:28-35): the earliest match of any substring. -/
def nextMatch (s : List Char) (start : Nat) (subs : List (List Char)) : Option (Nat × Nat) :=
  subs.foldl (fun best sub =>
    match findFrom sub (s.drop start) start with
    | none => best
    | some ind =>
      match best with
      | none => some (ind, sub.length)
      | some (m, l) => if ind < m then some (ind, sub.length) else some (m, l)) none

/-- vjson.py:15-39 find_all; the first argument bounds the number of matches. -/
def findAll (s : List Char) (subs : List (List Char)) : Nat → Nat → List Nat
  | 0, _ => []
  | f + 1, start =>
    match nextMatch s start subs with
    | none => []
    | some (i, len) => i :: findAll s subs f (i + len)

/-- vjson.py:81-88: cut the line at the first marker with an even number of both quotes before it. -/
def cutComment (s : List Char) : List Char :=
  match (findAll s ["#".toList, "//".toList] (s.length + 1) 0).find?
      (fun loc => (s.take loc).count '"' % 2 == 0 && (s.take loc).count '\'' % 2 == 0) with
  | none => s
  | some loc => s.take loc

/-- vjson.py:95-104, the body of the loop over closing brackets.  The state is the last nonempty line
(if there is one) and remove_at.  `none`: IndexError from `lines[last_nonempty][-1]`. -/
def bracket (L : List Char) (st : Option (List Char) × List Nat) (loc : Nat) :
    Option (Option (List Char) × List Nat) :=
  let pre := rstrip (L.take loc)
  if pre = [] then
    match st.1 with
    | none => some st
    | some p =>
      match p.getLast? with
      | none => none
      | some c => if c = ',' then some (some p.dropLast, st.2) else some st
  else if pre.getLast? = some ',' then some (st.1, st.2 ++ [pre.length - 1])
  else some st

/-- vjson.py:105-107 -/
def removeAt : Nat → List Nat → List Char → List Char
  | _, [], l => l
  | j, loc :: ps, l => removeAt (j + 1) ps (l.take (loc - j) ++ l.drop (loc - j + 1))

/-- vjson.py:78-110: the lines before index i (already processed), last_nonempty, the lines from i on. -/
def process : List (List Char) → Option Nat → List (List Char) → Option (List (List Char))
  | done, _, [] => some done
  | done, last, l :: todo =>
    let L := rstrip (cutComment l)
    if L = [] then process (done ++ [L]) last todo
    else
      match (findAll L ["}".toList, "]".toList] (L.length + 1) 0).foldlM (bracket L)
          (last.bind fun k => done[k]?, []) with
      | none => none
      | some (prev, ps) =>
        let done' := match last, prev with
          | some k, some p => done.set k p
          | _, _ => done
        let L' := removeAt 0 ps L
        process (done' ++ [L']) (if L' = [] then last else some done'.length) todo

/-- `text.split('\n')` -/
def splitLines : List Char → List (List Char)
  | [] => [[]]
  | c :: r =>
    if c = '\n' then [] :: splitLines r
    else match splitLines r with
      | [] => [[c]]
      | l :: ls => (c :: l) :: ls

/-- `'\n'.join(lines)` -/
def joinLines : List (List Char) → List Char
  | [] => []
  | [l] => l
  | l :: m :: ls => l ++ '\n' :: joinLines (m :: ls)

/-- vjson.py:67-112 loads up to the call of `_json.loads`; `none`: an exception. -/
def preprocess (text : List Char) : Option (List Char) := (process [] none (splitLines text)).map joinLines

end Viscid.Vjson
