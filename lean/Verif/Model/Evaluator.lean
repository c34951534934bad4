import Verif.Model.Basic
/-!
# Model of the text handling in `viscid/calculator/evaluator.py`, without numexpr

Strings are lists of characters; words (`\w`) are taken to be of ASCII letters, digits and underscores. `eval` itself, the fields of
the grid and the functions of `calc` and numpy are parameters.
-/
namespace Viscid.Evaluator

inductive Err
  | runtime
  | noField (name : List Char)
deriving DecidableEq, Repr

/-- `\w` -/
def isWord (c : Char) : Bool := c.isAlphanum || c == '_'

/-- `[_A-Za-z]` -/
def isStart (c : Char) : Bool := c.isAlpha || c == '_'

/-- evaluator.py:143 `eqn.replace("__", "")`, from left to right without overlaps -/
def removeDunder : List Char → List Char
  | [] => []
  | [c] => [c]
  | c :: d :: cs => if c = '_' ∧ d = '_' then removeDunder cs else c :: removeDunder (d :: cs)

/-- The text, cut at every word boundary (`\b`) -/
inductive Tok
  | word (w : List Char)
  | chr (c : Char)
deriving DecidableEq, Repr

/-- Longest words, and single other characters. The regular expressions of lines 140-141 and 159 match exactly whole words that start with a
    letter or an underscore, with the quote just before them, if any. -/
def tokens : List Char → List Tok
  | [] => []
  | c :: cs =>
    if isWord c then
      match tokens cs with
      | .word w :: ts => .word (c :: w) :: ts
      | ts => .word [c] :: ts
    else .chr c :: tokens cs

def Tok.text : Tok → List Char
  | .word w => w
  | .chr c => [c]

/-- the text of tokens -/
def flat (ts : List Tok) : List Char := ts.flatMap Tok.text

/-- `\s*\(`: what is left after it -/
def paren : List Tok → Option (List Tok)
  | .chr c :: ts => if c = '(' then some ts else if c.isWhitespace then paren ts else none
  | _ => none

/-- whether a word can be a symbol -/
def symbol (w : List Char) : Bool := (w.head?.map isStart).getD false

def isQuote (c : Char) : Bool := c == '\'' || c == '"'

/-- evaluator.py:139 -/
def salt : List Char := "SALT".toList

/-- what names stand for in the equation -/
inductive Val (F G : Type)
  | fld (f : F)
  | fn (g : G)
deriving DecidableEq, Repr

/-- the dictionary of names; the first entry counts, as names are added only once -/
abbrev Dict (F G : Type) := List (List Char × Val F G)

def Dict.get (d : Dict F G) (k : List Char) : Option (Val F G) := (d.find? fun x => x.1 = k).map (·.2)

/-- evaluator.py:146-155 `var_salter`: the text for a symbol, and the dictionary afterwards -/
def varSalter (getField : List Char → Option F) (sym : List Char) (d : Dict F G) : Except Err (List Char × Dict F G) :=
  if sym.head? = some '\'' then .ok (sym, d)
  else if (d.get (salt ++ sym)).isSome then .ok (salt ++ sym, d)
  else match getField sym with
    | none => .error (.noField sym)
    | some f => .ok (salt ++ sym, d ++ [(salt ++ sym, .fld f)])

/-- evaluator.py:156 `re.sub(var_re, var_salter, eqn)`: symbols that are not followed by a parenthesis. `quote` is the quote just
    before, which has not been written yet. -/
def varPass (getField : List Char → Option F) : Option Char → List Tok → Dict F G → Except Err (List Char × Dict F G)
  | q, [], d => .ok (q.toList, d)
  | q, .chr c :: ts, d =>
    match varPass getField (if isQuote c then some c else none) ts d with
    | .error e => .error e
    | .ok (out, d') => .ok (q.toList ++ (if isQuote c then [] else [c]) ++ out, d')
  | q, .word w :: ts, d =>
    if symbol w ∧ paren ts = none then
      match varSalter getField (q.toList ++ w) d with
      | .error e => .error e
      | .ok (txt, d1) =>
        match varPass getField none ts d1 with
        | .error e => .error e
        | .ok (out, d2) => .ok (txt ++ out, d2)
    else
      match varPass getField none ts d with
      | .error e => .error e
      | .ok (out, d') => .ok (q.toList ++ w ++ out, d')

/-- evaluator.py:160-168 `func_salter`: functions of `calc` come before those of numpy -/
def funcSalter (calcF np : List Char → Option G) (sym : List Char) (d : Dict F G) : List Char × Dict F G :=
  let d' := if (d.get (salt ++ sym)).isSome then d
    else match calcF sym with
      | some g => d ++ [(salt ++ sym, .fn g)]
      | none => match np sym with
        | some g => d ++ [(salt ++ sym, .fn g)]
        | none => d
  (salt ++ sym ++ "(".toList, d')

/-- evaluator.py:169 `re.sub(func_re, func_salter, salted_eqn)`: symbols that are followed by a parenthesis, which is written
    without blanks in front. `fuel` is the number of tokens. -/
def funcPass (calcF np : List Char → Option G) : Nat → Option Char → List Tok → Dict F G → List Char × Dict F G
  | 0, q, _, d => (q.toList, d)
  | _ + 1, q, [], d => (q.toList, d)
  | n + 1, q, .chr c :: ts, d =>
    let r := funcPass calcF np n (if isQuote c then some c else none) ts d
    (q.toList ++ (if isQuote c then [] else [c]) ++ r.1, r.2)
  | n + 1, q, .word w :: ts, d =>
    match paren ts with
    | some rest =>
      if symbol w then
        let s := funcSalter calcF np (q.toList ++ w) d
        let r := funcPass calcF np n none rest s.2
        (s.1 ++ r.1, r.2)
      else
        let r := funcPass calcF np n none ts d
        (q.toList ++ w ++ r.1, r.2)
    | none =>
      let r := funcPass calcF np n none ts d
      (q.toList ++ w ++ r.1, r.2)

/-- evaluator.py:130-172 `_evaluate_numpy`, up to `eval`: the text and the names that are evaluated -/
def prepare (enabled : Bool) (getField : List Char → Option F) (calcF np : List Char → Option G) (eqn : List Char) :
    Except Err (List Char × Dict F G) :=
  if enabled = false then .error .runtime
  else
    match varPass getField none (tokens (removeDunder eqn)) [] with
    | .error e => .error e
    | .ok (s, d) =>
      let ts := tokens s
      .ok (funcPass calcF np (ts.length + 1) none ts d)

end Viscid.Evaluator
