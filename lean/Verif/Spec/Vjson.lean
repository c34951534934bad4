/-!
# Specification for C30: the tokens of a JSON text

Whether two JSON texts have the same value is decided by their tokens (RFC 8259): strings, structural
characters, and the characters of numbers and literals, where only the presence of a gap matters.
-/
namespace Viscid.Spec.Vjson

inductive Tok where
  /-- A string with its raw contents (escapes not decoded). -/
  | str (s : List Char)
  | punct (c : Char)
  /-- A character of a number or literal; `glued` when it continues the previous one. -/
  | chr (c : Char) (glued : Bool)
  deriving DecidableEq, Repr

def isWs (c : Char) : Bool := c == ' ' || c == '\t' || c == '\n' || c == '\r'
def isPunct (c : Char) : Bool := c == '{' || c == '}' || c == '[' || c == ']' || c == ',' || c == ':'
def isClose (c : Char) : Bool := c == '}' || c == ']'

/-- Lexer state: outside strings, in a string, right after a backslash in a string. -/
inductive St where
  | out (glued : Bool)
  | ins (acc : List Char)
  | esc (acc : List Char)

/-- The tokens of a text; `none`: a string is not closed or contains a line break. -/
def lex : St → List Char → Option (List Tok)
  | .out _, [] => some []
  | .ins _, [] => none
  | .esc _, [] => none
  | .out g, c :: r =>
    if c = '"' then lex (.ins []) r
    else if isWs c then lex (.out false) r
    else if isPunct c then (lex (.out false) r).map (.punct c :: ·)
    else (lex (.out true) r).map (.chr c g :: ·)
  | .ins a, c :: r =>
    if c = '"' then (lex (.out false) r).map (.str a.reverse :: ·)
    else if c = '\n' then none
    else if c = '\\' then lex (.esc (c :: a)) r
    else lex (.ins (c :: a)) r
  | .esc a, c :: r => if c = '\n' then none else lex (.ins (c :: a)) r

def tokens (text : List Char) : Option (List Tok) := lex (.out false) text

/-- Position with respect to strings within a line. -/
inductive Mode where
  | out | ins | esc
  deriving DecidableEq

/-- A line without its comment: a comment begins at the first # or // outside strings. -/
def code : Mode → List Char → List Char
  | _, [] => []
  | .out, c :: r =>
    if c = '#' ∨ (c = '/' ∧ r.head? = some '/') then []
    else c :: code (if c = '"' then .ins else .out) r
  | .ins, c :: r => c :: code (if c = '"' then .out else if c = '\\' then .esc else .ins) r
  | .esc, c :: r => c :: code .ins r

/-- Without the commas that stand directly before a closing bracket. -/
def dropTrailing : List Tok → List Tok
  | [] => []
  | t :: ts =>
    if t = .punct ',' ∧ (ts.head? = some (.punct '}') ∨ ts.head? = some (.punct ']')) then dropTrailing ts
    else t :: dropTrailing ts

/-- A string the clean-up handles: no escaped double quote, and no comma followed by blanks and a closing
bracket.  `sp` tells which characters are blanks. -/
def Tame (sp : Char → Bool) (s : List Char) : Prop :=
  '"' ∉ s ∧ ∀ (p w q : List Char) (c : Char), s = p ++ ',' :: (w ++ c :: q) → (∀ x ∈ w, sp x = true) → isClose c = false

end Viscid.Spec.Vjson
