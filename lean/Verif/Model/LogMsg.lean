/-
Messages of viscid's logger.

Models viscid/__init__.py:77-93: the logger, its formatter and its filter, with `textwrap.wrap` (Python's textwrap.py, with the
defaults: tabs are expanded, white space becomes blanks, words are broken at hyphens and when they are too long) and the
formatting of a record by Python's logging.

Simplifications: a text is a list of characters; the white space is that of textwrap (`\t\n\x0b\x0c\r` and the blank), other
characters that Unicode counts as white space are letters here; where words may be broken at hyphens is a parameter `cut`,
applied to every word (a regular expression in textwrap.py, whose lookaheads do not reach beyond white space); of the
conversions of `msg % args` there are `%s` and `%%`, with arguments that are texts.
-/
namespace Viscid.LogMsg

abbrev Str := List Char

inductive Err where
  /-- what Python's `%` raises; logging catches it and shows a traceback in place of the message -/
  | format
  deriving DecidableEq, Repr

/-- textwrap.py, `_whitespace` -/
def isWs (c : Char) : Bool := c = '\t' || c = '\n' || c = '\x0b' || c = '\x0c' || c = '\r' || c = ' '

/-- textwrap.py `_munge_whitespace`, called for viscid/__init__.py:86: `expandtabs`, then white space to blanks; `col` is the column -/
def munge : Nat → Str → Str
  | _, [] => []
  | col, c :: s =>
    if c = '\t' then List.replicate (8 - col % 8) ' ' ++ munge 0 s
    else if c = '\r' then ' ' :: munge 0 s
    else (if isWs c then ' ' else c) :: munge (col + 1) s

/-- textwrap.py `_split`: runs of white space and of other characters -/
def chunks : Str → List Str
  | [] => []
  | c :: s =>
    match chunks s with
    | (d :: w) :: rest => if isWs c = isWs d then (c :: d :: w) :: rest else [c] :: (d :: w) :: rest
    | _ => [[c]]

/-- textwrap.py: `chunk.strip() == ''` -/
def blank (w : Str) : Bool := w.all isWs

/-- textwrap.py `_split`, with the words cut at hyphens -/
def split (cut : Str → List Str) (s : Str) : List Str := (chunks s).flatMap fun w => if blank w then [w] else cut w

/-- viscid/__init__.py:86 `width=65` -/
def width : Nat := 65

/-- textwrap.py `_wrap_chunks`, the inner loop: the chunks that fit on a line with `n` characters, and the others -/
def fill : Nat → List Str → List Str × List Str
  | _, [] => ([], [])
  | n, w :: ws =>
    if n + w.length ≤ width then (w :: (fill (n + w.length) ws).1, (fill (n + w.length) ws).2) else ([], w :: ws)

/-- `s.rfind('-')` -/
def rfind (s : Str) : Option Nat := (s.reverse.findIdx? (· = '-')).map fun k => s.length - 1 - k

/-- textwrap.py `_handle_long_word`: where a long word is broken, given the space left on the line -/
def endOf (space : Nat) (w : Str) : Nat :=
  if space < w.length then
    match rfind (w.take space) with
    | some h => if 0 < h ∧ (w.take h).any (· ≠ '-') then h + 1 else space
    | none => space
  else space

/-- textwrap.py `_wrap_chunks`: a word that no line could hold is broken -/
def long (line rest : List Str) : List Str × List Str :=
  match rest with
  | [] => (line, [])
  | w :: ws =>
    if width < w.length then (line ++ [w.take (endOf (width - line.flatten.length) w)], w.drop (endOf (width - line.flatten.length) w) :: ws)
    else (line, w :: ws)

/-- textwrap.py `_wrap_chunks`: white space at the start of a line is dropped, but not on the first line -/
def lead (started : Bool) (ws : List Str) : List Str :=
  match ws with
  | [] => []
  | w :: r => if started && blank w then r else w :: r

/-- textwrap.py `_wrap_chunks`: white space at the end of a line is dropped -/
def trail (line : List Str) : List Str :=
  match line.getLast? with
  | some w => if blank w then line.dropLast else line
  | none => line

/-- One turn of the outer loop of textwrap.py `_wrap_chunks` -/
def oneLine (started : Bool) (ws : List Str) : List Str × List Str :=
  let a := fill 0 (lead started ws)
  let b := long a.1 a.2
  (trail b.1, b.2)

/-- textwrap.py `_wrap_chunks`; `n` bounds the number of turns -/
def wrapLoop : Nat → Bool → List Str → List Str
  | 0, _, _ => []
  | _ + 1, _, [] => []
  | n + 1, started, w :: ws =>
    let r := oneLine started (w :: ws)
    if r.1 = [] then wrapLoop n started r.2 else r.1.flatten :: wrapLoop n true r.2

/-- `textwrap.wrap(msg, width=65)`, viscid/__init__.py:86 -/
def wrap (cut : Str → List Str) (msg : Str) : List Str :=
  let ws := split cut (munge 0 msg)
  wrapLoop (ws.flatten.length + 1) false ws

/-- `'\n'.join(...)`, viscid/__init__.py:86 -/
def joinNl : List Str → Str
  | [] => []
  | [l] => l
  | l :: m :: ls => l ++ '\n' :: joinNl (m :: ls)

/-- `msg.replace('\n', '\n' + spaces)`, viscid/__init__.py:87-88 -/
def indent (n : Nat) : Str → Str
  | [] => []
  | c :: s => if c = '\n' then '\n' :: (List.replicate n ' ' ++ indent n s) else c :: indent n s

/-- viscid/__init__.py:84-89 `_CustomFilter.filter`: the new `record.msg` -/
def filter (cut : Str → List Str) (level msg : Str) : Str :=
  indent (level.length + 2) (if '\n' ∈ msg then msg else joinNl (wrap cut msg))

/-- `msg % args` (logging's `getMessage`, for viscid/__init__.py:79) with the conversions `%s` and `%%` -/
def subst : Str → List Str → Except Err Str
  | [], [] => .ok []
  | [], _ :: _ => .error .format
  | '%' :: 's' :: s, a :: as => (subst s as).map (a ++ ·)
  | '%' :: '%' :: s, as => (subst s as).map ('%' :: ·)
  | c :: s, as => if c = '%' then .error .format else (subst s as).map (c :: ·)

/-- What the handler writes for a record, viscid/__init__.py:79 `"%(levelname)s: %(message)s"`; without arguments the text is not formatted -/
def shown (cut : Str → List Str) (level msg : Str) (args : List Str) : Except Err Str :=
  match args with
  | [] => .ok (level ++ ':' :: ' ' :: filter cut level msg)
  | a :: as => (subst (filter cut level msg) (a :: as)).map fun m => level ++ ':' :: ' ' :: m

end Viscid.LogMsg
