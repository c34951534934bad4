import Verif.Model.SelText
import Verif.Spec.Grid
/-!
# What selections given as text mean
-/
namespace Viscid.Spec.SelText
open Viscid.SelText (Names Item Obj Parsers Val)
open Viscid.Spec.Grid (Blank Trimmed)

/-- the list of names of components; a string has one name per character -/
def nameList : Names → List (List Char)
  | .str s => s.map fun c => [c]
  | .seq l => l

/-- `n` is `s` without the blanks around it, in lower case -/
def Lowered (s n : List Char) : Prop := ∃ t, Trimmed s t ∧ t.map Char.toLower = n

/-- an element names component `c`: the first of that name, blanks and capitals aside -/
def Named (names : Names) (x : Item O) (c : Nat) : Prop :=
  ∃ s n, x = .text s ∧ Lowered s n ∧ (nameList names)[c]? = some n ∧ ∀ j < c, (nameList names)[j]? ≠ some n

/-- the text of a slice -/
def slcText (a b : List Char) (c : Option (List Char)) : List Char := a ++ ':' :: (b ++ (c.elim [] fun c => ':' :: c))

instance : DecidablePred Blank := fun c => inferInstanceAs (Decidable (c = ' ' ∨ _))

/-- Parts of a part of a selection: a character, or an array in brackets -/
inductive Seg
  | chr (c : Char)
  | arr (inner : List Char)

def Seg.text : Seg → List Char
  | .chr c => [c]
  | .arr s => '[' :: s ++ [']']

/-- nothing that separates or is treated specially; commas are all right in arrays -/
def Seg.Ok : Seg → Prop
  | .chr c => c ∉ [',', '_', '@', '[', ']']
  | .arr s => ∀ c ∈ s, c ∉ ['_', '@', '[', ']']

/-- a part of a selection -/
def partText (p : List Seg) : List Char := p.flatMap Seg.text

/-- a selection: parts, separated by commas or underscores -/
def selText (p : List Seg) (rest : List (Char × List Seg)) : List Char :=
  partText p ++ rest.flatMap fun x => x.1 :: partText x.2

/-- a word without special characters or blanks, in lower case, that is no word for something else and no time -/
def Plain (p : Parsers T A) (s : List Char) : Prop :=
  s ≠ [] ∧ (∀ c ∈ s, ¬ Blank c ∧ c.toLower = c ∧ c ≠ ':' ∧ c ≠ '[' ∧ c ≠ ']') ∧ p.isTime s = false ∧
    s ∉ ["newaxis".toList, "numpy.newaxis".toList, "np.newaxis".toList, "none".toList, "true".toList, "false".toList,
      "...".toList, "ellipsis".toList]

/-- how values are written: indices as integers, coordinates as floats, or as imaginary numbers with 'j' or 'f' -/
def Written (p : Parsers T A) (s : List Char) : Obj T A → Prop
  | .none => s = [] ∨ s = "none".toList
  | .bool b => s = if b then "true".toList else "false".toList
  | .ellipsis => s = "...".toList
  | .int i => Plain p s ∧ p.int s = some i
  | .flt q => Plain p s ∧ p.int s = none ∧ 'j' ∉ s ∧ 'f' ∉ s ∧ p.flt s = some q
  | .cplx re im => re = 0 ∧ Plain p s ∧ p.int s = none ∧
      ((∃ t, s = t ++ ['j'] ∧ 'f' ∉ t ∧ p.cplx s = some (re, im)) ∨
        ∃ t, s = t ++ ['f'] ∧ 'f' ∉ t ∧ p.cplx (t ++ ['j']) = some (re, im))
  | .time _ => False
  | .arr _ => False

/-- what values stand for: a float is the coordinate that an imaginary number is -/
def meaning : Obj T A → Option (Val T A)
  | .none => some .none
  | .bool b => some (.bool b)
  | .ellipsis => some .ellipsis
  | .int i => some (.int i)
  | .flt q => some (.cplx 0 q)
  | .cplx re im => if re = 0 then some (.cplx 0 im) else none
  | .time t => some (.time t)
  | .arr _ => none

end Viscid.Spec.SelText
