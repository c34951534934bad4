import Verif.Model.Series
/-! What series of files are to be: names that fit the patterns of the readers, and entries in order of time. Only the types are those of the model. -/
namespace Viscid.Spec.Series
open Viscid.Series (Text Kind Groups Path Content World Entry)

def Space (c : Char) : Prop := c ∈ [' ', '\t', '\n', '\r', '\x0b', '\x0c']

def Digit (c : Char) : Prop := c ∈ "0123456789".toList

/-- One or more digits -/
def Num (s : Text) : Prop := s ≠ [] ∧ ∀ c ∈ s, Digit c

/-- A plane: px_0, py_12, ... -/
def Plane (t : Text) : Prop := ∃ c n, c ∈ "xyz".toList ∧ Num n ∧ t = 'p' :: c :: '_' :: n

/-- What the name of a file has after the run: `.3df.000600` and so on -/
def Tail (k : Kind) (g : Groups) (x : Text) : Prop :=
  match k with
  | .jrrle => ∃ n, g.num = some n ∧ Num n ∧ n.length = 6 ∧ (Plane g.ty ∨ g.ty = "3df".toList) ∧ x = '.' :: g.ty ++ '.' :: n
  | .jrrleIono => ∃ n, g.num = some n ∧ Num n ∧ n.length = 6 ∧ g.ty = "iof".toList ∧ x = '.' :: g.ty ++ '.' :: n
  | .fortbin => ∃ n c, g.num = some n ∧ Num n ∧ n.length = 6 ∧ c ≠ '\n' ∧ (Plane g.ty ∨ g.ty = "3df".toList) ∧ x = '.' :: g.ty ++ '.' :: n ++ [c, 'b']
  | .fortbinIono => ∃ n c, g.num = some n ∧ Num n ∧ n.length = 6 ∧ c ≠ '\n' ∧ g.ty = "iof".toList ∧ x = '.' :: g.ty ++ '.' :: n ++ [c, 'b']
  | .athBin => ∃ n, g.num = some n ∧ Num n ∧ g.ty = "bin".toList ∧ x = '.' :: n ++ ".bin".toList
  | .athTab => ∃ n, g.num = some n ∧ Num n ∧ n.length = 4 ∧ g.ty = "tab".toList ∧ x = '.' :: n ++ ".tab".toList
  | .gkeyll => ∃ n c, g.num = some n ∧ Num n ∧ c ≠ '\n' ∧ g.ty = "q".toList ∧ x = "_q_".toList ++ n ++ [c, 'h', '5']
  | .ggcmXdmf => ∃ e, (e = "xmf".toList ∨ e = "xdmf".toList) ∧ (Plane g.ty ∨ g.ty = "3d".toList ∨ g.ty = "3df".toList) ∧
      ((g.num = none ∧ x = '.' :: g.ty ++ '.' :: e) ∨ ∃ n, g.num = some n ∧ Num n ∧ n.length = 6 ∧ x = '.' :: g.ty ++ '.' :: n ++ '.' :: e)
  | .athXdmf => ∃ n c, g.num = some n ∧ Num n ∧ c ≠ '\n' ∧ g.ty = ['a', 't', 'h', c, 'x', 'd', 'm', 'f'] ∧ x = '.' :: n ++ '.' :: g.ty

/-- A name fits the pattern of a reader: white space, the run, the rest, white space. The run has no line feed and does not begin with white space. -/
def Fits (k : Kind) (s : Text) (g : Groups) : Prop :=
  ∃ a b x, (∀ c ∈ a, Space c) ∧ (∀ c ∈ b, Space c) ∧ s = a ++ (g.run ++ x) ++ b ∧ Tail k g x ∧ (∀ c ∈ g.run, c ≠ '\n') ∧ ∀ c, g.run.head? = some c → ¬ Space c

/-- The readers of OpenGGCM's own formats: the time of a file is the number in its name -/
def timeInName : Kind → Bool
  | .jrrle | .jrrleIono | .fortbin | .fortbinIono => true
  | _ => false

/-- The readers of XDMF -/
def xdmf : Kind → Bool
  | .ggcmXdmf | .athXdmf => true
  | _ => false

/-- An absolute path without line feeds -/
def Plain (p : Path) : Prop := (p.dir = [] ∨ p.dir.head? = some '/') ∧ ∀ c ∈ p.dir ++ p.base, c ≠ '\n'

/-- The value of digits -/
def value (n : Text) : ℕ := ((n.map fun c => c.toNat - 48).foldl (fun v d => 10 * v + d) 0)

/-- The entry of a file of a series that is not XDMF: that of the file, with the time in the name or that in the file -/
structure IsEntry (k : Kind) (w : World α) (p : Path) (e : Entry α) : Prop where
  path : e.path = p
  inName : timeInName k = true → ∀ g n, Fits k p.base g → g.num = some n → e.time = value n
  inFile : timeInName k = false → e.time = (w.file p).time

/-- The entries of the grids of an XDMF file -/
def gridEntries (w : World α) (p : Path) : List (Entry α) := (w.grids p).map fun c => ⟨p, c.time, c.fields, c.crds⟩

/-- In order of time, and of those of one time in the order given: `l` is `given`, put in order -/
structure InOrder (given l : List (Entry α)) : Prop where
  sorted : l.Pairwise fun a b => a.time ≤ b.time
  same : ∀ t, l.filter (fun e => e.time = t) = given.filter (fun e => e.time = t)

end Viscid.Spec.Series
