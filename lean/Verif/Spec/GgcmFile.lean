import Verif.Model.GgcmFile
/-!
# What reading the files of an OpenGGCM run should do
-/
namespace Viscid.Spec.GgcmFile
open Viscid.GgcmFile (Info Match)

/-- Blanks -/
def Blank (s : List Char) : Prop := ∀ c ∈ s, c.isWhitespace = true

/-- A word: at least one character, no blanks -/
def Word (s : List Char) : Prop := s ≠ [] ∧ ∀ c ∈ s, c.isWhitespace = false

/-- `s` is "time=" and three words, possibly followed by more -/
def Header (s w0 w1 w2 : List Char) : Prop :=
  Word w0 ∧ Word w1 ∧ Word w2 ∧ ∃ b0 b1 b2 rest, Blank b0 ∧ Blank b1 ∧ Blank b2 ∧ b1 ≠ [] ∧ b2 ≠ [] ∧
    (∀ c, rest.head? = some c → c.isWhitespace = true) ∧
    s = "time=".toList ++ b0 ++ w0 ++ b1 ++ w1 ++ b2 ++ w2 ++ rest

/-- Two files of the same type, of the same run -/
def SameRun (a b : Match) : Prop := a.run = b.run ∧ a.ftype = b.ftype

/-- The file has one time slice only -/
def Slice (a : Match) : Prop := a.grp3 ≠ none

/-- The number in the name of `a` is not after that of `b` -/
def NotAfter (a b : Match) : Prop := ∀ s t, a.grp3 = some (some s) → b.grp3 = some (some t) → s ≤ t

/-- A file that is read: it is a time slice, or nothing of its run and type is -/
def Kept (m : N → Match) (names : List N) (n : N) : Prop :=
  Slice (m n) ∨ ∀ k ∈ names, SameRun (m n) (m k) → ¬ Slice (m k)

/-- Order of runs, then types -/
def Before (a b : Match) : Prop := a.run < b.run ∨ a.run = b.run ∧ a.ftype < b.ftype

/-- The log file says this is a box around Earth, from `xl` to `xh` -/
def Box (i : Info) (xl xh : ℚ) : Prop :=
  i.log = .file ∧ i.mhdType ≠ none ∧ (i.mhdType = some "ggcm" ∨ ∃ c, i.icType = some c ∧ "mirdip".toList <+: c.toList) ∧
    i.xl = some xl ∧ i.xh = some xh ∧ xl < 0 ∧ 0 < xh

/-- The grid is in the coordinates of the simulation, whose x axis points away from the sun -/
def IsMhd (i : Info) : Prop :=
  i.crdSystem = some "mhd" ∨
    i.crdSystem = none ∧ (i.assumeMhd = true ∨ ∃ xl xh, Box i xl xh ∧ 2 * |xl| < xh)

/-- The grid is in GSE coordinates, whose x axis points to the sun -/
def IsGse (i : Info) : Prop :=
  i.crdSystem = some "gse" ∨
    i.crdSystem = none ∧ i.assumeMhd = false ∧ ∃ xl xh, Box i xl xh ∧ 2 * xh < |xl|

/-- The middle of cell `i` -/
def mid (nc : List ℚ) (i : Nat) : ℚ := (nc.getD i 0 + nc.getD (i + 1) 0) / 2

end Viscid.Spec.GgcmFile
