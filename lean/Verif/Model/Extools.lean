/-!
# Model of the calls of external tools: the making of films and the conversion of meshes

Models viscid/extools.py:12-60 (`make_animation`, `meshlab_convert`).

Names of files are lists of characters without any that mean something to a shell (space, quote, star, ...), relative to the directory
of the process. A program is known only by the files it adds.
-/
namespace Viscid.Extools

/-- `str(prefix)` in a format -/
def text : Option (List Char) → List Char
  | some s => s
  | none => "None".toList

/-- whether a name is one of a shell's `pre*suf`: the star stands for any characters but a slash -/
def glob (pre suf name : List Char) : Bool :=
  pre.isPrefixOf name && (let r := name.drop pre.length
    suf.isSuffixOf r && !(r.take (r.length - suf.length)).contains '/')

/-- the options of `add_animate_arguments`, viscid/extools.py:19-24 -/
structure Args where
  pfx : Option (List Char)
  framerate : Nat
  qscale : Nat
  animate : Option (List Char)
  keep : Bool
  deriving DecidableEq, Repr

/-- the commands given to a shell -/
inductive Cmd where
  | film (yes : Bool) (program : List Char) (framerate qscale : Nat) (frames movie : List Char)
  | remove (pre suf : List Char)
  deriving DecidableEq, Repr

/-- viscid/extools.py:12-37: the commands of `make_animation`, in order -/
def commands (movie pfx : Option (List Char)) (framerate qscale : Nat) (keep : Bool) (args : Option Args) (fmt program : List Char)
    (yes : Bool) : List Cmd :=
  let a : Args := match args with
    | some a => a
    | none => ⟨pfx, framerate, qscale, movie, keep⟩
  let first := match a.animate with
    | none => []
    | some [] => []
    | some m => if program = "ffmpeg".toList then [Cmd.film yes program a.framerate a.qscale (text a.pfx ++ fmt ++ ".png".toList) m] else []
  let keep := if a.animate = none ∧ a.pfx ≠ none then true else a.keep
  first ++ if keep then [] else [Cmd.remove (text a.pfx ++ ['_']) ".png".toList]

/-- what a command does to the files there are; `works` says whether the program makes the film (its exit status is not looked at) -/
def run (works : Bool) (files : List (List Char)) : Cmd → List (List Char)
  | .film _ _ _ _ _ movie => if works then (if movie ∈ files then files else movie :: files) else files
  | .remove pre suf => files.filter fun n => !glob pre suf n

/-- the files after `make_animation` -/
def makeAnimation (works : Bool) (files : List (List Char)) (movie pfx : Option (List Char)) (framerate qscale : Nat) (keep : Bool)
    (args : Option Args) (fmt program : List Char) (yes : Bool) : List (List Char) :=
  (commands movie pfx framerate qscale keep args fmt program yes).foldl (run works) files

/-! ## Meshes -/

/-- `s.split('.')` -/
def splitDots : List Char → List (List Char)
  | [] => [[]]
  | '.' :: s => [] :: splitDots s
  | c :: s => match splitDots s with
    | [] => [[c]]
    | p :: ps => (c :: p) :: ps

/-- `'.'.join(parts)` -/
def joinDots : List (List Char) → List Char
  | [] => []
  | [p] => p
  | p :: q :: ps => p ++ '.' :: joinDots (q :: ps)

/-- `fmt.strip()` -/
def strip (s : List Char) : List Char := ((s.dropWhile Char.isWhitespace).reverse.dropWhile Char.isWhitespace).reverse

/-- viscid/extools.py:56: the name of the output of `meshlab_convert` -/
def outName (fname fmt : List Char) : List Char := joinDots (splitDots fname).dropLast ++ '.' :: strip fmt

end Viscid.Extools
