import Mathlib.Algebra.Order.Field.Rat
/-!
# Model of `viscid/plot/mpl_direct_label.py`: labels at lines

Positions are numbers, one coordinate at a time. Which paths meet a box is asked of matplotlib, and is a parameter here; so is the order in
which candidates with the same distance are sorted.
-/
namespace Viscid.Labels

inductive Err
  | value
  | index
deriving DecidableEq, Repr

/-- What can be given as `colors`: `nothing` is None or anything empty; an array as such, or texts, or lists of numbers -/
inductive Colors
  | nothing
  | text (s : String)
  | texts (l : List String)
  | row (r : List ℚ)
  | rows (l : List (List ℚ))
  | array (l : List (List ℚ))
deriving DecidableEq, Repr

/-- the colour of one label -/
inductive Color
  | text (s : String)
  | rgba (r : List ℚ)
deriving DecidableEq, Repr

/-- the `i`th of `cycle(l)` -/
def cyc {α : Type} (l : List α) (i : Nat) : Option α := l[i % l.length]?

/-- mpl_direct_label.py:497-499: red, green and blue get an opacity -/
def rgba (r : List ℚ) : List ℚ := if r.length = 3 then r ++ [1] else r

/-- mpl_direct_label.py:486-505 `_cycle_colors`: the colours of `n` labels; the truth of an array with more than one number is an error.
    Rows of different lengths are not modelled -/
def cycleColors (c : Colors) (n : Nat) : Except Err (List (Option Color)) :=
  match c with
  | .nothing => .ok (List.replicate n none)
  | .text s => .ok ((List.range n).map fun i => (cyc [s] i).map .text)
  | .texts l => .ok ((List.range n).map fun i => (cyc l i).map .text)
  | .row r => .ok ((List.range n).map fun i => (cyc [rgba r] i).map .rgba)
  | .rows l => .ok ((List.range n).map fun i => (cyc (l.map rgba) i).map .rgba)
  | .array _ => .error .value

/-- mpl_direct_label.py:194-201: the colour of label `i`, `none`: that of its line; the truth of a colour that is an array is an error -/
def labelColor (cs : List (Option Color)) (i : Nat) : Except Err (Option Color) :=
  match cs[i]? with
  | none => .error .index
  | some none => .ok none
  | some (some (.text s)) => if s = "" then .ok none else .ok (some (.text s))
  | some (some (.rgba [])) => .ok none
  | some (some (.rgba [x])) => if x = 0 then .ok none else .ok (some (.rgba [x]))
  | some (some (.rgba _)) => .error .value

/-- mpl_direct_label.py:411-438 `xy_as_pixels`, one coordinate; `lo` and `hi` are the corners of the axes in pixels -/
inductive Coords
  | pixels
  | points
  | fraction
deriving DecidableEq, Repr
def asPixels (coords : Coords) (dpi lo hi x : ℚ) : ℚ :=
  match coords with
  | .pixels => x
  | .points => dpi / 72 * x
  | .fraction => lo + x * (hi - lo)

/-- mpl_direct_label.py:98-106: the padding if none is given -/
def defaultPadding (coords : Coords) (dpi font : ℚ) : ℚ :=
  match coords with
  | .pixels => font * 72 / dpi
  | .points => font
  | .fraction => 1 / 20

/-- mpl_direct_label.py:366-409 `estimate_text_size_px`, with the lines of the text -/
def textSize (aspect spacing dpi size : ℚ) (lines : List (List Char)) : ℚ × ℚ :=
  let h := dpi * size / 72
  (aspect * h * ((lines.map List.length).foldl max 0 : ℕ), spacing * h * lines.length)

/-- mpl_direct_label.py:260-273: the ends of the box of a candidate along one coordinate, for the choice 0, 1 or 2 -/
def box (root size pad : ℚ) (choice : Nat) : ℚ × ℚ :=
  let offset0 := -size / 2
  let offset1 := pad + size / 2
  let lo := root + (offset0 + ((choice : ℚ) - 1) * offset1)
  (lo, lo + size)

/-- mpl_direct_label.py:241: `np.concatenate([[0], np.cumsum(seglen_px)])` -/
def cum : ℚ → List ℚ → List ℚ
  | s, [] => [s]
  | s, l :: ls => s :: cum (s + l) ls

/-- mpl_direct_label.py:247-248: the place of the least positive difference, the first one; 0 if there is none -/
def nearest (d : ℚ) : Nat → List ℚ → Option (Nat × ℚ) → Nat
  | _, [], none => 0
  | _, [], some (i, _) => i
  | i, s :: ss, best =>
    if d - s ≤ 0 then nearest d (i + 1) ss best
    else match best with
      | none => nearest d (i + 1) ss (some (i, d - s))
      | some (j, b) => if d - s < b then nearest d (i + 1) ss (some (i, d - s)) else nearest d (i + 1) ss (some (j, b))

/-- mpl_direct_label.py:241-249: the segment of the candidate at the length `d` along the line, and how far along the segment -/
def onSegment (lens : List ℚ) (d : ℚ) : Nat × ℚ :=
  let src := cum 0 lens
  let i := nearest d 0 src none
  (i, (d - src.getD i 0) / lens.getD i 0)

/-- mpl_direct_label.py:276-301: the penalty of a candidate that meets `paths` lines and `boxes` labels, and is `inside` -/
def penalty (paths boxes : Nat) (inside : Bool) : Nat := paths + 5 * boxes + if inside then 0 else 100

/-- mpl_direct_label.py:293-295: for the label after `boxes` others, `is_filled[ipth]` is asked for each of their boxes; there are as many as `paths` -/
def askFilled (paths boxes : Nat) : Except Err Unit := if boxes ≤ paths then .ok () else .error .index

/-- the place of the first least number -/
def firstMin : List Nat → Nat
  | [] => 0
  | x :: xs => if ∀ y ∈ xs, x ≤ y then 0 else firstMin xs + 1

/-- mpl_direct_label.py:303-337: the candidate that wins, by its number, and that of its root; `isorted` are the numbers by distance from the magnet -/
def winner (isorted : List Nat) (cost : Nat → Nat) (n : Nat) : Option (Nat × Nat) :=
  let k := firstMin (isorted.map cost)
  isorted[k]?.map fun w => (w, w % n)

end Viscid.Labels
