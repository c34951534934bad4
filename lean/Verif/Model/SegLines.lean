import Verif.Model.PrepLines
/-!
# Model of `_prep_lines` of `viscid/plot/vpyplot.py`

What `prepare_lines` returns (`Model/PrepLines.lean`) is the input: columns of vertices, columns of scalars (of no rows if there are none) and connections.
Interpolation is linear; other kinds, bytes for colours and rounding are not modelled. `scipy` is whether scipy can be imported, `junk` is what is in memory
that `np.empty` hands out.
-/
namespace Viscid.SegLines
open Viscid.PrepLines (connections)

/-- vpyplot.py:2064-2065 `np.setdiff1d(np.arange(nverts), connections[:, 1])`: vertices to which nothing leads -/
def lineStart (nverts : Nat) (conn : List (Nat × Nat)) : List Nat := (List.range nverts).filter fun i => i ∉ conn.map Prod.snd

/-- vpyplot.py:2066 -/
def lineStop (nverts : Nat) (starts : List Nat) : List Nat := starts.tail ++ [nverts]

/-- vpyplot.py:2085-2086: columns of each line -/
def slices (cols : List (List ℚ)) (starts stops : List Nat) : List (List (List ℚ)) :=
  (starts.zip stops).map fun p => (cols.take p.2).drop p.1

/-- vpyplot.py:2083-2084 -/
def nFine (s : ℚ) (n : Nat) : Nat := (⌈s * ((n : ℚ) - 1)⌉ + 1).toNat

/-- vpyplot.py:2091-2092 `np.linspace(0, 1, n)` -/
def lin (n k : Nat) : ℚ := if n = 1 then 0 else (k : ℚ) / ((n : ℚ) - 1)

/-- vpyplot.py:2097-2102, 2109-2114 `interp1d(t_coarse, row)(t)` and `np.interp`: in the interval that `np.searchsorted` finds -/
def interp (row : List ℚ) (t : ℚ) : ℚ :=
  let n := row.length
  let i := min (max ((List.range n).filter fun j => lin n j < t).length 1) (n - 1)
  let x0 := lin n (i - 1)
  let x1 := lin n i
  let y0 := row.getD (i - 1) 0
  let y1 := row.getD i 0
  (y1 - y0) / (x1 - x0) * (t - x0) + y0

/-- vpyplot.py:2098 `coarse_verts[j, :]` -/
def row (cols : List (List ℚ)) (r : Nat) : List ℚ := cols.map fun c => c.getD r 0

/-- vpyplot.py:2087-2120, one line with `d` rows: with scipy one vertex is a ValueError, caught at 2115-2120, when only the first row was reached; without it
`np.interp` repeats the vertex -/
def fineLine (scipy : Bool) (junk : Nat → ℚ) (s : ℚ) (d : Nat) (line : List (List ℚ)) : List (List ℚ) :=
  if line.length = 1 then
    if scipy then [(List.range d).map fun r => if r = 0 then (row line r).getD 0 0 else junk r]
    else [(List.range d).map fun r => (row line r).getD 0 0]
  else
    let nf := nFine s line.length
    (List.range nf).map fun k => (List.range d).map fun r => interp (row line r) (lin nf k)

/-- vpyplot.py:2122-2126 connections of vertices of the fine lines -/
def fineConn (s : ℚ) (counts : List Nat) : List (Nat × Nat) :=
  counts.zipIdx.flatMap fun p =>
    let a := ((counts.take p.2).map (nFine s)).sum
    (List.range (nFine s p.1 - 1)).map fun k => (a + k, a + 1 + k)

/-- vpyplot.py:2158 what is returned -/
structure Out where
  verts : List (List ℚ)
  segments : List (List ℚ × List ℚ)
  segScalars : List (List ℚ)

/-- vpyplot.py:2056-2158 `_prep_lines` (no vertices at all is a ValueError, left out): `d` and `m` rows of vertices and scalars, `npts` vertices per line -/
def prep (scipy : Bool) (junk junk' : Nat → ℚ) (s : ℚ) (d m : Nat) (npts : List Nat) (verts scal : List (List ℚ)) : Out :=
  let conn := connections npts
  let starts := lineStart verts.length conn
  let stops := lineStop verts.length starts
  let r : List (List ℚ) × List (List ℚ) × List (Nat × Nat) :=
    if s > 0 then
      (((slices verts starts stops).map (fineLine scipy junk s d)).flatten, ((slices scal starts stops).map (fineLine scipy junk' s m)).flatten,
        fineConn s ((starts.zip stops).map fun p => p.2 - p.1))
    else (verts, scal, conn)
  ⟨r.1, r.2.2.map fun c => (r.1.getD c.1 [], r.1.getD c.2 []), r.2.2.map fun c => r.2.1.getD c.1 []⟩

end Viscid.SegLines
