import Verif.Model.Plot2d
/-!
# Model of colour scales: `viscid/plot/vpyplot.py` `_extract_actions_and_norm` (its part about norms) and `plot2d_field` (its part about norms)

nan is `none`; False as a value is the number 0. Not modelled: the actions, other options, colour maps themselves.
-/
namespace Viscid.PlotNorm

inductive Err
  | value
  | type
deriving DecidableEq, Repr

/-- One entry of the limits: None, a number or a text -/
inductive Lim
  | none
  | num (x : ℚ)
  | text (s : String)
deriving DecidableEq

/-- The value of `lin`, `log` or `loglog`: True, one entry, or a list of entries -/
inductive Opt
  | yes
  | val (x : Lim)
  | list (l : List Lim)
deriving DecidableEq

/-- The options that matter; `none`: not given -/
structure Kw where
  logscale : Bool := false
  clim : Option (List Lim) := none
  vmin : Option Lim := none
  vmax : Option Lim := none
  symmetric : Bool := false
  sym : Bool := false
  lin : Option Opt := none
  log : Option Opt := none
  loglog : Option Opt := none
  norescale : Bool := false

inductive Scale
  | lin
  | log
deriving DecidableEq

/-- `norm_dict` -/
structure Norm where
  crdlog : Bool
  vscale : Option Scale
  clim : List Lim
  symmetric : Bool

/-- `clim[:len(opt)] = opt` -/
def overlay (clim opt : List Lim) : List Lim := opt ++ clim.drop opt.length

/-- `if opt is not True: …; clim[:len(opt)] = opt` -/
def put (clim : List Lim) : Opt → List Lim
  | .yes => clim
  | .val x => overlay clim [x]
  | .list l => overlay clim l

/-- vpyplot.py:346-349 -/
def unNone : Lim → Lim
  | .text s => if s = "None" ∨ s = "none" then .none else .text s
  | x => x

/-- vpyplot.py:297-355, the end of `_extract_actions_and_norm` -/
def extract (k : Kw) : Norm :=
  let n : Norm := ⟨false, some .lin, [.none, .none], false⟩
  let n := if k.logscale then { n with vscale := some .log } else n
  let n := match k.clim with | none => n | some l => { n with clim := overlay n.clim l }
  let n := match k.vmin with | none => n | some x => { n with clim := n.clim.set 0 x }
  let n := match k.vmax with | none => n | some x => { n with clim := n.clim.set 1 x }
  let n := { n with symmetric := k.sym || k.symmetric }
  let n := match k.lin with
    | none => n
    | some (o : Opt) =>
      let n := { n with vscale := some .lin }
      if o = Opt.val (.num 0) then { n with symmetric := true } else { n with clim := put n.clim o }
  let n := match k.log with
    | none => n
    | some o => { n with vscale := some .log, clim := put n.clim o }
  let n := match k.loglog with
    | none => n
    | some o => { n with crdlog := true, vscale := some .log, clim := put n.clim o }
  let n := { n with clim := n.clim.map unNone }
  if k.norescale then { n with vscale := none } else n

/-- `np.nanmin(l)`: nan if there is nothing but nan, ValueError if there is nothing -/
def nanmin (l : List (Option ℚ)) : Except Err (Option ℚ) :=
  if l = [] then .error .value
  else .ok (l.foldl (fun a x => match a, x with | none, x => x | a, none => a | some a, some x => some (min a x)) none)

/-- `np.nanmax(l)` -/
def nanmax (l : List (Option ℚ)) : Except Err (Option ℚ) :=
  if l = [] then .error .value
  else .ok (l.foldl (fun a x => match a, x with | none, x => x | a, none => a | some a, some x => some (max a x)) none)

/-- vpyplot.py:703-706 `np.nanmin([np.nanmin(blk) for blk in fld.patches])`, if the limit is None -/
def fill (f : List (Option ℚ) → Except Err (Option ℚ)) (patches : List (List (Option ℚ))) : Lim → Except Err (Except Err (Option ℚ))
  | .none => do
    let ms ← patches.mapM f
    return .ok (← f ms)
  | .num x => .ok (.ok (some x))
  | .text _ => .ok (.error .type)

/-- What comes out: the norm that is used, if any, with its limits; whether values that are not positive are masked; the limits -/
structure Result where
  norm : Option (Scale × ℚ × ℚ)
  maskneg : Bool
  vmin : ℚ
  vmax : ℚ
  warned : Bool
deriving DecidableEq

/-- vpyplot.py:700-741: the norm if none was given -/
def limits (n : Norm) (patches : List (List (Option ℚ))) : Except Err Result :=
  match n.clim with
  | [a, b] => do
    let vmin ← fill nanmin patches a
    let vmax ← fill nanmax patches b
    -- np.isnan(vmin) or np.isnan(vmax): TypeError of texts
    let vmin ← vmin
    let vmax ← match vmin with
      | none => .ok none
      | some _ => vmax
    let (vmin, vmax, sym, warned) := match vmin, vmax with
      | some a, some b => (a, b, n.symmetric, false)
      | _, _ => ((10 : ℚ) ^ 38, (10 : ℚ) ^ 38, false, true)
    match n.vscale with
    | some .lin =>
      let m := max |vmin| |vmax|
      let (vmin, vmax) := if sym then (-1 * m, 1 * m) else (vmin, vmax)
      return ⟨some (.lin, vmin, vmax), false, vmin, vmax, warned⟩
    | some .log =>
      if sym then throw .value
      else if vmax ≤ 0 then return ⟨some (.log, 1 / 10 ^ 20, 1 / 10 ^ 20), true, 1 / 10 ^ 20, 1 / 10 ^ 20, warned⟩
      else if vmin ≤ 0 then return ⟨some (.log, vmax / 10 ^ 4, vmax), true, vmax / 10 ^ 4, vmax, warned⟩
      else return ⟨some (.log, vmin, vmax), false, vmin, vmax, warned⟩
    | none => return ⟨none, false, vmin, vmax, warned⟩
  | _ => .error .value

/-- Norms a user may give -/
inductive Given
  /-- `Normalize`, which `LogNorm` is a subclass of -/
  | normalize
  | logNorm
  | other

/-- vpyplot.py:742-748: the scale of a norm that was given; `isinstance(norm, Normalize)` comes first -/
def scaleOf : Given → Except Err Scale
  | .normalize => .ok .lin
  | .logNorm => .ok .lin
  | .other => .error .type

/-- vpyplot.py:751-758: `np.isclose(vmax, -1 * vmin, atol=0)` and no 'cmap' -/
def symmetricMap (cmap : Bool) (vmin vmax : ℚ) : Bool := !cmap && decide (|vmax - (-1 * vmin)| ≤ 1 / 10 ^ 5 * |(-1 * vmin)|)

end Viscid.PlotNorm
