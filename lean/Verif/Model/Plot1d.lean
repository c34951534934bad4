import Mathlib.Algebra.Order.Field.Rat
/-!
# Model of plots of one-dimensional fields: `viscid/plot/vpyplot.py` `plot1d_field`, `_prepare_time_axes`, `_apply_actions`, `_set_default_cbar_pad`

What is drawn is a list of points and the calls that set limits. Numbers are rational, `none` is nan. Matplotlib itself is not modelled but for its refusal of
lines whose coordinates differ in length. Labels and formats of ticks are not modelled.
-/
namespace Viscid.Plot1d

inductive Err
  | valueError
  | typeError
deriving DecidableEq, Repr

inductive Scale
  | lin
  | log
deriving DecidableEq, Repr

/-- `norm_dict` (vpyplot.py:297-355); a scale of none is None ('norescale') -/
structure Norm where
  vscale : Option Scale
  vmin : Option ℚ
  vmax : Option ℚ
  symmetric : Bool

/-- a block of the field: coordinates at its centering and data (vpyplot.py:1312-1319) -/
structure Patch where
  x : List ℚ
  data : List (Option ℚ)

/-- whether an array has integers, or floats -/
inductive Kind
  | int
  | flt
deriving DecidableEq, Repr

/-- a number given as an option: an integer or a float -/
structure Factor where
  kind : Kind
  val : ℚ

/-- vpyplot.py:1325-1328 `if mod: x *= mod`: an option that is not given or zero does nothing; integers are not multiplied by floats in place -/
def inPlace (k : Kind) (f : Option Factor) (o : ℚ → α → α) (l : List α) : Except Err (List α) :=
  match f with
  | none => .ok l
  | some f =>
    if f.val = 0 then .ok l
    else if k = .int ∧ f.kind = .flt then .error .typeError
    else .ok (l.map (o f.val))

/-- `max(dat)` of python for an array: the first, replaced by any that is greater; comparisons with nan and with masked values do not hold -/
def pyMax : List (Option ℚ) → Except Err (Option ℚ)
  | [] => .error .valueError
  | a :: l => .ok (l.foldl (fun m v => match m, v with
    | some m, some v => if m < v then some v else some m
    | m, _ => m) a)

/-- `min(dat)` of python -/
def pyMin : List (Option ℚ) → Except Err (Option ℚ)
  | [] => .error .valueError
  | a :: l => .ok (l.foldl (fun m v => match m, v with
    | some m, some v => if v < m then some v else some m
    | m, _ => m) a)

/-- vpyplot.py:1346 `max(abs(max(dat)), abs(min(dat))) + 0.05 * (max(dat) - min(dat))` -/
def maxval (dat : List (Option ℚ)) : Except Err (Option ℚ) := do
  let a ← pyMax dat
  let b ← pyMin dat
  .ok (a.bind fun a => b.map fun b => max |a| |b| + 1 / 20 * (a - b))

/-- the call `ax.set_ylim((vmin, vmax))`, if there is one: an end is None, not a number or a number -/
abbrev Limits := Option (Option (Option ℚ) × Option (Option ℚ))

/-- vpyplot.py:1338-1350 -/
def limits (n : Norm) (dat : List (Option ℚ)) : Except Err Limits := do
  let (lo, hi) ← if n.symmetric then
      if n.vscale = some .log then Except.error Err.valueError
      else do
        let m ← maxval dat
        Except.ok (some (m.map fun m => -m), some m)
    else Except.ok (n.vmin.map some, n.vmax.map some)
  .ok (if n.vscale.isSome ∧ (lo.isSome ∨ hi.isSome) then some (lo, hi) else none)

/-- what a plot shows -/
structure Drawn where
  line : List (ℚ × Option ℚ)
  ylim : Limits
deriving DecidableEq, Repr

/-- vpyplot.py:1267-1373 `plot1d_field` for coordinates that are not times: the coordinates and the data of all blocks, one after the other. Masked values
are kept as nan. `np.concatenate` of nothing is a ValueError, and so are coordinates and data of different lengths (`ax.plot`). -/
def plot1d (patches : List Patch) (kx kd : Kind) (mod scale : Option Factor) (n : Norm) : Except Err Drawn := do
  if patches.isEmpty then .error .valueError
  let x := patches.flatMap Patch.x
  let dat := patches.flatMap Patch.data
  let x ← inPlace kx mod (fun f v => v * f) x
  let dat ← inPlace kd scale (fun f v => v.map (· * f)) dat
  if x.length ≠ dat.length then .error .valueError
  let ylim ← limits n dat
  .ok ⟨x.zip dat, ylim⟩

/-! ## times -/

/-- what an axis has: numbers, dates, or differences of times (vpyplot.py:373-384) -/
inductive Times
  | plain
  | dates
  | deltas
deriving DecidableEq, Repr

/-- actions that are done after plotting (vpyplot.py:259-286); limits before and after their conversion to dates -/
inductive Action (L : Type)
  | axis (s : String)
  | aspect
  | autoscale
  | autoscaleOn
  | xlim (l : L)
  | ylim (l : L)
deriving DecidableEq, Repr

/-- vpyplot.py:373-384 the formats of one axis -/
def timeFmt (datefmt timefmt : String) : Times → Option String
  | .plain => none
  | .dates => some datefmt
  | .deltas => some timefmt

/-- vpyplot.py:368-402 `_prepare_time_axes`, what it does with actions; `conv` is `viscid.as_datetime`. A format is true if it is not empty. -/
def prepareTimes (conv : L → L) (fx fy : Option String) (isDefault : Bool) (acts : List (Action L)) : List (Action L) :=
  let on : Option String → Bool := fun f => match f with
    | none => false
    | some s => s ≠ ""
  let acts := if isDefault && (on fx || on fy) then acts.filter (fun a => match a with
    | .axis _ => false
    | .aspect => false
    | _ => true) else acts
  let acts := if on fx then acts.map (fun a => match a with
    | .xlim l => .xlim (conv l)
    | a => a) else acts
  if on fy then acts.map (fun a => match a with
    | .ylim l => .ylim (conv l)
    | a => a) else acts

/-! ## the space before a colour bar -/

/-- a dict of options of a colour bar -/
abbrev Dict := List (String × ℚ)

/-- `kwargs['colorbar']` -/
inductive Cbar
  | flag (b : Bool)
  | dict (d : Dict)
deriving DecidableEq, Repr

/-- the options of a plot that matter here -/
structure Kwargs where
  colorbar : Option Cbar
  cbarKwargs : Option Dict
  colorbarKwargs : Option Dict
deriving DecidableEq, Repr

/-- `if 'pad' not in d: d['pad'] = pad` -/
def addPad (pad : ℚ) (d : Dict) : Dict := if (d.lookup "pad").isSome then d else d ++ [("pad", pad)]

/-- vpyplot.py:1158-1180 `_set_default_cbar_pad`: what it returns, and what the dict of the caller is after. The dict of options that is changed is the one
of the caller, whether or not the outer dict was copied. -/
def setPad (k : Kwargs) (pad : ℚ) (inplace : Bool) : Kwargs × Kwargs :=
  match k.colorbar with
  | some (.dict d) => let r := { k with colorbar := some (.dict (addPad pad d)) }; (r, r)
  | _ =>
    match k.cbarKwargs with
    | some d => let r := { k with cbarKwargs := some (addPad pad d) }; (r, r)
    | none =>
      match k.colorbarKwargs with
      | some d => let r := { k with colorbarKwargs := some (addPad pad d) }; (r, r)
      | none => let r := { k with cbarKwargs := some (addPad pad []) }; (r, if inplace then r else k)

end Viscid.Plot1d
