import Mathlib.Algebra.Order.Field.Rat
/-!
# Model of the timing of functions

Models viscid/vutil.py:110-168 (`timereps`, `timeit`). The function called is any that changes a state and may raise; the clock is a
sequence of readings. Times are rational; the rounding of `np.mean` and the text printed are not modelled, only how many lines there are.
-/
namespace Viscid.Timeit

/-- a call: arguments, keyword arguments and the state before; the result or an exception, and the state after -/
abbrev Fn (S A V R E : Type) := List A → List (String × V) → S → Except E R × S

inductive Err (E : Type) where
  | raised (e : E)
  | valueError
  deriving DecidableEq, Repr

/-- viscid/vutil.py:134-137: the keywords popped before the rest are passed on -/
def own : List String := ["timeit_repeat", "timeit_print_stats", "timeit_quiet", "timeit_stats"]

/-- the keywords passed on -/
def passed {V : Type} (kwargs : List (String × V)) : List (String × V) := kwargs.filter fun x => !own.contains x.1

structure Out (S R : Type) where
  ret : Option R
  times : List ℚ
  state : S
  reads : Nat
  lines : Nat

/-- viscid/vutil.py:141-152: one round after the other; `reads` counts the readings of the clock -/
def rounds {S A V R E : Type} (f : Fn S A V R E) (args : List A) (kwargs : List (String × V)) (clock : Nat → ℚ) (show1 : Bool) :
    Nat → Out S R → Except E Unit × Out S R
  | 0, o => (.ok (), o)
  | n + 1, o =>
    let t0 := clock o.reads
    match f args kwargs o.state with
    | (.error e, s) => (.error e, { o with state := s, reads := o.reads + 1, ret := none })
    | (.ok r, s) =>
      let t1 := clock (o.reads + 1)
      rounds f args kwargs clock show1 n
        { ret := some r, times := o.times ++ [t1 - t0], state := s, reads := o.reads + 2, lines := o.lines + if show1 then 1 else 0 }

/-- the statistics put into `timeit_stats` -/
structure Stats where
  min : ℚ
  max : ℚ
  mean : ℚ
  median : ℚ
  rep : Nat
  deriving DecidableEq, Repr

/-- `np.median`: the middle of the sorted values, or the mean of the two in the middle -/
def median (l : List ℚ) : ℚ :=
  let s := l.mergeSort (· ≤ ·)
  let n := s.length
  if n % 2 = 1 then s.getD (n / 2) 0 else (s.getD (n / 2 - 1) 0 + s.getD (n / 2) 0) / 2

/-- viscid/vutil.py:154-158; the minimum of no values is a ValueError -/
def stats : List ℚ → Option Stats
  | [] => none
  | t :: ts => some ⟨ts.foldl min t, ts.foldl max t, (t :: ts).sum / ((t :: ts).length : ℚ), median (t :: ts), (t :: ts).length⟩

/-- viscid/vutil.py:116-168: `timeit(f, *args, timeit_repeat=, timeit_print_stats=, timeit_quiet=, **kwargs)`; the result, the statistics,
the state after, and the number of lines printed. -/
def timeitCall {S A V R E : Type} (f : Fn S A V R E) (args : List A) (kwargs : List (String × V)) (clock : Nat → ℚ) (rep : Nat)
    (printStats quiet : Bool) (s : S) : Except (Err E) (R × Stats × Nat) × S :=
  match rounds f args (passed kwargs) clock (!quiet && (rep == 1 || !printStats)) rep ⟨none, [], s, 0, 0⟩ with
  | (.error e, o) => (.error (.raised e), o.state)
  | (.ok (), o) =>
    match stats o.times, o.ret with
    | some st, some r => (.ok (r, st, o.lines + if !quiet && decide (rep > 1) && printStats then 2 else 0), o.state)
    | _, _ => (.error .valueError, o.state)

/-- viscid/vutil.py:110-118: `timereps(reps, func, *args, **kwargs)` gives the least, the greatest and the mean time -/
def timereps {S A V R E : Type} (reps : Nat) (f : Fn S A V R E) (args : List A) (kwargs : List (String × V)) (clock : Nat → ℚ) (s : S) :
    Except (Err E) (ℚ × ℚ × ℚ) × S :=
  match rounds f args kwargs clock false reps ⟨none, [], s, 0, 0⟩ with
  | (.error e, o) => (.error (.raised e), o.state)
  | (.ok (), o) =>
    match o.times with
    | [] => (.error .valueError, o.state)
    | t :: ts => (.ok (ts.foldl min t, ts.foldl max t, (t :: ts).sum / (reps : ℚ)), o.state)

end Viscid.Timeit
