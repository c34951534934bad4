/-!
# Model of `viscid/parallel.py`: `map`, `map_async`, `sanitize_nr_procs`

`f a` is `func(*a, **args_kw)`: a value or an exception, without other effects. The work is done by workers that take the next part of it and finish it
at any time after, in any order: a schedule is a list of events. Python's `ThreadPoolExecutor.map` and `Pool.map_async` are modelled by what they do with
parts and results (`concurrent/futures/_base.py`, `multiprocessing/pool.py` of the standard library); pickling, timeouts (the default is 3 years) and
workers that die are not.
-/
namespace Viscid.PMap

/-- what `nr_procs` can be -/
inductive Procs
  | int (i : Int)
  | text (s : String)
  | none
deriving DecidableEq, Repr

inductive Exc (E : Type)
  | func (e : E)
  | value
  | type
deriving DecidableEq, Repr

/-- parallel.py:187-194 `sanitize_nr_procs`: `clean` is `.strip().lower()`, `parse` is `int` of a text -/
def sanitize (cpus : Nat) (clean : String → String) (parse : String → Option Int) : Procs → Except (Exc E) Int
  | .int i => .ok i
  | .none => .error .type
  | .text s =>
    if clean s = "all" || clean s = "auto" then .ok cpus
    else match parse (clean s) with
      | some i => .ok i
      | none => .error .value

/-! ## workers -/

/-- parts of the work that nobody has taken, that are being worked on, and that are finished, in this order -/
structure St where
  queue : List Nat
  busy : List Nat
  done : List Nat
deriving DecidableEq, Repr

/-- a worker takes the next part, or one of the workers finishes -/
inductive Event
  | take
  | finish (k : Nat)
deriving DecidableEq, Repr

/-- `n` workers -/
def step (n : Nat) (s : St) : Event → Option St
  | .take =>
    match s.queue with
    | [] => none
    | q :: qs => if s.busy.length < n then some ⟨qs, q :: s.busy, s.done⟩ else none
  | .finish k =>
    match s.busy[k]? with
    | none => none
    | some c => some ⟨s.queue, s.busy.eraseIdx k, s.done ++ [c]⟩

def run (n : Nat) (s : St) : List Event → Option St
  | [] => some s
  | e :: es =>
    match step n s e with
    | none => none
    | some s => run n s es

def init (m : Nat) : St := ⟨List.range m, [], []⟩

/-- the order in which the parts are finished, if the schedule is one, and ends when all is done -/
def order (n m : Nat) (evs : List Event) : Option (List Nat) :=
  match run n (init m) evs with
  | some ⟨[], [], d⟩ => some d
  | _ => none

/-! ## results -/

/-- parallel.py:216-217 `[_star_passthrough(args) for args in args_iter]`, and `mapstar` of pools: up to the first exception -/
def serial (f : α → Except E β) : List α → Except E (List β)
  | [] => .ok []
  | a :: as =>
    match f a with
    | .error e => .error e
    | .ok b =>
      match serial f as with
      | .error e => .error e
      | .ok bs => .ok (b :: bs)

/-- parallel.py:210-213: the future of each argument is set when it is finished; `executor.map` asks for them in the order of the arguments, and raises the
    first exception it finds -/
def threadRes (f : α → Except E β) (args : List α) (done : List Nat) : Option (Except E (List β)) :=
  match (args.zipIdx.mapM fun a => if a.2 ∈ done then some (f a.1) else none) with
  | none => none
  | some rs => some (serial id rs)

/-- `Pool._map_async`: the size of the parts for a pool of `n` workers -/
def chunkSize (n len : Nat) : Nat := len / (n * 4) + if len % (n * 4) = 0 then 0 else 1

/-- the number of parts -/
def nrChunks (cs len : Nat) : Nat := if cs = 0 then 0 else len / cs + if len % cs = 0 then 0 else 1

/-- `Pool._get_tasks` -/
def chunk (cs : Nat) (args : List α) (i : Nat) : List α := (args.drop (i * cs)).take cs

/-- `MapResult` -/
structure Res (E β : Type) where
  value : List (Option β)
  exc : Option E

/-- `MapResult._set`: the results of a part go to their place; only the first exception is kept -/
def Res.set (r : Res E β) (cs i : Nat) : Except E (List β) → Res E β
  | .ok bs =>
    match r.exc with
    | some _ => r
    | none => ⟨r.value.take (i * cs) ++ (bs.map some ++ r.value.drop ((i + 1) * cs)), none⟩
  | .error e =>
    match r.exc with
    | some _ => r
    | none => ⟨r.value, some e⟩

/-- `r.get()` when all parts are finished in the order given; `none` would be a result with None in it -/
def poolRes (f : α → Except E β) (args : List α) (cs : Nat) (done : List Nat) : Option (Except E (List β)) :=
  let r := done.foldl (fun (r : Res E β) i => r.set cs i (serial f (chunk cs args i))) ⟨List.replicate args.length none, none⟩
  match r.exc with
  | some e => some (.error e)
  | none => (r.value.mapM id).map .ok

/-- lift exceptions of the function -/
def lift : Except E (List β) → Except (Exc E) (List β)
  | .ok l => .ok l
  | .error e => .error (.func e)

/-- parallel.py:196-228 `map` with 230-290 `map_async`; `pool` is the number of workers of the pool that is given. A pool that is given is not closed
    (278-280), and `join` of a pool that is not closed is a ValueError. `none`: this is not a schedule of the call. -/
def map (threads : Bool) (pool : Option Nat) (force : Bool) (n : Int) (f : α → Except E β) (args : List α) (evs : List Event) :
    Option (Except (Exc E) (List β)) :=
  if threads then
    if n ≤ 0 then some (.error .value)
    else
      match order n.toNat args.length evs with
      | none => none
      | some d => (threadRes f args d).map lift
  else
    match pool with
    | some p =>
      match order p (nrChunks (chunkSize p args.length) args.length) evs with
      | none => none
      | some d =>
        match poolRes f args (chunkSize p args.length) d with
        | none => none
        | some (.error e) => some (.error (.func e))
        | some (.ok _) => some (.error .value)
    | none =>
      if n = 1 && !force then some (lift (serial f args))
      else if n ≤ 0 then some (.error .value)
      else
        match order n.toNat (nrChunks (chunkSize n.toNat args.length) args.length) evs with
        | none => none
        | some d => (poolRes f args (chunkSize n.toNat args.length) d).map lift

end Viscid.PMap
