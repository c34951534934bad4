import Verif.Model.Basic
/-!
# Model of `viscid/parallel.py` chunking and of the scatter/gather in
`viscid/cython/streamline.pyx`

Lists stand for Python sequences / 1-d numpy arrays, `Nat` for the (non-negative)
integers involved.  Exceptions are values of `Except Err`.
-/
namespace Viscid.Parallel

/-- Exceptions the modelled functions can raise. -/
inductive Err where
  | zeroDivision   -- `nel % nchunks` with nchunks == 0
  | index          -- list assignment index out of range
  | value          -- numpy: shape mismatch in assignment, bad buffer, bad max_workers
  | runtime        -- "Another process is doing streamlines in this global memory space"
  deriving DecidableEq, Repr

/-- viscid/parallel.py:82-83, 113-114, 171-172: `int(ceil(nel / nchunks))`, exactly as
written (the value of `size` is only tested against None).  Simplification: float rounding of
`nel / nchunks` for integers beyond 2^53 is not modelled. -/
def effChunks (nel nchunks : Nat) (size : Option Nat) : Except Err Nat :=
  match size with
  | none => .ok nchunks
  | some _ => if nchunks = 0 then .error .zeroDivision else .ok ((nel + nchunks - 1) / nchunks)

/-- viscid/parallel.py:122-127: one of the two loops of chunk_slices, emitting `k`
consecutive slices of length `len` from `start`.  `ret[i] = ...` for consecutive `i` is
modelled by emitting in order. -/
def emit (start len : Nat) : Nat → List (Nat × Nat)
  | 0 => []
  | k + 1 => (start, start + len) :: emit (start + len) len k

/-- viscid/parallel.py:90-128 chunk_slices. -/
def chunkSlices (nel nchunks : Nat) (size : Option Nat := none) : Except Err (List (Nat × Nat)) := do
  let nchunks ← effChunks nel nchunks size
  if nchunks = 0 then .error .zeroDivision
  else
    let nlong := nel % nchunks
    let lenshort := nel / nchunks
    let lenlong := lenshort + 1
    .ok (emit 0 lenlong nlong ++ emit (nlong * lenlong) lenshort (nchunks - nlong))

/-- Python `seq[start:stop]` for 0 ≤ start (only non-negative bounds occur here). -/
def pySlice (seq : List α) (s : Nat × Nat) : List α := (seq.drop s.1).take (s.2 - s.1)

/-- viscid/parallel.py:53-88 chunk_list.  Note the inner call passes no `size`. -/
def chunkList (seq : List α) (nchunks : Nat) (size : Option Nat := none) : Except Err (List (List α)) := do
  let nchunks ← effChunks seq.length nchunks size
  let ret ← chunkSlices seq.length nchunks
  .ok (ret.map (pySlice seq))

/-- viscid/parallel.py:130-149 chunk_interslices: `(i, None, nchunks)` as `(i, nchunks)`. -/
def chunkInterslices (nchunks : Nat) : List (Nat × Nat) :=
  (List.range nchunks).map fun i => (i, nchunks)

/-- viscid/parallel.py:151-180 chunk_sizes. -/
def chunkSizes (nel nchunks : Nat) (size : Option Nat := none) : Except Err (List Nat) := do
  let nchunks ← effChunks nel nchunks size
  if nchunks = 0 then .error .zeroDivision
  else
    let nlong := nel % nchunks
    let lenshort := nel / nchunks
    let lenlong := lenshort + 1
    .ok (List.replicate nlong lenlong ++ List.replicate (nchunks - nlong) lenshort)

/-- Every `k`-th element after skipping `c` (helper for `seq[i::k]`). -/
def pick (k : Nat) : Nat → List α → List α
  | _, [] => []
  | 0, x :: xs => x :: pick k (k - 1) xs
  | c + 1, _ :: xs => pick k c xs

/-- `seq[i::k]`, `islice(iter(seq), i, None, k)` for k ≥ 1 (streamline.pyx:277,284,499). -/
def strided (l : List α) (i k : Nat) : List α := pick k i l

/-- numpy `dst[i::k] = vals` on a 1-d array (streamline.pyx:277, 284): shape mismatch raises,
otherwise positions i, i+k, ... are overwritten in order. -/
def assignStrided (dst : List α) (i k : Nat) (vals : List α) : Except Err (List α) :=
  if vals.length ≠ (strided dst i k).length then .error .value
  else .ok (dst.mapIdx fun j d => if i ≤ j ∧ (j - i) % k = 0 then vals.getD ((j - i) / k) d else d)

/-- streamline.pyx:505-623, the loop over the seeds of one worker, with the per-seed tracing an
arbitrary state transformer: the state stands for `cached_idx3` and the active AMR patch, which
the worker carries from one seed to the next. -/
def traceAll (trace : σ → α → σ × β) : σ → List α → List β
  | _, [] => []
  | s, x :: xs => (trace s x).2 :: traceAll trace (trace s x).1 xs

/-- streamline.pyx:319-631, one worker: `lines = [None]*nr_streams` (line 491), then one entry
per seed of `islice(seed.iter_points(), *seed_slice)` (lines 499, 505, 620).  An empty seed list
becomes a 1-d array and fails conversion to the 2-d memoryview `seed_pts` (line 500). -/
def worker (trace : σ → α → σ × β) (s0 : σ) (nrStreams : Nat) (seeds : List α) (slc : Nat × Nat) :
    Except Err (List (Option β)) :=
  let mine := strided seeds slc.1 slc.2
  if mine = [] then .error .value
  else if nrStreams < mine.length then .error .index
  else .ok ((traceAll trace s0 mine).map some ++ List.replicate (nrStreams - mine.length) none)

/-- `[f a for a in as]` with exceptions; models `parallel.map` (parallel.py:196-228), all three
branches of which return results in argument order. -/
def mapM' (f : α → Except Err β) : List α → Except Err (List β)
  | [] => .ok []
  | a :: as => do let b ← f a; let bs ← mapM' f as; .ok (b :: bs)

/-- streamline.pyx:276-277: `for i in range(nr_chunks): lines[slice(*seed_slices[i])] = r[i][0]`. -/
def gather (dst : List α) : List ((Nat × Nat) × List α) → Except Err (List α)
  | [] => .ok dst
  | (slc, vals) :: rest => do
      let dst' ← assignStrided dst slc.1 slc.2 vals
      gather dst' rest

/-- streamline.pyx:254-279, from counting the seeds to the reassembled `lines`.
`threads=True` (the default) makes ThreadPoolExecutor reject max_workers ≤ 0. -/
def calcStreamlines (trace : σ → α → σ × β) (s0 : σ) (seeds : List α) (nrProcs chunkFactor : Nat) :
    Except Err (List (Option β)) := do
  let nrStreams := seeds.length
  let nrChunks := max 1 (min (chunkFactor * nrProcs) nrStreams)
  let slices := chunkInterslices nrChunks
  let sizes ← chunkSizes nrStreams nrChunks
  if nrProcs = 0 then .error .value
  else
    let r ← mapM' (fun (a : Nat × (Nat × Nat)) => worker trace s0 a.1 seeds a.2) (sizes.zip slices)
    gather (List.replicate nrStreams none) (slices.zip r)

end Viscid.Parallel
