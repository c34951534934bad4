import Verif.Model.FieldWrites
import Verif.Props.Contig
/-!
# C266: what is written to fields
-/
namespace Viscid.Spec.FieldWrites
open Viscid.Contig (Nd Mem fetch addr)
open Viscid.FieldWrites
open Viscid.Spec.Contig (Inside)

/-- `fld.data[ix]` -/
def val (s : Mem α × F α τ) (ix : List Nat) : α := fetch (data s.1 s.2).1 (data s.1 s.2).2.2 ix

/-- the shape of `fld.data` -/
def shape (s : Mem α × F α τ) : List Nat := (data s.1 s.2).2.2.shape

/-- values after all that was written: the last one counts -/
def after (f : List Nat → α) : List (Op α) → List Nat → α
  | [] => f
  | .write ix v :: l => after (fun jx => if jx = ix then v else f jx) l
  | _ :: l => after f l

/-- all that is written is inside of the shape -/
def Within (shape : List Nat) (l : List (Op α)) : Prop := ∀ ix v, Op.write ix v ∈ l → Inside ix shape

/-- elements have places of their own -/
def Distinct (a : Nd) : Prop := ∀ ix jx, Inside ix a.shape → Inside jx a.shape → addr a ix = addr a jx → ix = jx

/-- arrays of the field are there -/
def Sound (m : Mem α) (f : F α τ) : Prop :=
  (∀ a, f.cache = some a → a.buf < m.next) ∧ (∀ a, f.src = .arr a → a.buf < m.next)

end Viscid.Spec.FieldWrites

namespace Viscid.Props
open Viscid.Contig (Nd Mem fetch store alloc addr)
open Viscid.FieldWrites Viscid.Spec.FieldWrites
open Viscid.Spec.Contig (Inside)

namespace FW

theorem fetch_store {m : Mem α} {a : Nd} (hd : Distinct a) {ix jx : List Nat} (hi : Inside ix a.shape) (hj : Inside jx a.shape) (v : α) :
    fetch (store m a ix v) a jx = if jx = ix then v else fetch m a jx := by
  by_cases h : jx = ix
  · subst h; simp [fetch, store]
  · have : addr a jx ≠ addr a ix := fun e => h (hd _ _ hj hi e)
    simp [fetch, store, this, h]

/-- arrays in memory that are their own source -/
structure Own (m : Mem α) (f : F α τ) (a : Nd) (g : List Nat → α) : Prop where
  src : f.src = .arr a
  cache : f.cache = none ∨ f.cache = some a
  zyx : f.zyx = false
  copy : f.copy = false
  vals : ∀ ix, Inside ix a.shape → fetch m a ix = g ix

theorem data_own {m : Mem α} {f : F α τ} {a : Nd} {g : List Nat → α} (h : Own m f a g) : data m f = (m, { f with cache := some a }, a) := by
  obtain ⟨shape, src, cache, zyx, copy, time⟩ := f
  obtain ⟨h1, h2, h3, h4, -⟩ := h
  simp only at h1 h2 h3 h4
  subst h1 h3 h4
  rcases h2 with rfl | rfl
  · simp [data, fill]
  · simp [data]

theorem own_run {a : Nd} (hd : Distinct a) : ∀ (l : List (Op α)) (m : Mem α) (f : F α τ) (g : List Nat → α), Own m f a g → Within a.shape l →
    Own (run (m, f) l).1 (run (m, f) l).2 a (after g l) := by
  intro l
  induction l with
  | nil => intro m f g h _; exact h
  | cons o l ih =>
    intro m f g h hw
    have hw' : Within a.shape l := fun ix v hm => hw ix v (List.mem_cons_of_mem _ hm)
    have e := data_own h
    cases o with
    | read => exact ih m { f with cache := some a } g ⟨h.src, Or.inr rfl, h.zyx, h.copy, h.vals⟩ hw' |> (by simpa only [run, List.foldl_cons, step, e, after] using ·)
    | write ix v =>
      have hi := hw ix v List.mem_cons_self
      have := ih (store m a ix v) { f with cache := some a } (fun jx => if jx = ix then v else g jx) ⟨h.src, Or.inr rfl, h.zyx, h.copy, fun jx hj => by
        rw [fetch_store hd hi hj, h.vals jx hj]⟩ hw'
      simpa only [run, List.foldl_cons, step, e, after] using this
    | clear =>
      have := ih m { f with cache := none } g ⟨h.src, Or.inl rfl, h.zyx, h.copy, h.vals⟩ hw'
      simpa only [run, List.foldl_cons, step, after] using this
    | forget =>
      have := ih m { f with cache := some a, src := .arr a } g ⟨rfl, Or.inr rfl, h.zyx, h.copy, h.vals⟩ hw'
      simpa only [run, List.foldl_cons, step, e, after] using this

/-- what a field may touch: buffers that are its own, or new -/
structure Frame (n : Nat) (own : Nat → Prop) (m0 m : Mem α) (f : F α τ) : Prop where
  grown : n ≤ m.next
  kept : ∀ b < n, ¬ own b → ∀ k, m.val b k = m0.val b k
  cache : ∀ a, f.cache = some a → own a.buf ∨ n ≤ a.buf
  src : ∀ a, f.src = .arr a → own a.buf ∨ n ≤ a.buf

theorem fill_frame {n : Nat} {own : Nat → Prop} {m0 m : Mem α} {f : F α τ} (h : Frame n own m0 m f) :
    n ≤ (fill m f).1.next ∧ (∀ b < n, ¬ own b → ∀ k, (fill m f).1.val b k = m0.val b k) ∧ (own (fill m f).2.buf ∨ n ≤ (fill m f).2.buf) := by
  have new : ∀ (s : List Nat) (g : List Nat → α), n ≤ (alloc m s g).1.next ∧ (∀ b < n, ¬ own b → ∀ k, (alloc m s g).1.val b k = m0.val b k) ∧
      (own (alloc m s g).2.buf ∨ n ≤ (alloc m s g).2.buf) := by
    intro s g
    refine ⟨Nat.le_succ_of_le h.grown, fun b hb ho k => ?_, Or.inr h.grown⟩
    have : b ≠ m.next := by have := h.grown; omega
    simp only [alloc, this, if_false]
    exact h.kept b hb ho k
  unfold fill
  cases hs : f.src with
  | arr a =>
    simp only
    split
    · exact new _ _
    · split
      · exact new _ _
      · exact ⟨h.grown, h.kept, h.src a hs⟩
  | file g => exact new _ _

theorem data_frame {n : Nat} {own : Nat → Prop} {m0 m : Mem α} {f : F α τ} (h : Frame n own m0 m f) :
    Frame n own m0 (data m f).1 (data m f).2.1 ∧ (own (data m f).2.2.buf ∨ n ≤ (data m f).2.2.buf) := by
  unfold data
  cases hc : f.cache with
  | some a => exact ⟨h, h.cache a hc⟩
  | none =>
    obtain ⟨h1, h2, h3⟩ := fill_frame h
    refine ⟨⟨h1, h2, fun a e => ?_, h.src⟩, h3⟩
    simp only [Option.some.injEq] at e
    subst e
    exact h3

theorem frame_run {n : Nat} {own : Nat → Prop} {m0 : Mem α} : ∀ (l : List (Op α)) (m : Mem α) (f : F α τ), Frame n own m0 m f →
    Frame n own m0 (run (m, f) l).1 (run (m, f) l).2 := by
  intro l
  induction l with
  | nil => intro m f h; exact h
  | cons o l ih =>
    intro m f h
    obtain ⟨h1, h2⟩ := data_frame h
    refine ih _ _ ?_
    cases o with
    | read => exact h1
    | write ix v =>
      refine ⟨h1.grown, fun b hb ho k => ?_, h1.cache, h1.src⟩
      have : b ≠ (data m f).2.2.buf := fun e => by
        rcases h2 with h2 | h2
        · exact ho (e ▸ h2)
        · omega
      simp only [store, this, false_and, if_false]
      exact h1.kept b hb ho k
    | clear => exact ⟨h.grown, h.kept, by simp, h.src⟩
    | forget =>
      refine ⟨h1.grown, h1.kept, h1.cache, fun a e => ?_⟩
      simp only [Src.arr.injEq] at e
      subst e
      exact h2

theorem distinct_alloc (m : Mem α) (s : List Nat) (f : List Nat → α) : Distinct (alloc m s f).2 := by
  intro ix jx hi hj e
  have h : ∀ kx, Inside kx s → addr (alloc m s f).2 kx = Layout.ravel s kx := by
    intro kx hk
    have := CG.dot_c s kx hk
    simp only [CG.dot] at this
    simp only [addr, alloc, this]; omega
  rw [h ix hi, h jx hj] at e
  have e' : Layout.ravel s ix = Layout.ravel s jx := by exact_mod_cast e
  rw [← CG.unravel_ravel s ix hi, ← CG.unravel_ravel s jx hj, e']

end FW
open FW

/-- **C266, fields made from arrays** (without `copy`). Whatever is read, written, cleared and forgotten, in any order, every element is what was last written to it. -/
theorem C266_array_partial (m : Mem α) (a : Nd) (hd : Distinct a) (t : τ) (l : List (Op α)) (hw : Within a.shape l) (ix : List Nat) (hi : Inside ix a.shape) :
    val (run (m, ⟨a.shape, .arr a, none, false, false, t⟩) l) ix = after (fetch m a) l ix := by
  have h := own_run hd l m (⟨a.shape, .arr a, none, false, false, t⟩ : F α τ) (fetch m a) ⟨rfl, Or.inl rfl, rfl, rfl, fun _ _ => rfl⟩ hw
  rw [val, data_own h]
  exact h.vals ix hi

/-- **C266, after `forget_source`** (without `copy`, and not zyx): so it is for data from anywhere. -/
theorem C266_forget_partial (m : Mem α) (f : F α τ) (hz : f.zyx = false) (hc : f.copy = false) (hd : Distinct (data m f).2.2) (l : List (Op α))
    (hw : Within (shape (m, f)) l) (ix : List Nat) (hi : Inside ix (shape (m, f))) :
    val (run (m, f) (.forget :: l)) ix = after (val (m, f)) l ix := by
  have hcache : (data m f).2.1.cache = some (data m f).2.2 ∧ (data m f).2.1.zyx = false ∧ (data m f).2.1.copy = false := by
    unfold data
    cases h : f.cache with
    | some a => exact ⟨h, hz, hc⟩
    | none => exact ⟨rfl, hz, hc⟩
  have h := own_run hd l (data m f).1 { (data m f).2.1 with src := .arr (data m f).2.2 } (val (m, f))
    ⟨rfl, Or.inr hcache.1, hcache.2.1, hcache.2.2, fun _ _ => rfl⟩ hw
  have e : run (m, f) (.forget :: l) = run ((data m f).1, { (data m f).2.1 with src := .arr (data m f).2.2 }) l := rfl
  rw [e, val, data_own h]
  exact h.vals ix hi

/-- A case: a file of three by two, whose data has places of its own; and an array of which only every second element is taken -/
example : Distinct (data (⟨fun _ k => k, 1⟩ : Mem Int) (⟨[3, 2], .file (fun _ => 7), none, false, false, ()⟩ : F Int Unit)).2.2 :=
  distinct_alloc (⟨fun _ k => k, 1⟩ : Mem Int) [3, 2] (fun _ => 7)
example : Distinct ⟨0, 5, [3], [-2]⟩ := by
  intro ix jx hi hj e
  cases hi with
  | cons _ hi => cases hi; cases hj with
    | cons _ hj => cases hj; simp [addr] at e; simp; omega

/-- **C266 fails** for data from files: what was written is gone once the cache is cleared, also by the end of a `with`. -/
theorem C266_file_violated (m : Mem α) (zyx copy : Bool) (s : List Nat) (g : List Nat → α) (t : τ) (ix : List Nat) (hi : Inside ix s) (v : α) :
    val (run (m, ⟨s, .file g, none, zyx, copy, t⟩) [.write ix v]) ix = v ∧
    val (run (m, ⟨s, .file g, none, zyx, copy, t⟩) [.write ix v, .clear]) ix = g ix := by
  constructor
  · simp [val, run, step, data, fetch, store]
  · exact CG.get_alloc _ s g hi

/-- **C266 fails** after `forget_source` if the file was zyx, as all files of the readers are: data is xyz by then, but the field still says that its source is zyx. Once the cache is
cleared, elements are mixed up, although nothing was written; a field of `n` by `n` is transposed. -/
theorem C266_zyx_violated (m : Mem α) (copy : Bool) (n : Nat) (g : List Nat → α) (t : τ) (i j : Nat) (hi : i < n) (hj : j < n) :
    val (run (m, ⟨[n, n], .file g, none, true, copy, t⟩) [.forget]) [i, j] = g [i, j] ∧
    val (run (m, ⟨[n, n], .file g, none, true, copy, t⟩) [.forget, .clear]) [i, j] = g [j, i] := by
  have ins : ∀ {a b : Nat}, a < n → b < n → Inside [a, b] [n, n] := fun ha hb => .cons ha (.cons hb .nil)
  constructor
  · exact CG.get_alloc _ [n, n] g (ins hi hj)
  · have e := CG.get_alloc (alloc m [n, n] g).1 [n, n] (fun ix => fetch (alloc m [n, n] g).1 (alloc m [n, n] g).2
      (Layout.unravel [n, n].reverse (Layout.ravel [n, n] ix)).reverse) (ins hi hj)
    refine Eq.trans e ?_
    have hr : [n, n].reverse = [n, n] := rfl
    rw [hr, CG.unravel_ravel [n, n] [i, j] (ins hi hj)]
    exact CG.get_alloc m [n, n] g (ins hj hi)

/-- The same for two by three: a row that was 0, 1, 2 becomes 0, 3, 1 -/
example : (List.range 3).map (fun j => val (run ((⟨fun _ k => k, 1⟩ : Mem Int), (⟨[2, 3], .file (fun ix => (Layout.ravel [2, 3] ix : Int)), none, true, false, ()⟩ : F Int Unit))
    [.forget, .clear]) [0, j]) = [0, 3, 1] := by decide +kernel

/-- **C266 fails** with `copy`, as for fields of `rewrap_field`: also after `forget_source`, only what is written until the cache is first cleared is kept. -/
theorem C266_copy_violated (m : Mem α) (a : Nd) (t : τ) (ix : List Nat) (hi : Inside ix a.shape) (v w : α) :
    val (run (m, ⟨a.shape, .arr a, none, false, true, t⟩) [.forget, .write ix v]) ix = v ∧
    val (run (m, ⟨a.shape, .arr a, none, false, true, t⟩) [.forget, .write ix v, .clear]) ix = v ∧
    val (run (m, ⟨a.shape, .arr a, none, false, true, t⟩) [.forget, .write ix v, .clear, .write ix w]) ix = w ∧
    val (run (m, ⟨a.shape, .arr a, none, false, true, t⟩) [.forget, .write ix v, .clear, .write ix w, .clear]) ix = v := by
  refine ⟨?_, ?_, ?_, ?_⟩
  · simp [val, run, step, data, fill, fetch, store]
  · simp only [val, run, List.foldl_cons, List.foldl_nil, step, data, fill, if_true, Bool.false_eq_true, if_false]
    rw [CG.get_alloc _ _ _ (by simpa [alloc] using hi)]
    simp [fetch, store]
  · simp [val, run, step, data, fill, fetch, store]
  · simp only [val, run, List.foldl_cons, List.foldl_nil, step, data, fill, if_true, Bool.false_eq_true, if_false]
    rw [CG.get_alloc _ _ _ (by simpa [alloc] using hi)]
    simp [fetch, store, alloc]

/-- **C266, `rewrap_field`** gives a field with the values of the other. Whatever is done with either of them, the other one keeps its values. -/
theorem C266_rewrap (zero : τ) (m : Mem α) (f : F α τ) (hf : Sound m f) :
    ∃ m' f' g, rewrap zero m f = (m', f', g) ∧ shape (m', g) = shape (m, f) ∧
      ∀ ix, Inside ix (shape (m, f)) → val (m', g) ix = val (m, f) ix ∧ val (m', f') ix = val (m, f) ix ∧
        ∀ l, val ((run (m', f') l).1, g) ix = val (m, f) ix ∧ val ((run (m', g) l).1, f') ix = val (m, f) ix := by
  have hbuf : (data m f).2.2.buf < (data m f).1.next ∧ (∀ a, (data m f).2.1.src = .arr a → a.buf < (data m f).1.next) ∧
      (data m f).2.1.cache = some (data m f).2.2 := by
    unfold data
    cases hc : f.cache with
    | some a => exact ⟨hf.1 a hc, fun b hb => hf.2 b hb, hc⟩
    | none =>
      refine ⟨?_, fun a ha => ?_, rfl⟩
      · unfold fill
        cases hs : f.src with
        | arr a =>
          simp only
          split
          · simp [alloc]
          · split
            · simp [alloc]
            · exact hf.2 a hs
        | file g => simp [alloc]
      · have := hf.2 a ha
        have : m.next ≤ (fill m f).1.next := by
          unfold fill
          cases hs : f.src with
          | arr a =>
            simp only
            split
            · simp [alloc]
            · split <;> simp [alloc]
          | file g => simp [alloc]
        show a.buf < (fill m f).1.next
        omega
  obtain ⟨hb, hsrc, hcache⟩ := hbuf
  refine ⟨(alloc (data m f).1 (data m f).2.2.shape (fetch (data m f).1 (data m f).2.2)).1, (data m f).2.1,
    ⟨f.shape, .arr (alloc (data m f).1 (data m f).2.2.shape (fetch (data m f).1 (data m f).2.2)).2,
     some (alloc (data m f).1 (data m f).2.2.shape (fetch (data m f).1 (data m f).2.2)).2, false, true, zero⟩, rfl, rfl, ?_⟩
  intro ix hi
  have hval : val (m, f) = fetch (data m f).1 (data m f).2.2 := rfl
  have hshape : shape (m, f) = (data m f).2.2.shape := rfl
  rw [hval]
  rw [hshape] at hi
  have hold : ∀ (m2 : Mem α), data m2 (data m f).2.1 = (m2, (data m f).2.1, (data m f).2.2) := by
    intro m2
    generalize (data m f).2.1 = f2 at hcache
    simp only [data, hcache]
  generalize (data m f).2.1 = f2 at *
  generalize (data m f).2.2 = d at *
  generalize (data m f).1 = m1 at *
  have hne : d.buf ≠ m1.next := by omega
  have hcopy : fetch (alloc m1 d.shape (fetch m1 d)).1 (alloc m1 d.shape (fetch m1 d)).2 ix = fetch m1 d ix := CG.get_alloc _ _ _ hi
  have hkeep : fetch (alloc m1 d.shape (fetch m1 d)).1 d ix = fetch m1 d ix := by
    simp [fetch, alloc, hne]
  refine ⟨hcopy, by simp only [val, hold]; exact hkeep, fun l => ⟨?_, ?_⟩⟩
  · have fr := frame_run (n := m1.next + 1) (own := fun b => b < m1.next) (m0 := (alloc m1 d.shape (fetch m1 d)).1) l (alloc m1 d.shape (fetch m1 d)).1 f2
      ⟨Nat.le_refl _, fun _ _ _ _ => rfl, fun a e => Or.inl (by rw [hcache, Option.some.injEq] at e; subst e; exact hb), fun a e => Or.inl (hsrc a e)⟩
    show fetch (run _ l).1 (alloc m1 d.shape (fetch m1 d)).2 ix = _
    rw [← hcopy]
    exact fr.kept m1.next (by omega) (by omega) _
  · have fr := frame_run (n := m1.next + 1) (own := fun b => b = m1.next) (m0 := (alloc m1 d.shape (fetch m1 d)).1) l (alloc m1 d.shape (fetch m1 d)).1
      (⟨f.shape, .arr (alloc m1 d.shape (fetch m1 d)).2, some (alloc m1 d.shape (fetch m1 d)).2, false, true, zero⟩ : F α τ)
      ⟨Nat.le_refl _, fun _ _ _ _ => rfl, fun a e => Or.inl (by simp only [Option.some.injEq] at e; subst e; rfl),
       fun a e => Or.inl (by simp only [Src.arr.injEq] at e; subst e; rfl)⟩
    simp only [val, hold]
    rw [← hkeep]
    exact fr.kept d.buf (by omega) hne _

example : Sound (⟨fun _ k => k, 1⟩ : Mem Int) (⟨[3, 2], .arr ⟨0, 0, [3, 2], [1, 3]⟩, none, false, false, ()⟩ : F Int Unit) := by
  refine ⟨by simp, ?_⟩
  intro a e
  cases e
  decide

/-- **C266 fails** for the time: the field of `rewrap_field` has time zero, whatever the time of the other. -/
theorem C266_time_violated (zero : τ) (m : Mem α) (f : F α τ) (h : f.time ≠ zero) : (rewrap zero m f).2.2.time ≠ f.time := by
  simp only [rewrap, step, data]
  exact fun e => h e.symm

example : (⟨[2], .file (fun _ => 0), none, true, false, 5⟩ : F Int Nat).time ≠ 0 := by decide

end Viscid.Props
