import Verif.Model.VecLoad
import Verif.Props.FieldWrites
/-!
# C269: vector fields made of scalar fields
-/
namespace Viscid.Props
open Viscid.Contig (Nd Mem fetch store alloc addr)
open Viscid.FieldWrites Viscid.Spec.FieldWrites Viscid.VecLoad
open Viscid.Spec.Contig (Inside)

namespace VL

/-- memory has only got new arrays -/
def Ext (m m' : Mem α) : Prop := m.next ≤ m'.next ∧ ∀ b < m.next, ∀ k, m'.val b k = m.val b k

theorem Ext.trans {a b c : Mem α} (h1 : Ext a b) (h2 : Ext b c) : Ext a c :=
  ⟨Nat.le_trans h1.1 h2.1, fun n hn k => by rw [h2.2 n (Nat.lt_of_lt_of_le hn h1.1), h1.2 n hn]⟩

theorem ext_alloc (m : Mem α) (s : List Nat) (f : List Nat → α) : Ext m (alloc m s f).1 := by
  refine ⟨Nat.le_succ _, fun b hb k => ?_⟩
  have : b ≠ m.next := by omega
  simp [alloc, this]

theorem ext_fill (m : Mem α) (f : F α τ) : Ext m (fill m f).1 := by
  unfold fill
  split
  · split
    · exact ext_alloc _ _ _
    · split
      · exact ext_alloc _ _ _
      · exact ⟨Nat.le_refl _, fun _ _ _ => rfl⟩
  · exact ext_alloc _ _ _

theorem ext_data (m : Mem α) (f : F α τ) : Ext m (data m f).1 := by
  unfold data
  split
  · exact ⟨Nat.le_refl _, fun _ _ _ => rfl⟩
  · exact ext_fill m f

theorem fetch_ext {m m' : Mem α} (h : Ext m m') {a : Nd} (ha : a.buf < m.next) (ix : List Nat) : fetch m' a ix = fetch m a ix := h.2 _ ha _

theorem sound_ext {m m' : Mem α} (h : Ext m m') {f : F α τ} (hf : Sound m f) : Sound m' f :=
  ⟨fun a e => Nat.lt_of_lt_of_le (hf.1 a e) h.1, fun a e => Nat.lt_of_lt_of_le (hf.2 a e) h.1⟩

theorem buf_fill {m : Mem α} {f : F α τ} (hf : Sound m f) : (fill m f).2.buf < (fill m f).1.next := by
  unfold fill
  cases hs : f.src with
  | arr a =>
    simp only
    split
    · simp [alloc]
    · split
      · simp [alloc]
      · exact hf.2 a hs
  | file g => simp [alloc]

theorem buf_data {m : Mem α} {f : F α τ} (hf : Sound m f) : (data m f).2.2.buf < (data m f).1.next := by
  unfold data
  cases hc : f.cache with
  | some a => exact hf.1 a hc
  | none => exact buf_fill hf

theorem shape_ext (m m' : Mem α) (f : F α τ) : shape (m', f) = shape (m, f) := by
  simp only [shape, data]
  cases f.cache with
  | some a => rfl
  | none =>
    simp only [fill]
    cases f.src with
    | arr a =>
      simp only
      split
      · rfl
      · split <;> rfl
    | file g => rfl

theorem val_ext {m m' : Mem α} (h : Ext m m') {f : F α τ} (hf : Sound m f) {ix : List Nat} (hi : Inside ix (shape (m, f))) : val (m', f) ix = val (m, f) ix := by
  obtain ⟨s, src, cache, zyx, copy, t⟩ := f
  cases cache with
  | some a => exact fetch_ext h (hf.1 a rfl) ix
  | none =>
    cases src with
    | file g =>
      have e : ∀ (n : Mem α), val (n, (⟨s, .file g, none, zyx, copy, t⟩ : F α τ)) ix = g ix := fun n => CG.get_alloc n s g hi
      rw [e, e]
    | arr a =>
      have ha := hf.2 a rfl
      cases zyx with
      | true =>
        have e : ∀ (n : Mem α), val (n, (⟨s, .arr a, none, true, copy, t⟩ : F α τ)) ix = fetch n a (Layout.unravel a.shape.reverse (Layout.ravel s ix)).reverse :=
          fun n => CG.get_alloc n s (fun ix => fetch n a (Layout.unravel a.shape.reverse (Layout.ravel s ix)).reverse) hi
        rw [e, e, fetch_ext h ha]
      | false =>
        cases copy with
        | true =>
          have e : ∀ (n : Mem α), val (n, (⟨s, .arr a, none, false, true, t⟩ : F α τ)) ix = fetch n a ix := fun n => CG.get_alloc n a.shape (fetch n a) hi
          rw [e, e, fetch_ext h ha]
        | false => exact fetch_ext h ha ix

theorem clear_data (m : Mem α) (f : F α τ) : (⟨(data m f).2.1.shape, (data m f).2.1.src, none, (data m f).2.1.zyx, (data m f).2.1.copy, (data m f).2.1.time⟩ : F α τ) =
    ⟨f.shape, f.src, none, f.zyx, f.copy, f.time⟩ := by
  unfold data
  cases f.cache <;> rfl

theorem loadAll_spec : ∀ (cs : List (F α τ)) (m : Mem α), (∀ f ∈ cs, Sound m f) →
    Ext m (loadAll m cs).1 ∧ (loadAll m cs).2.1 = cs.map (fun f => ⟨f.shape, f.src, none, f.zyx, f.copy, f.time⟩) ∧ (loadAll m cs).2.2.length = cs.length ∧
    ∀ (i : Nat) f, cs[i]? = some f → ∃ a, (loadAll m cs).2.2[i]? = some a ∧ a.shape = shape (m, f) ∧ a.buf < (loadAll m cs).1.next ∧
      ∀ jx, Inside jx (shape (m, f)) → fetch (loadAll m cs).1 a jx = val (m, f) jx := by
  intro cs
  induction cs with
  | nil => intro m _; exact ⟨⟨Nat.le_refl _, fun _ _ _ => rfl⟩, rfl, rfl, by simp⟩
  | cons c cs ih =>
    intro m hs
    have hc := hs c List.mem_cons_self
    have hx := ext_data m c
    obtain ⟨h1, h2, h3, h4⟩ := ih (data m c).1 fun f hf => sound_ext hx (hs f (List.mem_cons_of_mem _ hf))
    refine ⟨hx.trans h1, ?_, by simp [loadAll, h3], ?_⟩
    · simp only [loadAll, List.map_cons, h2]
      rw [clear_data]
    · intro i f hf
      cases i with
      | zero =>
        simp only [List.getElem?_cons_zero, Option.some.injEq] at hf
        subst hf
        exact ⟨(data m c).2.2, rfl, rfl, Nat.lt_of_lt_of_le (buf_data hc) h1.1, fun jx _ => fetch_ext h1 (buf_data hc) jx⟩
      | succ i =>
        simp only [List.getElem?_cons_succ] at hf
        obtain ⟨a, e1, e2, e3, e4⟩ := h4 i f hf
        have hsf := hs f (List.mem_cons_of_mem _ (List.mem_of_getElem? hf))
        have esh := shape_ext m (data m c).1 f
        exact ⟨a, by simpa [loadAll] using e1, by rw [e2, esh], e3, fun jx hj => by
          have := e4 jx (by rw [esh]; exact hj)
          rw [val_ext hx hsf hj] at this
          exact this⟩

end VL
open VL

/-- **C269, values.** The data of a vector field made of scalar fields is that of the components, whatever they were made from and whether they were loaded; and it stays so whatever is done
with a component afterwards. -/
theorem C269_values (m : Mem α) (cs : List (F α τ)) (s : List Nat) (hs : ∀ f ∈ cs, Sound m f ∧ shape (m, f) = s) (i : Nat) (f : F α τ) (hf : cs[i]? = some f) :
    ∃ m' cs' v, vecLoad m cs = (m', cs', v) ∧ v.shape = cs.length :: s ∧ cs'.length = cs.length ∧
      ∀ jx, Inside jx s → fetch m' v (i :: jx) = val (m, f) jx ∧ ∀ g ∈ cs', ∀ l, fetch (run (m', g) l).1 v (i :: jx) = val (m, f) jx := by
  obtain ⟨h1, h2, h3, h4⟩ := loadAll_spec cs m fun f hf => (hs f hf).1
  refine ⟨_, _, _, rfl, ?_, by simp [h2], ?_⟩
  · have hne : cs ≠ [] := by rintro rfl; simp at hf
    cases hcs : cs with
    | nil => exact absurd hcs hne
    | cons c r =>
      obtain ⟨a, e1, e2, -, -⟩ := h4 0 c (by simp [hcs])
      have : ((loadAll m cs).2.2.headD ⟨0, 0, [], []⟩) = a := by
        cases hl : (loadAll m cs).2.2 with
        | nil => rw [hl] at e1; simp at e1
        | cons b l => rw [hl] at e1; simpa using e1
      rw [← hcs]
      simp only [stack, alloc, this, e2, h3, (hs c (by simp [hcs])).2]
  · intro jx hj
    obtain ⟨a, e1, e2, e3, e4⟩ := h4 i f hf
    have hsf := (hs f (List.mem_of_getElem? hf)).2
    have hi : i < cs.length := (List.getElem?_eq_some_iff.1 hf).1
    have hhead : ((loadAll m cs).2.2.headD ⟨0, 0, [], []⟩).shape = s := by
      cases hcs : cs with
      | nil => simp [hcs] at hi
      | cons c r =>
        obtain ⟨b, b1, b2, -, -⟩ := h4 0 c (by simp [hcs])
        rw [← hcs]
        cases hl : (loadAll m cs).2.2 with
        | nil => rw [hl] at b1; simp at b1
        | cons x l =>
          rw [hl] at b1
          simp only [List.getElem?_cons_zero, Option.some.injEq] at b1
          subst b1
          simp only [List.headD_cons, b2, (hs c (by simp [hcs])).2]
    have hv : fetch (stack (loadAll m cs).1 (loadAll m cs).2.2).1 (stack (loadAll m cs).1 (loadAll m cs).2.2).2 (i :: jx) = val (m, f) jx := by
      unfold stack
      rw [CG.get_alloc _ _ _ (.cons (by rw [h3]; exact hi) (by rw [hhead]; exact hj))]
      simp only [List.headD_cons, List.tail_cons, List.getD_eq_getElem?_getD, e1, Option.getD_some]
      exact e4 jx (by rw [hsf]; exact hj)
    refine ⟨hv, fun g hg l => ?_⟩
    have hb : ∀ b, g.src = .arr b → b.buf < (loadAll m cs).1.next := by
      intro b eb
      rw [h2] at hg
      obtain ⟨f', hf', rfl⟩ := List.mem_map.1 hg
      exact Nat.lt_of_lt_of_le ((hs f' hf').1.2 b eb) h1.1
    have hcache : g.cache = none := by
      rw [h2] at hg
      obtain ⟨f', hf', rfl⟩ := List.mem_map.1 hg
      rfl
    have fr := FW.frame_run (n := (loadAll m cs).1.next + 1) (own := fun b => b < (loadAll m cs).1.next) (m0 := (stack (loadAll m cs).1 (loadAll m cs).2.2).1) l
      (stack (loadAll m cs).1 (loadAll m cs).2.2).1 g ⟨Nat.le_refl _, fun _ _ _ _ => rfl, (fun a e => by rw [hcache] at e; cases e), fun a e => Or.inl (hb a e)⟩
    rw [← hv]
    exact fr.kept (loadAll m cs).1.next (by omega) (by omega) _

/-- **C269, components that are arrays** (without `copy`, not zyx) keep their values when the vector field is loaded. -/
theorem C269_keep_partial (m : Mem α) (cs : List (F α τ)) (hs : ∀ f ∈ cs, Sound m f) (i : Nat) (a : Nd) (c : Option Nd) (t : τ) (hc : c = none ∨ c = some a)
    (hf : cs[i]? = some ⟨a.shape, .arr a, c, false, false, t⟩) :
    ∃ m' cs' v f', vecLoad m cs = (m', cs', v) ∧ cs'[i]? = some f' ∧ ∀ jx, Inside jx a.shape → val (m', f') jx = val (m, (⟨a.shape, .arr a, c, false, false, t⟩ : F α τ)) jx := by
  obtain ⟨h1, h2, h3, -⟩ := loadAll_spec cs m hs
  have ha := (hs _ (List.mem_of_getElem? hf)).2 a rfl
  refine ⟨_, _, _, ⟨a.shape, .arr a, none, false, false, t⟩, rfl, by rw [h2]; simp [hf], fun jx _ => ?_⟩
  have hx : Ext m (stack (loadAll m cs).1 (loadAll m cs).2.2).1 := h1.trans (ext_alloc _ _ _)
  have e : val (m, (⟨a.shape, .arr a, c, false, false, t⟩ : F α τ)) jx = fetch m a jx := by
    rcases hc with rfl | rfl <;> rfl
  rw [e]
  exact fetch_ext hx ha jx

/-- **C269 fails** for components from files: once the vector field is loaded, the component has the values of the file again, whatever was in it. What was written to the component is then in
the vector field only. -/
theorem C269_file_violated (m : Mem α) (cs : List (F α τ)) (hs : ∀ f ∈ cs, Sound m f) (i : Nat) (f : F α τ) (hf : cs[i]? = some f) (g : List Nat → α) (hg : f.src = .file g) :
    ∃ m' cs' v f', vecLoad m cs = (m', cs', v) ∧ cs'[i]? = some f' ∧ ∀ jx, Inside jx f.shape → val (m', f') jx = g jx := by
  obtain ⟨h1, h2, h3, -⟩ := loadAll_spec cs m hs
  refine ⟨_, _, _, ⟨f.shape, .file g, none, f.zyx, f.copy, f.time⟩, rfl, by rw [h2]; simp [hf, hg], fun jx hj => ?_⟩
  exact CG.get_alloc _ f.shape g hj

/-- A case: a component from a file to which 5 was written, and one that is an array; the first has 5 before, 0 afterwards -/
example :
    let m : Mem Int := ⟨fun _ k => k, 1⟩
    let w := run (m, (⟨[2], .file (fun _ => 0), none, true, false, ()⟩ : F Int Unit)) [.write [1] 5]
    let cs : List (F Int Unit) := [w.2, ⟨[2], .arr ⟨0, 1, [2], [-1]⟩, none, false, false, ()⟩]
    (∀ f ∈ cs, Sound w.1 f ∧ shape (w.1, f) = [2]) ∧ val (w.1, w.2) [1] = 5 ∧
    (vecLoad w.1 cs).2.1.map (fun f => val ((vecLoad w.1 cs).1, f) [1]) = [0, 0] ∧ fetch (vecLoad w.1 cs).1 (vecLoad w.1 cs).2.2 [0, 1] = 5 := by
  refine ⟨?_, by decide +kernel, by decide +kernel, by decide +kernel⟩
  intro f hf
  simp only [List.mem_cons, List.not_mem_nil, or_false] at hf
  rcases hf with rfl | rfl
  · refine ⟨⟨?_, ?_⟩, by decide +kernel⟩
    · intro a e; cases e; decide +kernel
    · intro a e; cases e
  · refine ⟨⟨?_, ?_⟩, by decide +kernel⟩
    · intro a e; cases e
    · intro a e; cases e; decide +kernel

end Viscid.Props
