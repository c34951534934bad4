import Mathlib.Data.List.Forall2
import Verif.Lemmas.Series
/-! Series of files (C229) and reloading (C230) -/
namespace Viscid.Props
open Viscid.Series Viscid.Spec.Series

namespace SR

variable {α : Type}

theorem isXdmf_eq (k : Kind) : k.isXdmf = xdmf k := by cases k <;> rfl

/-- The number in the whole name is that in its last part -/
theorem full_num {k : Kind} {p : Path} {g : Groups} (hp : Plain p) (h : Fits k p.base g) : (detect k p.full).bind Groups.num = g.num := by
  obtain ⟨a, b, x, ha, hb, hs, ht, hn, hr⟩ := h
  have : detect k p.full = some ⟨p.dir ++ '/' :: (a ++ g.run), g.ty, g.num⟩ := by
    rw [detect_iff]
    refine ⟨[], b, x, by simp, hb, ?_, ?_, ?_, ?_⟩
    · rw [Path.full, hs]; simp
    · cases k <;> exact ht
    · intro c hc
      simp only [List.mem_append, List.mem_cons] at hc
      rcases hc with hc | rfl | hc | hc
      · exact hp.2 c (List.mem_append.2 (.inl hc))
      · decide
      · exact hp.2 c (by rw [hs]; simp [hc])
      · exact hn c hc
    · intro c hc
      have hsl : ¬ Space '/' := by unfold Space; decide
      rcases hp.1 with h | h
      · simp only [h, List.nil_append, List.head?_cons, Option.some.injEq] at hc
        subst hc; exact hsl
      · cases hd : p.dir with
        | nil => rw [hd] at h; simp at h
        | cons d l =>
          rw [hd] at h
          simp only [hd, List.cons_append, List.head?_cons, Option.some.injEq] at hc h
          subst hc; subst h; exact hsl
  rw [this]; rfl

/-- Names with the time in them have a number -/
theorem has_num {k : Kind} (hk : timeInName k = true) {s : Text} {g : Groups} (h : Fits k s g) : ∃ n, g.num = some n := by
  obtain ⟨a, b, x, -, -, -, ht, -, -⟩ := h
  cases k <;> simp only [timeInName, Bool.false_eq_true] at hk
  · exact ⟨_, ht.choose_spec.1⟩
  · exact ⟨_, ht.choose_spec.1⟩
  · exact ⟨_, ht.choose_spec.choose_spec.1⟩
  · exact ⟨_, ht.choose_spec.choose_spec.1⟩

theorem fits_unique {k : Kind} {s : Text} {g g' : Groups} (h : Fits k s g) (h' : Fits k s g') : g = g' := by
  rw [← detect_iff] at h h'
  rw [h] at h'
  exact Option.some.inj h'

theorem name_time {k : Kind} {s : Text} {g g' : Groups} {n n' : Text} (hg : Fits k s g) (hn : g.num = some n) (h1 : Fits k s g') (h2 : g'.num = some n') : ((toNum n : ℕ) : ℚ) = value n' := by
  have := fits_unique hg h1
  subst this
  rw [hn] at h2
  obtain rfl := Option.some.inj h2
  rw [toNum_value]

theorem f2_right {A B : Type} {R : A → B → Prop} {l : List A} {m : List B} (h : List.Forall₂ R l m) {b : B} (hb : b ∈ m) : ∃ a ∈ l, R a b := by
  induction h with
  | nil => simp at hb
  | cons r _ ih =>
    rcases List.mem_cons.1 hb with rfl | hb
    · exact ⟨_, List.mem_cons_self, r⟩
    · obtain ⟨a, ha, h⟩ := ih hb
      exact ⟨a, List.mem_cons_of_mem _ ha, h⟩

theorem f2_left {A B : Type} {R : A → B → Prop} {l : List A} {m : List B} (h : List.Forall₂ R l m) {a : A} (ha : a ∈ l) : ∃ b ∈ m, R a b := by
  induction h with
  | nil => simp at ha
  | cons r _ ih =>
    rcases List.mem_cons.1 ha with rfl | ha
    · exact ⟨_, List.mem_cons_self, r⟩
    · obtain ⟨b, hb, h⟩ := ih ha
      exact ⟨b, List.mem_cons_of_mem _ hb, h⟩

/-- One file that fits, by whatever object it is loaded -/
theorem loadOne_ok {k : Kind} (hk : xdmf k = false) (w : World α) (o : Obj α) (p : Path) (hp : Plain p) (hf : ∃ g, Fits k p.base g) :
    ∃ o' e, loadOne k w o p = (o', none) ∧ o'.entries = [e] ∧ o'.fname = p ∧ o'.series = false ∧ e.path = p ∧ e.crds = o.crds.getD (w.file p).crds ∧ o'.crds = some e.crds ∧
      (timeInName k = true → ∀ g n, Fits k p.base g → g.num = some n → e.time = value n) ∧
      (k = .athTab ∨ k = .gkeyll → e.time = (w.file p).time ∧ o'.templates = some e.fields ∧ o'.wrapper = o.wrapper) ∧
      (k = .athBin → e.time = (o.wrapper.getD ((w.file p).time, (w.file p).fields)).1 ∧ e.fields = (o.wrapper.getD ((w.file p).time, (w.file p).fields)).2 ∧
        o'.wrapper = some (e.time, e.fields)) ∧
      (k = .athTab → e.fields = if o.crds.isNone then (w.file p).fields else o.templates.getD []) ∧
      (k = .gkeyll → e.fields = o.templates.getD (w.file p).fields) ∧
      (timeInName k = true → o'.templates = o.templates ∧ e.fields = o.templates.getD (o.wrapper.getD ((w.file p).time, (w.file p).fields)).2 ∧
        (o.templates = none → o'.wrapper.map Prod.snd = some e.fields)) := by
  obtain ⟨g, hg⟩ := hf
  have hd := (detect_iff _ _ _).2 hg
  cases k with
  | ggcmXdmf => simp [xdmf] at hk
  | athXdmf => simp [xdmf] at hk
  | athBin =>
    simp only [loadOne, hd]
    exact ⟨_, _, rfl, rfl, rfl, rfl, rfl, rfl, rfl, by simp [timeInName], by simp, fun _ => ⟨rfl, rfl, rfl⟩, by simp, by simp, by simp [timeInName]⟩
  | athTab =>
    simp only [loadOne, hd]
    exact ⟨_, _, rfl, rfl, rfl, rfl, rfl, rfl, rfl, by simp [timeInName], fun _ => ⟨rfl, rfl, rfl⟩, by simp, fun _ => rfl, by simp, by simp [timeInName]⟩
  | gkeyll =>
    simp only [loadOne, hd]
    exact ⟨_, _, rfl, rfl, rfl, rfl, rfl, rfl, rfl, by simp [timeInName], fun _ => ⟨rfl, rfl, rfl⟩, by simp, by simp, fun _ => rfl, by simp [timeInName]⟩
  | jrrle | jrrleIono | fortbin | fortbinIono =>
    obtain ⟨n, hn⟩ := has_num rfl hg
    have hb := full_num hp hg
    rw [hn] at hb
    have ht := fun g' n' h1 h2 => name_time (g' := g') (n' := n') hg hn h1 h2
    simp only [loadOne, hd, hb]
    cases hot : o.templates with
    | some t =>
      exact ⟨_, _, rfl, rfl, rfl, rfl, rfl, rfl, rfl, fun _ => ht, by simp, by simp, by simp, by simp, fun _ => ⟨rfl, rfl, by simp⟩⟩
    | none =>
      exact ⟨_, _, rfl, rfl, rfl, rfl, rfl, rfl, rfl, fun _ => ht, by simp, by simp, by simp, by simp, fun _ => ⟨rfl, rfl, fun _ => rfl⟩⟩

/-- What the files of a series are given -/
def Fields (k : Kind) (w : World α) (t : Option (List String)) (p : Path) (fs : List String) : Prop :=
  match t with
  | none => k = .athBin → fs = (w.file p).fields
  | some t => k ≠ .athBin → fs = t

theorem loadChildren_ok {k : Kind} (hk : xdmf k = false) (w : World α) (crds : α) (t : Option (List String)) (names : List Path) (h : ∀ p ∈ names, Plain p ∧ ∃ g, Fits k p.base g) :
    ∃ l, loadChildren k w crds t names = .ok l ∧ List.Forall₂ (fun p e => IsEntry k w p e ∧ e.crds = crds ∧ Fields k w t p e.fields) names l := by
  induction names with
  | nil => exact ⟨[], rfl, .nil⟩
  | cons p ps ih =>
    obtain ⟨l, h1, h2⟩ := ih fun q hq => h q (List.mem_cons_of_mem _ hq)
    obtain ⟨hp, hf⟩ := h p List.mem_cons_self
    obtain ⟨o', e, g1, g2, g3, g4, g5, g6, g7, g8, g9, g10, g11, g12, g13⟩ := loadOne_ok hk w (Obj.new (some crds) t) p hp hf
    refine ⟨e :: l, ?_, .cons ⟨⟨g5, g8, ?_⟩, g6, ?_⟩ h2⟩
    · simp only [loadChildren, g1, h1, g2]; rfl
    · intro ht
      cases k with
      | athBin => exact (g10 rfl).1
      | athTab => exact (g9 (.inl rfl)).1
      | gkeyll => exact (g9 (.inr rfl)).1
      | ggcmXdmf => simp [xdmf] at hk
      | athXdmf => simp [xdmf] at hk
      | _ => simp [timeInName] at ht
    · cases t with
      | none => exact fun hb => (g10 hb).2.1
      | some t =>
        intro hb
        cases k with
        | athBin => exact absurd rfl hb
        | athTab => exact g11 rfl
        | gkeyll => exact g12 rfl
        | ggcmXdmf => simp [xdmf] at hk
        | athXdmf => simp [xdmf] at hk
        | _ => exact (g13 rfl).2.1

/-- A series that is not XDMF -/
theorem series_ok {k : Kind} (hk : xdmf k = false) (w : World α) (p q : Path) (ps : List Path) (h : ∀ n ∈ p :: q :: ps, Plain n ∧ ∃ g, Fits k n.base g) :
    ∃ o given g, construct k w (p :: q :: ps) = .ok o ∧ o.series = true ∧ Fits k p.base g ∧ o.fname = ⟨p.dir, collective k g⟩ ∧ InOrder given o.entries ∧
      (∀ e, e ∈ o.entries ↔ e ∈ given) ∧
      List.Forall₂ (fun n e => IsEntry k w n e ∧ e.crds = (w.file p).crds ∧ e.fields = (w.file (if k = .athBin then n else p)).fields) (p :: q :: ps) given := by
  obtain ⟨g, hg⟩ := (h p List.mem_cons_self).2
  have hd := (detect_iff _ _ _).2 hg
  have hx : k.isXdmf = false := by rw [isXdmf_eq, hk]
  let t : Option (List String) := if k = .athBin then none else some (w.file p).fields
  obtain ⟨l, h1, h2⟩ := loadChildren_ok hk w (w.file p).crds t (p :: q :: ps) h
  have hl : load k w (Obj.new none none) (p :: q :: ps) =
      ({ (Obj.new none none : Obj α) with fname := ⟨p.dir, collective k g⟩, crds := some (w.file p).crds, templates := t, series := true, entries := l.foldl addEntry [] }, none) := by
    have h1' := h1
    simp only [load, hx, Bool.false_eq_true, if_false, List.isEmpty_cons, hd]
    rw [show (Obj.new none none : Obj α).crds.getD (w.file p).crds = (w.file p).crds from rfl]
    cases k <;> first | (simp [xdmf] at hk; done) | (simp [t] at h1' ⊢; simp [Obj.new, h1'])
  refine ⟨_, l, g, by simp only [construct, hl]; rfl, rfl, hg, rfl, inOrder l, fun e => by simp [mem_foldl], ?_⟩
  refine h2.imp ?_
  rintro n e ⟨a1, a2, a3⟩
  refine ⟨a1, a2, ?_⟩
  cases k with
  | athBin => simpa using a3 rfl
  | ggcmXdmf => simp [xdmf] at hk
  | athXdmf => simp [xdmf] at hk
  | _ => simpa using a3 (by simp)

end SR

/-- C229: the patterns of the readers. A reader takes exactly the names that fit, and the run, the type and the number it finds are the parts of the name. -/
theorem C229_names (k : Kind) (s : Text) (g : Groups) : detect k s = some g ↔ Fits k s g := detect_iff k s g

example : Fits .jrrle " run.1.px_0.000600\n".toList ⟨"run.1".toList, "px_0".toList, some "000600".toList⟩ := by
  rw [← C229_names]; decide
example : detect .gkeyll "sim_q_12.h5".toList = some ⟨"sim".toList, "q".toList, some "12".toList⟩ := by decide
example : detect .jrrle "run.3df.00600".toList = none := by decide

/-- C229: a series of files that fit the pattern of a reader (not of XDMF) has one entry for each file, with its time, in order of time and for equal times in the order of the files.
    The time of OpenGGCM's files is the number in the name, that of the others is in the file. -/
theorem C229_times {α : Type} (k : Kind) (hk : xdmf k = false) (w : World α) (p q : Path) (ps : List Path) (h : ∀ n ∈ p :: q :: ps, Plain n ∧ ∃ g, Fits k n.base g) :
    ∃ o given, construct k w (p :: q :: ps) = .ok o ∧ o.series = true ∧ InOrder given o.entries ∧ List.Forall₂ (IsEntry k w) (p :: q :: ps) given := by
  obtain ⟨o, given, g, h1, h2, _, _, h5, _, h6⟩ := SR.series_ok hk w p q ps h
  exact ⟨o, given, h1, h2, h5, h6.imp fun _ _ h => h.1⟩

/-- C229: a file that is given alone has one entry, with its own time, fields and coordinates -/
theorem C229_alone {α : Type} (k : Kind) (hk : xdmf k = false) (w : World α) (p : Path) (hp : Plain p) (hf : ∃ g, Fits k p.base g) :
    ∃ o e, construct k w [p] = .ok o ∧ o.series = false ∧ o.entries = [e] ∧ IsEntry k w p e ∧ e.fields = (w.file p).fields ∧ e.crds = (w.file p).crds := by
  have hx : k.isXdmf = false := by rw [SR.isXdmf_eq, hk]
  obtain ⟨o, e, g1, g2, g3, g4, g5, g6, g7, g8, g9, g10, g11, g12, g13⟩ := SR.loadOne_ok hk w (Obj.new none none) p hp hf
  refine ⟨o, e, ?_, g4, g2, ⟨g5, g8, ?_⟩, ?_, g6⟩
  · simp only [construct, load, hx, Bool.false_eq_true, if_false, List.isEmpty_nil, if_true, g1]
  · intro ht
    cases k with
    | athBin => exact (g10 rfl).1
    | athTab => exact (g9 (.inl rfl)).1
    | gkeyll => exact (g9 (.inr rfl)).1
    | ggcmXdmf => simp [xdmf] at hk
    | athXdmf => simp [xdmf] at hk
    | _ => simp [timeInName] at ht
  · cases k with
    | athBin => exact (g10 rfl).2.1
    | athTab => exact g11 rfl
    | gkeyll => exact g12 rfl
    | ggcmXdmf => simp [xdmf] at hk
    | athXdmf => simp [xdmf] at hk
    | _ => exact (g13 rfl).2.1

/-- C229: a series of OpenGGCM's XDMF files has all grids of all files, each with its time, fields and coordinates, in order of time -/
theorem C229_xdmf {α : Type} (w : World α) (p q : Path) (ps : List Path) (h : ∃ g, Fits .ggcmXdmf p.base g) :
    ∃ o, construct .ggcmXdmf w (p :: q :: ps) = .ok o ∧ o.series = true ∧ InOrder ((p :: q :: ps).flatMap (gridEntries w)) o.entries := by
  obtain ⟨g, hg⟩ := h
  have hd := (detect_iff _ _ _).2 hg
  refine ⟨⟨p, true, ((p :: q :: ps).flatMap (gridEntries w)).foldl addEntry [], none, none, none⟩, ?_, rfl, inOrder _⟩
  simp only [construct, load, Kind.isXdmf, if_true, hd, List.isEmpty_cons, Bool.false_eq_true, if_false, Obj.new]
  rfl

/-- C229, false of the code: in a series of Athena's XDMF files, every grid is there twice -/
theorem C229_twice_violated {α : Type} [DecidableEq α] (w : World α) (p q : Path) (ps : List Path) (h : ∃ g, Fits .athXdmf p.base g) :
    ∃ o, construct .athXdmf w (p :: q :: ps) = .ok o ∧ o.series = true ∧ ∀ t, (o.entries.filter fun e => e.time = t).length = 2 * (((p :: q :: ps).flatMap (gridEntries w)).filter fun e => e.time = t).length := by
  obtain ⟨g, hg⟩ := h
  have hd := (detect_iff _ _ _).2 hg
  refine ⟨⟨p, true, ((p :: q :: ps).flatMap (xdmfGrids .athXdmf w)).foldl addEntry [], none, none, none⟩, ?_, rfl, ?_⟩
  · simp only [construct, load, Kind.isXdmf, if_true, hd, List.isEmpty_cons, Bool.false_eq_true, if_false, Obj.new]
  · intro t
    simp only [(inOrder _).same t]
    generalize p :: q :: ps = names
    induction names with
    | nil => rfl
    | cons a l ih =>
      rw [List.flatMap_cons, List.flatMap_cons, List.filter_append, List.filter_append, List.length_append, List.length_append, ih]
      simp only [xdmfGrids, if_true, List.filter_append, List.length_append, gridEntries]
      omega

/-- C229: the fields of a file in a series of Athena's binary files are those of the file -/
theorem C229_fields_partial {α : Type} (w : World α) (p q : Path) (ps : List Path) (h : ∀ n ∈ p :: q :: ps, Plain n ∧ ∃ g, Fits .athBin n.base g) :
    ∃ o, construct .athBin w (p :: q :: ps) = .ok o ∧ ∀ e ∈ o.entries, e.fields = (w.file e.path).fields := by
  obtain ⟨o, given, g, h1, h2, _, _, h5, h6, h7⟩ := SR.series_ok rfl w p q ps h
  refine ⟨o, h1, fun e he => ?_⟩
  rw [h6] at he
  obtain ⟨n, hn⟩ : ∃ n, IsEntry .athBin w n e ∧ e.fields = (w.file n).fields := by
    obtain ⟨n, _, a⟩ := SR.f2_right h7 he
    exact ⟨n, a.1, by simpa using a.2.2⟩
  rw [hn.2, hn.1.path]

/-- C229, false of the code: for the other readers, the fields of every entry are those of the first file. If another file has other fields, its entry does not say so. -/
theorem C229_fields_violated {α : Type} (k : Kind) (hk : xdmf k = false) (hb : k ≠ .athBin) (w : World α) (p q : Path) (ps : List Path) (h : ∀ n ∈ p :: q :: ps, Plain n ∧ ∃ g, Fits k n.base g) :
    ∃ o, construct k w (p :: q :: ps) = .ok o ∧ (∀ e ∈ o.entries, e.fields = (w.file p).fields) ∧
      ∀ n ∈ p :: q :: ps, (w.file n).fields ≠ (w.file p).fields → ∃ e ∈ o.entries, e.path = n ∧ e.fields ≠ (w.file n).fields := by
  obtain ⟨o, given, g, h1, h2, _, _, h5, h6, h7⟩ := SR.series_ok hk w p q ps h
  have e1 : ∀ e ∈ o.entries, e.fields = (w.file p).fields := by
    intro e he
    rw [h6] at he
    obtain ⟨n, _, a⟩ := SR.f2_right h7 he
    simpa [hb] using a.2.2
  refine ⟨o, h1, e1, fun n hn hne => ?_⟩
  obtain ⟨e, he, hen⟩ : ∃ e ∈ given, e.path = n := by
    obtain ⟨e, he, a⟩ := SR.f2_left h7 hn
    exact ⟨e, he, a.1.path⟩
  rw [← h6] at he
  exact ⟨e, he, hen, by rw [e1 e he]; exact Ne.symm hne⟩

/-- C229, false of the code: the coordinates of every entry are those of the first file -/
theorem C229_crds_violated {α : Type} (k : Kind) (hk : xdmf k = false) (w : World α) (p q : Path) (ps : List Path) (h : ∀ n ∈ p :: q :: ps, Plain n ∧ ∃ g, Fits k n.base g) :
    ∃ o, construct k w (p :: q :: ps) = .ok o ∧ (∀ e ∈ o.entries, e.crds = (w.file p).crds) ∧ ∀ n ∈ p :: q :: ps, ∃ e ∈ o.entries, e.path = n := by
  obtain ⟨o, given, g, h1, h2, _, _, h5, h6, h7⟩ := SR.series_ok hk w p q ps h
  refine ⟨o, h1, ?_, ?_⟩
  · intro e he
    rw [h6] at he
    obtain ⟨n, _, a⟩ := SR.f2_right h7 he
    exact a.2.1
  · intro n hn
    suffices ∃ e ∈ given, e.path = n by
      obtain ⟨e, he, hen⟩ := this
      exact ⟨e, (h6 e).2 he, hen⟩
    obtain ⟨e, he, a⟩ := SR.f2_left h7 hn
    exact ⟨e, he, a.1.path⟩

/-- C229: a name that does not fit is an AttributeError, for XDMF if it is the first; no names are an IndexError -/
theorem C229_refused {α : Type} (k : Kind) (w : World α) : construct k w [] = .error .index ∧
    (∀ p ps, (¬ ∃ g, Fits k p.base g) → construct k w (p :: ps) = .error .attribute) ∧
    (xdmf k = false → ∀ names n, n ∈ names → (¬ ∃ g, Fits k n.base g) → construct k w names = .error .attribute) := by
  have hnone : ∀ p : Path, (¬ ∃ g, Fits k p.base g) → detect k p.base = none := by
    intro p hp
    rw [Option.eq_none_iff_forall_ne_some]
    intro g hg
    exact hp ⟨g, (detect_iff _ _ _).1 hg⟩
  have first : ∀ p ps, (¬ ∃ g, Fits k p.base g) → construct k w (p :: ps) = .error .attribute := by
    intro p ps hp
    have hd := hnone p hp
    unfold construct load
    simp only [hd]
    cases hx : k.isXdmf
    · cases ps with
      | nil => simp [loadOne, hd]
      | cons q qs => simp
    · simp
  refine ⟨rfl, first, ?_⟩
  intro hk names n hn hnf
  have hx : k.isXdmf = false := by rw [SR.isXdmf_eq, hk]
  -- one child that does not fit
  have child : ∀ (crds : α) t l, n ∈ l → loadChildren k w crds t l = .error .attribute := by
    intro crds t l hl
    induction l with
    | nil => simp at hl
    | cons a l ih =>
      unfold loadChildren
      have one : ∀ (o : Obj α) e, (loadOne k w o a).2 = some e → e = .attribute := by
        intro o e
        unfold loadOne
        cases detect k a.base with
        | none => intro h; exact (Option.some.inj h).symm
        | some g =>
          cases k <;> simp only [] <;> first | simp | (
            split
            · intro h; exact (Option.some.inj h).symm
            · split <;> simp)
      rcases List.mem_cons.1 hl with rfl | hl
      · simp [loadOne, hnone n hnf]
      · cases hlo : loadOne k w (Obj.new (some crds) t) a with
        | mk o' oe =>
          cases oe with
          | some e =>
            have := one (Obj.new (some crds) t) e (by rw [hlo])
            subst this
            rfl
          | none => simp only [ih hl]
  cases names with
  | nil => simp at hn
  | cons p ps =>
    by_cases hp : ∃ g, Fits k p.base g
    · cases ps with
      | nil =>
        simp only [List.mem_singleton] at hn
        subst hn
        exact absurd hp hnf
      | cons q qs =>
        obtain ⟨g, hg⟩ := hp
        have hd := (detect_iff _ _ _).2 hg
        unfold construct load
        simp only [hx, Bool.false_eq_true, if_false, List.isEmpty_cons, hd, child _ _ _ hn]
    · exact first p ps hp

/-! ### Reloading -/

/-- C230: an XDMF file that is no series has after `reload` what loading it anew gives, whatever is in the file by then -/
theorem C230_xdmf_partial {α : Type} (k : Kind) (hk : xdmf k = true) (w w' : World α) (p : Path) (hf : ∃ g, Fits k p.base g) :
    ∃ o o', construct k w [p] = .ok o ∧ reload k w' o = (o', none) ∧ construct k w' [p] = .ok o' := by
  obtain ⟨g, hg⟩ := hf
  have hd := (detect_iff _ _ _).2 hg
  have hx : k.isXdmf = true := by rw [SR.isXdmf_eq, hk]
  refine ⟨⟨p, false, gridEntries w p, none, none, none⟩, ⟨p, false, gridEntries w' p, none, none, none⟩, ?_, ?_, ?_⟩
  · simp only [construct, load, hx, if_true, hd, List.isEmpty_nil, Obj.new]; rfl
  · simp only [reload, load, hx, if_true, hd, List.isEmpty_nil]; rfl
  · simp only [construct, load, hx, if_true, hd, List.isEmpty_nil, Obj.new]; rfl

/-- C230: any file that is no series and has not changed is the same after any number of reloads -/
theorem C230_same_partial {α : Type} (k : Kind) (w : World α) (p : Path) (hp : Plain p) (hf : ∃ g, Fits k p.base g) (times : Nat) :
    ∃ o, construct k w [p] = .ok o ∧ (Nat.iterate (fun r => if r.2 = none then reload k w r.1 else r) times (o, none)).1.entries = o.entries ∧
      (Nat.iterate (fun r => if r.2 = none then reload k w r.1 else r) times (o, none)).2 = none := by
  suffices ∃ o, construct k w [p] = .ok o ∧ reload k w o = (o, none) by
    obtain ⟨o, h1, h2⟩ := this
    refine ⟨o, h1, ?_⟩
    have : Nat.iterate (fun r : Obj α × Option Err => if r.2 = none then reload k w r.1 else r) times (o, none) = (o, none) := by
      induction times with
      | zero => rfl
      | succ n ih => rw [Nat.iterate]; simp only [if_true, h2]; exact ih
    rw [this]; exact ⟨rfl, rfl⟩
  cases hk : xdmf k with
  | true =>
    obtain ⟨o, o', h1, h2, h3⟩ := C230_xdmf_partial k hk w w p hf
    rw [h1] at h3
    obtain rfl := Except.ok.inj h3
    exact ⟨o, h1, h2⟩
  | false =>
    obtain ⟨g, hg⟩ := hf
    have hd := (detect_iff _ _ _).2 hg
    have hx : k.isXdmf = false := by rw [SR.isXdmf_eq, hk]
    cases k with
    | ggcmXdmf => simp [xdmf] at hk
    | athXdmf => simp [xdmf] at hk
    | athBin => exact ⟨_, by simp only [construct, load, Kind.isXdmf, Bool.false_eq_true, if_false, List.isEmpty_nil, if_true, loadOne, hd]; rfl, by
        simp only [reload, load, Kind.isXdmf, Bool.false_eq_true, if_false, List.isEmpty_nil, if_true, loadOne, hd]; rfl⟩
    | athTab => exact ⟨_, by simp only [construct, load, Kind.isXdmf, Bool.false_eq_true, if_false, List.isEmpty_nil, if_true, loadOne, hd]; rfl, by
        simp only [reload, load, Kind.isXdmf, Bool.false_eq_true, if_false, List.isEmpty_nil, if_true, loadOne, hd]; rfl⟩
    | gkeyll => exact ⟨_, by simp only [construct, load, Kind.isXdmf, Bool.false_eq_true, if_false, List.isEmpty_nil, if_true, loadOne, hd]; rfl, by
        simp only [reload, load, Kind.isXdmf, Bool.false_eq_true, if_false, List.isEmpty_nil, if_true, loadOne, hd]; rfl⟩
    | jrrle | jrrleIono | fortbin | fortbinIono =>
      obtain ⟨n, hn⟩ := SR.has_num rfl hg
      have hb := SR.full_num hp hg
      rw [hn] at hb
      exact ⟨_, by simp only [construct, load, Kind.isXdmf, Bool.false_eq_true, if_false, List.isEmpty_nil, if_true, loadOne, hd, hb, Obj.new]; rfl, by
        simp only [reload, load, Kind.isXdmf, Bool.false_eq_true, if_false, List.isEmpty_nil, if_true, loadOne, hd, hb]; rfl⟩

/-- C230, false of the code: a file that is no series (and not XDMF) has, after any history of reloads, still the fields and coordinates that were in it when it was first loaded,
    whatever is in it by then. Only the time of Athena tab and Gkeyll files is read again. -/
theorem C230_stale_violated {α : Type} (k : Kind) (hk : xdmf k = false) (w : World α) (p : Path) (hp : Plain p) (hf : ∃ g, Fits k p.base g) (ws : List (World α)) :
    ∃ o, construct k w [p] = .ok o ∧ ∃ e, (ws.foldl (fun o w' => (reload k w' o).1) o).entries = [e] ∧ e.path = p ∧ e.fields = (w.file p).fields ∧ e.crds = (w.file p).crds ∧
      (k = .athBin → e.time = (w.file p).time) ∧ (k = .athTab ∨ k = .gkeyll → e.time = (((w :: ws).getLast (by simp)).file p).time) := by
  have hx : k.isXdmf = false := by rw [SR.isXdmf_eq, hk]
  -- what is kept from one reload to the next
  let Inv (o : Obj α) (v : World α) : Prop := o.fname = p ∧ o.crds = some (w.file p).crds ∧
    (k = .athTab ∨ k = .gkeyll → o.templates = some (w.file p).fields) ∧ (k = .athBin → o.wrapper = some ((w.file p).time, (w.file p).fields)) ∧
    (timeInName k = true → o.templates = none ∧ o.wrapper.map Prod.snd = some (w.file p).fields) ∧
    ∃ e, o.entries = [e] ∧ e.path = p ∧ e.fields = (w.file p).fields ∧ e.crds = (w.file p).crds ∧
      (k = .athBin → e.time = (w.file p).time) ∧ (k = .athTab ∨ k = .gkeyll → e.time = (v.file p).time)
  have hload : ∀ (v : World α) (o : Obj α), load k v o [p] = loadOne k v o p := by
    intro v o
    simp only [load, hx, Bool.false_eq_true, if_false, List.isEmpty_nil, if_true]
  obtain ⟨o, e, g1, g2, g3, g4, g5, g6, g7, g8, g9, g10, g11, g12, g13⟩ := SR.loadOne_ok hk w (Obj.new none none) p hp hf
  have ef : e.fields = (w.file p).fields := by
    cases k with
    | athBin => exact (g10 rfl).2.1
    | athTab => exact g11 rfl
    | gkeyll => exact g12 rfl
    | ggcmXdmf => simp [xdmf] at hk
    | athXdmf => simp [xdmf] at hk
    | _ => exact (g13 rfl).2.1
  have ec : e.crds = (w.file p).crds := g6
  have h0 : Inv o w := by
    refine ⟨g3, by rw [g7, ec], fun h => by rw [(g9 h).2.1, ef], fun h => ?_, fun h => ?_, e, g2, g5, ef, ec, fun h => (g10 h).1, fun h => (g9 h).1⟩
    · rw [(g10 h).2.2, ef, (g10 h).1]; rfl
    · exact ⟨(g13 h).1, by rw [(g13 h).2.2 rfl, ef]⟩
  have hstep : ∀ (o : Obj α) (v v' : World α), Inv o v → Inv (reload k v' o).1 v' := by
    rintro o v v' ⟨i1, i2, i3, i4, i5, -⟩
    obtain ⟨o', e, g1, g2, g3, g4, g5, g6, g7, g8, g9, g10, g11, g12, g13⟩ := SR.loadOne_ok hk v' { o with entries := [] } p hp hf
    have er : reload k v' o = (o', none) := (congrArg (fun x => load k v' { o with entries := [] } [x]) i1).trans ((hload v' _).trans g1)
    rw [er]
    have ec : e.crds = (w.file p).crds := by rw [g6]; simp only [i2, Option.getD_some]
    have ef : e.fields = (w.file p).fields := by
      cases k with
      | athBin => rw [(g10 rfl).2.1]; simp only [i4 rfl, Option.getD_some]
      | athTab => rw [g11 rfl]; simp only [i2, i3 (.inl rfl), Option.isNone_some, Bool.false_eq_true, if_false, Option.getD_some]
      | gkeyll => rw [g12 rfl]; simp only [i3 (.inr rfl), Option.getD_some]
      | ggcmXdmf => simp [xdmf] at hk
      | athXdmf => simp [xdmf] at hk
      | _ =>
        obtain ⟨j1, j2⟩ := i5 rfl
        rw [(g13 rfl).2.1]
        simp only [j1, Option.getD_none]
        cases hw : o.wrapper with
        | none => rw [hw] at j2; simp at j2
        | some h => rw [hw] at j2; simpa using j2
    have et : k = .athBin → e.time = (w.file p).time := fun h => by rw [(g10 h).1]; simp only [i4 h, Option.getD_some]
    refine ⟨g3, by rw [g7, ec], fun h => by rw [(g9 h).2.1, ef], fun h => ?_, fun h => ?_, e, g2, g5, ef, ec, et, fun h => (g9 h).1⟩
    · rw [(g10 h).2.2, ef, et h]
    · have := g13 h
      exact ⟨by rw [this.1]; exact (i5 h).1, by rw [this.2.2 (i5 h).1, ef]⟩
  refine ⟨o, by rw [construct, hload, g1], ?_⟩
  have : ∀ (ws : List (World α)) (o : Obj α) (v : World α), Inv o v → Inv (ws.foldl (fun o w' => (reload k w' o).1) o) ((v :: ws).getLast (by simp)) := by
    intro ws
    induction ws with
    | nil => intro o v h; exact h
    | cons v' ws ih =>
      intro o v h
      have := ih _ v' (hstep o v v' h)
      simpa using this
  obtain ⟨-, -, -, -, -, e, h⟩ := this ws o w h0
  exact ⟨e, h⟩

/-- C230, false of the code: reloading a series (not XDMF) is an AttributeError, and nothing is left in it -/
theorem C230_series_violated {α : Type} (k : Kind) (hk : xdmf k = false) (w w' : World α) (p q : Path) (ps : List Path) (h : ∀ n ∈ p :: q :: ps, Plain n ∧ ∃ g, Fits k n.base g) :
    ∃ o, construct k w (p :: q :: ps) = .ok o ∧ o.entries ≠ [] ∧ (reload k w' o).2 = some .attribute ∧ (reload k w' o).1.entries = [] := by
  obtain ⟨o, given, g, h1, h2, hg, h4, h5, h6, h7⟩ := SR.series_ok hk w p q ps h
  have hx : k.isXdmf = false := by rw [SR.isXdmf_eq, hk]
  have hd := detect_collective hx hg
  refine ⟨o, h1, ?_, ?_⟩
  · intro he
    cases h7 with
    | cons a _ =>
      have := (h6 _).2 List.mem_cons_self
      rw [he] at this
      simp at this
  · simp only [reload, h4, load, hx, Bool.false_eq_true, if_false, List.isEmpty_nil, if_true, loadOne, hd]
    exact ⟨trivial, trivial⟩

/-- C230, false of the code: after reloading a series of XDMF files, only the first file is left -/
theorem C230_first_violated {α : Type} (k : Kind) (hk : xdmf k = true) (w w' : World α) (p q : Path) (ps : List Path) (h : ∃ g, Fits k p.base g) :
    ∃ o o', construct k w (p :: q :: ps) = .ok o ∧ o.series = true ∧ reload k w' o = (o', none) ∧ o'.series = false ∧ o'.entries = gridEntries w' p := by
  obtain ⟨g, hg⟩ := h
  have hd := (detect_iff _ _ _).2 hg
  have hx : k.isXdmf = true := by rw [SR.isXdmf_eq, hk]
  refine ⟨⟨p, true, ((p :: q :: ps).flatMap (xdmfGrids k w)).foldl addEntry [], none, none, none⟩, ⟨p, false, gridEntries w' p, none, none, none⟩, ?_, rfl, ?_, rfl, rfl⟩
  · simp only [construct, load, hx, if_true, hd, List.isEmpty_cons, Bool.false_eq_true, if_false, Obj.new]
  · simp only [reload, load, hx, if_true, hd, List.isEmpty_nil]; rfl

/-! ### A series -/

namespace SR

/-- Two files of a run, the later first -/
def files : List Path := [⟨"/d".toList, "run.3df.000200".toList⟩, ⟨"/d".toList, "run.3df.000100".toList⟩]

theorem files_fit : ∀ n ∈ files, Plain n ∧ ∃ g, Fits .jrrle n.base g := by
  intro n hn
  simp only [files, List.mem_cons, List.not_mem_nil, or_false] at hn
  rcases hn with rfl | rfl
  · exact ⟨⟨.inr rfl, by decide⟩, ⟨"run".toList, "3df".toList, some "000200".toList⟩, (detect_iff _ _ _).1 (by decide)⟩
  · exact ⟨⟨.inr rfl, by decide⟩, ⟨"run".toList, "3df".toList, some "000100".toList⟩, (detect_iff _ _ _).1 (by decide)⟩

/-- What is in them: the second has one more field -/
def disk : World Nat := ⟨fun p => ⟨0, if p.base = "run.3df.000100".toList then ["rr", "pp"] else ["rr"], 7⟩, fun _ => []⟩

end SR

example := C229_times .jrrle rfl SR.disk _ _ _ SR.files_fit
example := C229_alone .jrrle rfl SR.disk ⟨"/d".toList, "run.3df.000200".toList⟩ (SR.files_fit _ List.mem_cons_self).1 (SR.files_fit _ List.mem_cons_self).2
example := C230_stale_violated .jrrle rfl SR.disk ⟨"/d".toList, "run.3df.000200".toList⟩ (SR.files_fit _ List.mem_cons_self).1 (SR.files_fit _ List.mem_cons_self).2 [⟨fun _ => ⟨3, ["bx"], 9⟩, fun _ => []⟩]
example := C229_fields_violated .jrrle rfl (by decide) SR.disk _ _ _ SR.files_fit
example := C230_series_violated .jrrle rfl SR.disk SR.disk _ _ _ SR.files_fit
example : (construct .jrrle SR.disk SR.files).toOption.map (fun o => o.entries.map fun e => (e.time, e.fields)) = some [(100, ["rr"]), (200, ["rr"])] := by decide +kernel
example : (construct .jrrle SR.disk [⟨"/d".toList, "run.3df.000100".toList⟩]).toOption.map (fun o => o.entries.map fun e => (e.time, e.fields)) = some [(100, ["rr", "pp"])] := by decide +kernel

/-- XDMF files of two runs: each with two times -/
theorem SR.xdmf_fit : ∃ g, Fits .ggcmXdmf "run.3df.xdmf".toList g := ⟨⟨"run".toList, "3df".toList, none⟩, (detect_iff _ _ _).1 (by decide)⟩
theorem SR.ath_fit : ∃ g, Fits .athXdmf "run.0001.ath.xdmf".toList g := ⟨⟨"run".toList, "ath.xdmf".toList, some "0001".toList⟩, (detect_iff _ _ _).1 (by decide)⟩
def SR.grids : World Nat := ⟨fun _ => ⟨0, [], 0⟩, fun p => if p.base = "run.3df.xdmf".toList ∨ p.base = "run.0001.ath.xdmf".toList then [⟨1, ["rr"], 0⟩, ⟨3, ["rr"], 0⟩] else [⟨2, ["pp"], 0⟩]⟩

example := C229_xdmf SR.grids ⟨[], "run.3df.xdmf".toList⟩ ⟨[], "other".toList⟩ [] SR.xdmf_fit
example := C229_twice_violated SR.grids ⟨[], "run.0001.ath.xdmf".toList⟩ ⟨[], "other".toList⟩ [] SR.ath_fit
example := C230_first_violated .ggcmXdmf rfl SR.grids SR.grids ⟨[], "run.3df.xdmf".toList⟩ ⟨[], "other".toList⟩ [] SR.xdmf_fit
example := C230_xdmf_partial .athXdmf rfl SR.grids SR.disk ⟨[], "run.0001.ath.xdmf".toList⟩ SR.ath_fit
example : (construct .ggcmXdmf SR.grids [⟨[], "run.3df.xdmf".toList⟩, ⟨[], "other".toList⟩]).toOption.map (fun o => o.entries.map fun e => e.time) = some [1, 2, 3] := by decide +kernel
example : (construct .athXdmf SR.grids [⟨[], "run.0001.ath.xdmf".toList⟩, ⟨[], "other".toList⟩]).toOption.map (fun o => o.entries.map fun e => e.time) = some [1, 1, 2, 2, 3, 3] := by decide +kernel

end Viscid.Props
