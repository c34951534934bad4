import Verif.Spec.Rc
import Mathlib.Tactic.ByContra
/-! # C209: settings files -/
namespace Viscid.Props
open Viscid.Rc
open Viscid.Spec.Rc

namespace RcP

theorem world_put_import (e : Env) (h : Heap) (i : Nat) (p : Name) (m : Nat) (hn : h i p = none) (hd : e.named i = true)
    (hm : e.imports i p = some m) : world e (put h i p (.obj m)) = world e h := by
  funext j q
  unfold world put
  by_cases hj : j = i ∧ q = p
  · obtain ⟨rfl, rfl⟩ := hj
    simp [hn, hd, hm]
  · simp [hj]

theorem world_put (e : Env) (h : Heap) (i : Nat) (p : Name) (v : Val) : Sets (world e h) i p v (world e (put h i p v)) := by
  constructor
  · simp [world, put]
  · intro j q hj
    simp [world, put, hj]

theorem sets_unique {W W₁ W₂ : World} {i n v} (h₁ : Sets W i n v W₁) (h₂ : Sets W i n v W₂) : W₁ = W₂ := by
  funext j q
  by_cases hj : j = i ∧ q = n
  · obtain ⟨rfl, rfl⟩ := hj; rw [h₁.1, h₂.1]
  · rw [h₁.2 _ _ hj, h₂.2 _ _ hj]

theorem leads_unique {W : World} {v ps w₁ w₂} (h₁ : Leads W v ps w₁) (h₂ : Leads W v ps w₂) : w₁ = w₂ := by
  induction h₁ with
  | here v => cases h₂; rfl
  | step hs _ ih =>
    cases h₂ with
    | step hs' h' => rw [hs] at hs'; cases hs'; exact ih h'

theorem leads_snoc {W : World} {v ps j q w} (h : Leads W v ps (.obj j)) (hq : W j q = some w) : Leads W v (ps ++ [q]) w := by
  generalize hx : Val.obj j = x at h
  induction h with
  | here v => subst hx; exact .step hq (.here _)
  | step hs _ ih => exact .step hs (ih hx)

theorem splitDots_ne (s : List Char) : splitDots s ≠ [] := by
  cases s with
  | nil => simp [splitDots]
  | cons c cs =>
    unfold splitDots
    split
    · simp
    · split <;> simp

theorem isPath_unique_aux (n : List Char) (hn : '.' ∉ n) : splitDots n = [n] := by
  induction n with
  | nil => rfl
  | cons c cs ih =>
    simp only [List.mem_cons, not_or] at hn
    simp [splitDots, ih hn.2, Ne.symm hn.1]

theorem splitDots_append (p s : List Char) (hp : '.' ∉ p) : splitDots (p ++ '.' :: s) = p :: splitDots s := by
  induction p with
  | nil =>
    simp only [List.nil_append, splitDots]
    split
    · rename_i h; exact absurd h (splitDots_ne s)
    · rename_i h; simp [h]
  | cons c cs ih =>
    simp only [List.mem_cons, not_or] at hp
    simp only [List.cons_append, splitDots, ih hp.2]
    simp [Ne.symm hp.1]

theorem split_of_path {s ps n} (h : IsPath s ps n) : splitDots s = ps ++ [n] := by
  obtain ⟨hps, hn, rfl⟩ := h
  induction ps with
  | nil => simpa using isPath_unique_aux n hn
  | cons p ps ih =>
    have hp := hps p (by simp)
    have := ih (fun q hq => hps q (by simp [hq]))
    simp only [List.map_cons, List.flatten_cons, List.append_assoc, List.cons_append, List.nil_append]
    rw [splitDots_append _ _ hp, this]

theorem path_exists (s : List Char) : ∃ ps n, IsPath s ps n := by
  induction s with
  | nil => exact ⟨[], [], by simp [IsPath]⟩
  | cons c cs ih =>
    obtain ⟨ps, n, hps, hn, hs⟩ := ih
    by_cases hc : c = '.'
    · subst hc
      refine ⟨[] :: ps, n, ?_, hn, by simp [hs]⟩
      intro p hp
      rcases List.mem_cons.1 hp with rfl | hp
      · simp
      · exact hps p hp
    · cases ps with
      | nil =>
        refine ⟨[], c :: n, by simp, by simp [hn, Ne.symm hc], by simpa using hs⟩
      | cons p ps =>
        refine ⟨(c :: p) :: ps, n, ?_, hn, by simp [hs]⟩
        intro q hq
        rcases List.mem_cons.1 hq with rfl | hq
        · simp [Ne.symm hc, hps p (by simp)]
        · exact hps q (by simp [hq])

/-- What `_get_obj` does: it changes nothing in the world, and finds what the path leads to. -/
theorem getObj_spec (e : Env) (ps : List Name) : ∀ (h : Heap) (v : Val),
    world e (e.getObj h v ps).1 = world e h ∧
    (∀ w, (e.getObj h v ps).2 = .ok w ↔ Leads (world e h) v ps w) := by
  induction ps with
  | nil =>
    intro h v
    refine ⟨rfl, fun w => ⟨fun hw => ?_, fun hw => ?_⟩⟩
    · cases hw; exact .here _
    · cases hw; rfl
  | cons p ps ih =>
    intro h v
    have blame1 : ∀ r, (e.blame v p r).1 = r.1 := by
      intro r; unfold Env.blame; split
      · split
        · rfl
        · split <;> rfl
      · rfl
    have blame2 : ∀ r w, (e.blame v p r).2 = .ok w ↔ r.2 = .ok w := by
      intro r w; unfold Env.blame; split
      · split
        · simp
        · split <;> simp
      · rfl
    unfold Env.getObj
    rw [blame1]
    simp only [blame2]
    cases v with
    | data n =>
      simp only [look]
      exact ⟨trivial, fun w => ⟨fun hw => by simp at hw, fun hw => by cases hw⟩⟩
    | obj i =>
      simp only [look]
      cases hl : h i p with
      | some w' =>
        have hW : world e h i p = some w' := by simp [world, hl]
        refine ⟨(ih h w').1, fun w => ?_⟩
        rw [(ih h w').2 w]
        exact ⟨fun hw => .step hW hw, fun hw => by cases hw with | step a b => rw [hW] at a; cases a; exact b⟩
      | none =>
        dsimp only
        by_cases hd : e.named i = true
        · rw [if_pos hd]
          cases hm : e.imports i p with
          | none =>
            have hW : world e h i p = none := by simp [world, hl, hm]
            refine ⟨rfl, fun w => ⟨fun hw => by simp at hw, fun hw => by cases hw with | step a b => rw [hW] at a; cases a⟩⟩
          | some m =>
            have hW : world e h i p = some (.obj m) := by simp [world, hl, hm, hd]
            have hput := world_put_import e h i p m hl hd hm
            dsimp only
            refine ⟨(ih _ _).1.trans hput, fun w => ?_⟩
            rw [(ih _ _).2 w, hput]
            exact ⟨fun hw => .step hW hw, fun hw => by cases hw with | step a b => rw [hW] at a; cases a; exact b⟩
        · rw [if_neg hd]
          have hW : world e h i p = none := by simp [world, hl, hd]
          refine ⟨rfl, fun w => ⟨fun hw => by simp at hw, fun hw => by cases hw with | step a b => rw [hW] at a; cases a⟩⟩

/-- No attribute is lost on the way. -/
theorem getObj_mono (e : Env) (ps : List Name) : ∀ (h : Heap) (v : Val) (i : Nat) (n : Name) (x : Val), h i n = some x →
    (e.getObj h v ps).1 i n = some x := by
  induction ps with
  | nil => intro h v i n x hx; exact hx
  | cons p ps ih =>
    intro h v i n x hx
    have blame1 : ∀ r, (e.blame v p r).1 = r.1 := by
      intro r; unfold Env.blame; split
      · split
        · rfl
        · split <;> rfl
      · rfl
    unfold Env.getObj
    rw [blame1]
    cases v with
    | data => exact hx
    | obj j =>
      simp only [look]
      cases hl : h j p with
      | some w => exact ih _ _ _ _ _ hx
      | none =>
        dsimp only
        by_cases hd : e.named j = true
        · rw [if_pos hd]
          cases hm : e.imports j p with
          | none => exact hx
          | some m =>
            refine ih _ _ _ _ _ ?_
            unfold put
            by_cases hj : i = j ∧ n = p
            · rw [hj.1, hj.2, hl] at hx; cases hx
            · rw [if_neg hj]; exact hx
        · rw [if_neg hd]; exact hx

/-- From an object with a name no bare AttributeError comes out. -/
theorem getObj_named (e : Env) (h : Heap) (i : Nat) (ps : List Name) (hn : e.named i = true) :
    (e.getObj h (.obj i) ps).2 ≠ .error .attr := by
  cases ps with
  | nil => simp [Env.getObj]
  | cons p ps =>
    unfold Env.getObj Env.blame
    dsimp only
    split
    · simp [hn]
    · rename_i h1
      intro hc
      exact h1 _ (Prod.ext rfl hc)

theorem set_spec (e : Env) (hr : e.named root = true) (h : Heap) (s ps n) (v : Val) (hs : IsPath s ps n) :
    (∀ i, Leads (world e h) (.obj root) ps (.obj i) → e.settable i = true →
      ∃ h' w, e.setAttribute h s v = (h', w, .ok i) ∧ Sets (world e h) i n v (world e h') ∧
        (world e h i n = none → w = [.new s]) ∧ ((h i n).isSome → w = [])) ∧
    ((∀ w, ¬ Leads (world e h) (.obj root) ps w) → ∃ h' i p, e.setAttribute h s v = (h', [], .error (.path i p)) ∧ world e h' = world e h) ∧
    (∀ w, Leads (world e h) (.obj root) ps w → (∀ i, w = .obj i → e.settable i = false) →
      ∃ h' l, e.setAttribute h s v = (h', l, .error .attr) ∧ world e h' = world e h) := by
  have hsp := split_of_path hs
  have hg := getObj_spec e ps h (.obj root)
  have hna := getObj_named e h root ps hr
  unfold Env.setAttribute
  simp only [hsp, List.dropLast_concat, List.getLastD_concat]
  generalize hG : e.getObj h (.obj root) ps = G at hg hna
  obtain ⟨h', r⟩ := G
  refine ⟨fun i hi hset => ?_, fun hno => ?_, fun w hw hset => ?_⟩
  · have := (hg.2 _).2 hi
    cases r with
    | error => simp at this
    | ok x =>
      simp only [Except.ok.injEq] at this
      subst this
      simp only [hset, if_true]
      refine ⟨_, _, rfl, ?_, fun hw => ?_, fun hw => ?_⟩
      · rw [← hg.1]
        exact world_put e h' i n v
      · rw [← hg.1] at hw
        have : h' i n = none := by
          unfold world at hw
          cases hx : h' i n with
          | none => rfl
          | some _ => simp [hx] at hw
        simp [look, this]
      · obtain ⟨x, hx⟩ := Option.isSome_iff_exists.1 hw
        have := getObj_mono e ps h (.obj root) i n x hx
        rw [hG] at this
        dsimp only at this
        simp [look, this]
  · cases r with
    | ok x => exact absurd ((hg.2 _).1 rfl) (hno x)
    | error er =>
      cases er with
      | attr => exact absurd rfl hna
      | path i p => exact ⟨_, _, _, rfl, hg.1⟩
  · have := (hg.2 _).2 hw
    cases r with
    | error => simp at this
    | ok x =>
      simp only [Except.ok.injEq] at this
      subst this
      cases x with
      | data d => exact ⟨_, _, rfl, hg.1⟩
      | obj i => simp only [hset i rfl]; exact ⟨_, _, rfl, hg.1⟩

theorem mem_once (i : Nat) (l : List Nat) : i ∈ once l ↔ i ∈ l := by
  induction l with
  | nil => rfl
  | cons a l ih =>
    unfold once
    split
    · rename_i h
      rw [ih]; simp only [List.mem_cons]
      exact ⟨.inr, fun h' => h'.elim (fun h' => h' ▸ h) id⟩
    · simp [ih]

theorem nodup_once (l : List Nat) : (once l).Nodup := by
  induction l with
  | nil => simp [once]
  | cons a l ih =>
    unfold once
    split
    · exact ih
    · rename_i h; exact List.nodup_cons.2 ⟨fun h' => h ((mem_once _ _).1 h'), ih⟩

theorem loop_lines (e : Env) (hr : e.named root = true) {W items W' os} (hL : Lines e W items W' os) :
    ∀ h, world e h = W → world e (e.loop h items).heap = W' ∧ (e.loop h items).touched = os ∧ (e.loop h items).raised = none := by
  induction hL with
  | done W => intro h hW; exact ⟨hW, rfl, rfl⟩
  | @set W W' W'' s ps n i v items os hp hl hs hW' _ ih =>
    intro h hW
    subst hW
    obtain ⟨h', w, he, hse, _⟩ := (set_spec e hr h s ps n v hp).1 i hl hs
    have := ih h' (sets_unique hse hW')
    simp only [Env.loop, he]
    exact ⟨this.1, by rw [this.2.1], this.2.2⟩
  | @skip W W' s ps n v items os hp hl _ ih =>
    intro h hW
    subst hW
    obtain ⟨h', i, p, he, hse⟩ := (set_spec e hr h s ps n v hp).2.1 hl
    have := ih h' hse
    simp only [Env.loop, he]
    exact this

theorem loop_stop (e : Env) (hr : e.named root = true) {W pre W' os} (hL : Lines e W pre W' os) (bad post) (hb : Hopeless e W' bad) :
    ∀ h, world e h = W → world e (e.loop h (pre ++ bad :: post)).heap = W' ∧
      (e.loop h (pre ++ bad :: post)).raised = some .attr := by
  induction hL with
  | done W =>
    intro h hW
    subst hW
    obtain ⟨k, v⟩ := bad
    cases k with
    | other => exact ⟨rfl, rfl⟩
    | text s =>
      obtain ⟨ps, n, w, hp, hl, hs⟩ := hb
      obtain ⟨h', l, he, hw⟩ := (set_spec e hr h s ps n v hp).2.2 w hl hs
      simp only [List.nil_append, Env.loop, he]
      exact ⟨hw, trivial⟩
  | @set W W' W'' s ps n i v items os hp hl hs hW' _ ih =>
    intro h hW
    subst hW
    obtain ⟨h', w, he, hse, _⟩ := (set_spec e hr h s ps n v hp).1 i hl hs
    have := ih hb h' (sets_unique hse hW')
    simp only [List.cons_append, Env.loop, he]
    exact this
  | @skip W W' s ps n v items os hp hl _ ih =>
    intro h hW
    subst hW
    obtain ⟨h', i, p, he, hse⟩ := (set_spec e hr h s ps n v hp).2.1 hl
    have := ih hb h' hse
    simp only [List.cons_append, Env.loop, he]
    exact this

theorem load_raised (e : Env) (h : Heap) (items : List (Key × Val)) :
    (e.loadRc h (.mapping items)).raised = (e.loop h items).raised ∧ (e.loadRc h (.mapping items)).heap = (e.loop h items).heap := by
  simp only [Env.loadRc]
  split <;> exact ⟨rfl, rfl⟩

end RcP

/-- Loading a file changes the attributes that its lines name, in their order, and no others; lines whose path leads nowhere do not
disturb the rest; the post actions run once for every object that got an attribute. The file has no hopeless lines. -/
theorem C209_lines_partial (e : Env) (hr : e.named root = true) (h : Heap) (items : List (Key × Val)) (W' : World) (os : List Nat)
    (hL : Lines e (world e h) items W' os) :
    let r := e.loadRc h (.mapping items)
    r.raised = none ∧ world e r.heap = W' ∧ (∀ i, i ∈ r.touched ↔ i ∈ os) ∧ r.touched.Nodup := by
  obtain ⟨h1, h2, h3⟩ := RcP.loop_lines e hr hL h rfl
  simp only [Env.loadRc, h3]
  exact ⟨trivial, h1, fun i => by rw [RcP.mem_once, h2], RcP.nodup_once _⟩

/-- Every file is either made of such lines, and then nothing is raised, or there is a first hopeless line. -/
theorem C209_raises (e : Env) (hr : e.named root = true) (items : List (Key × Val)) : ∀ h : Heap,
    ((e.loadRc h (.mapping items)).raised = none ↔ ∃ W' os, Lines e (world e h) items W' os) ∧
    ((e.loadRc h (.mapping items)).raised = some .attr ↔
      ∃ pre bad post W' os, items = pre ++ bad :: post ∧ Lines e (world e h) pre W' os ∧ Hopeless e W' bad) := by
  have key : ∀ h : Heap, ((e.loop h items).raised = none ∧ ∃ W' os, Lines e (world e h) items W' os) ∨
      ((e.loop h items).raised = some .attr ∧
        ∃ pre bad post W' os, items = pre ++ bad :: post ∧ Lines e (world e h) pre W' os ∧ Hopeless e W' bad) := by
    induction items with
    | nil => exact fun h => .inl ⟨rfl, _, _, .done _⟩
    | cons it items ih =>
      intro h
      obtain ⟨k, v⟩ := it
      cases k with
      | other => exact .inr ⟨rfl, [], _, items, _, _, rfl, .done _, trivial⟩
      | text s =>
        obtain ⟨ps, n, hp⟩ := RcP.path_exists s
        obtain ⟨s1, s2, s3⟩ := RcP.set_spec e hr h s ps n v hp
        by_cases hl : ∃ w, Leads (world e h) (.obj root) ps w
        · obtain ⟨w, hw⟩ := hl
          by_cases hset : ∃ i, w = .obj i ∧ e.settable i = true
          · obtain ⟨i, rfl, hi⟩ := hset
            obtain ⟨h', l, he, hse, _⟩ := s1 i hw hi
            simp only [Env.loop, he]
            rcases ih h' with ⟨hr', W', os, hL⟩ | ⟨hr', pre, bad, post, W', os, rfl, hL, hh⟩
            · exact .inl ⟨hr', _, _, .set hp hw hi hse hL⟩
            · exact .inr ⟨hr', (.text s, v) :: pre, bad, post, _, _, rfl, .set hp hw hi hse hL, hh⟩
          · have hset' : ∀ i, w = .obj i → e.settable i = false := by
              intro i hi
              by_contra hc
              exact hset ⟨i, hi, by simpa using hc⟩
            obtain ⟨h', l, he, _⟩ := s3 w hw hset'
            simp only [Env.loop, he]
            exact .inr ⟨trivial, [], _, items, _, _, rfl, .done _, ps, n, w, hp, hw, hset'⟩
        · have hno : ∀ w, ¬ Leads (world e h) (.obj root) ps w := fun w hw => hl ⟨w, hw⟩
          obtain ⟨h', i, p, he, hse⟩ := s2 hno
          simp only [Env.loop, he]
          rcases ih h' with ⟨hr', W', os, hL⟩ | ⟨hr', pre, bad, post, W', os, rfl, hL, hh⟩
          · exact .inl ⟨hr', _, _, .skip hp hno (hse ▸ hL)⟩
          · exact .inr ⟨hr', (.text s, v) :: pre, bad, post, _, _, rfl, .skip hp hno (hse ▸ hL), hh⟩
  intro h
  rw [(RcP.load_raised e h items).1]
  refine ⟨⟨fun hn => ?_, fun ⟨W', os, hL⟩ => (RcP.loop_lines e hr hL h rfl).2.2⟩, ⟨fun hn => ?_, ?_⟩⟩
  · rcases key h with ⟨_, k⟩ | ⟨k, _⟩
    · exact k
    · rw [hn] at k; cases k
  · rcases key h with ⟨k, _⟩ | ⟨_, k⟩
    · rw [hn] at k; cases k
    · exact k
  · rintro ⟨pre, bad, post, W', os, rfl, hL, hh⟩
    exact (RcP.loop_stop e hr hL bad post hh h rfl).2

/-- One hopeless line, and an exception comes out of loading the file (that is: out of `import viscid`): what the lines before it did
stays, the lines after it, whatever they are, are not read, and no post actions run at all. -/
theorem C209_hopeless_violated (e : Env) (hr : e.named root = true) (h : Heap) (pre post : List (Key × Val)) (bad : Key × Val) (W' : World)
    (os : List Nat) (hL : Lines e (world e h) pre W' os) (hb : Hopeless e W' bad) :
    let r := e.loadRc h (.mapping (pre ++ bad :: post))
    r.raised = some .attr ∧ world e r.heap = W' ∧ r.touched = [] := by
  obtain ⟨h1, h2⟩ := RcP.loop_stop e hr hL bad post hb h rfl
  simp only [Env.loadRc, h2]
  exact ⟨trivial, h1, trivial⟩

/-- No file: nothing happens. -/
theorem C209_missing (e : Env) (h : Heap) :
    (e.loadRc h .missing).heap = h ∧ (e.loadRc h .missing).raised = none ∧ (e.loadRc h .missing).touched = [] := ⟨rfl, rfl, rfl⟩

/-- A file without settings (an empty one gives None) raises AttributeError. -/
theorem C209_empty_violated (e : Env) (h : Heap) : (e.loadRc h .other).raised = some .attr := rfl

/-- An attribute that does not exist is made, with a warning; for one that does there is none. -/
theorem C209_warning (e : Env) (hr : e.named root = true) (h : Heap) (s : List Char) (ps : List Name) (n : Name) (i : Nat) (v : Val)
    (hp : IsPath s ps n) (hl : Leads (world e h) (.obj root) ps (.obj i)) (hs : e.settable i = true) :
    (world e h i n = none → (e.loadRc h (.mapping [(.text s, v)])).log = [.new s]) ∧
    ((h i n).isSome → (e.loadRc h (.mapping [(.text s, v)])).log = []) := by
  obtain ⟨h', w, he, _, h1, h2⟩ := (RcP.set_spec e hr h s ps n v hp).1 i hl hs
  have hlog : (e.loadRc h (.mapping [(.text s, v)])).log = w := by
    simp [Env.loadRc, Env.loop, he]
  rw [hlog]
  exact ⟨h1, h2⟩

namespace RcP

theorem blame_ne (e : Env) (v p) (h : Heap) (i q) : e.blame v p (h, .error (.path i q)) = (h, .error (.path i q)) := rfl

/-- One step of the search. -/
theorem getObj_step (e : Env) (h : Heap) (i : Nat) (p : Name) (ps : List Name) (w : Val) (hw : world e h i p = some w) :
    ∃ h', world e h' = world e h ∧ e.getObj h (.obj i) (p :: ps) = e.blame (.obj i) p (e.getObj h' w ps) := by
  unfold world at hw
  rw [Env.getObj]
  simp only [look]
  cases hl : h i p with
  | some w' =>
    simp only [hl] at hw
    cases hw
    exact ⟨h, rfl, rfl⟩
  | none =>
    simp only [hl] at hw
    by_cases hd : e.named i = true
    · rw [if_pos hd] at hw
      cases hm : e.imports i p with
      | none => simp [hm] at hw
      | some m =>
        simp only [hm, Option.map_some, Option.some.injEq] at hw
        subst hw
        refine ⟨_, world_put_import e h i p m hl hd hm, ?_⟩
        simp only [hd, if_true]
    · simp [hd] at hw

theorem getObj_stuck (e : Env) (h : Heap) (v : Val) (p : Name) (ps : List Name) (hv : ∀ i, v = .obj i → world e h i p = none) :
    (e.getObj h v (p :: ps)).2 = match v with
      | .data _ => .error .attr
      | .obj i => if e.named i then .error (.path i p) else .error .attr := by
  cases v with
  | data d => simp [Env.getObj, look, Env.blame]
  | obj i =>
    have hW := hv i rfl
    unfold world at hW
    have hl : h i p = none := by
      cases hx : h i p with
      | none => rfl
      | some _ => simp [hx] at hW
    simp only [hl] at hW
    rw [Env.getObj]
    simp only [look, hl]
    by_cases hd : e.named i = true
    · simp only [hd, if_true] at hW ⊢
      have : e.imports i p = none := by simpa using hW
      simp [this, Env.blame, hd]
    · simp [hd, Env.blame]

/-- An RCPathError goes through. -/
theorem getObj_through (e : Env) {W : World} {v pre w} (hl : Leads W v pre w) : ∀ (h : Heap) (rest : List Name) (i : Nat) (q : Name),
    world e h = W → (∀ h', world e h' = W → (e.getObj h' w rest).2 = .error (.path i q)) →
    (e.getObj h v (pre ++ rest)).2 = .error (.path i q) := by
  induction hl with
  | here v => intro h rest i q hW hr; exact hr h hW
  | @step j p v ps w hs _ ih =>
    intro h rest i q hW hr
    subst hW
    obtain ⟨h', hw, he⟩ := getObj_step e h j p (ps ++ rest) v hs
    rw [List.cons_append, he]
    have := ih h' rest i q hw hr
    generalize e.getObj h' v (ps ++ rest) = G at this
    obtain ⟨g, r⟩ := G
    simp only at this
    subst this
    rfl

end RcP

/-- The warning about a path that leads nowhere names the first part that is missing, if the object that lacks it has a `__name__`
(modules and classes have). -/
theorem C209_blame_partial (e : Env) (h : Heap) (s : List Char) (pre post : List Name) (n p : Name) (i : Nat) (v : Val)
    (hp : IsPath s (pre ++ p :: post) n) (hs : Stuck (world e h) pre (.obj i) p) (hn : e.named i = true) :
    (e.loadRc h (.mapping [(.text s, v)])).log = [.bad i p] := by
  have hg : (e.getObj h (.obj root) (pre ++ p :: post)).2 = .error (.path i p) := by
    refine RcP.getObj_through e hs.1 h _ i p rfl (fun h' hw => ?_)
    rw [RcP.getObj_stuck e h' (.obj i) p post (by rw [hw]; exact hs.2)]
    simp [hn]
  generalize hG : e.getObj h (.obj root) (pre ++ p :: post) = G at hg
  obtain ⟨h', r⟩ := G
  simp only at hg
  subst hg
  have : e.setAttribute h s v = (h', [], .error (.path i p)) := by
    simp only [Env.setAttribute, RcP.split_of_path hp, List.dropLast_concat, hG]
  simp [Env.loadRc, Env.loop, this]

/-- If what lacks the part has no `__name__` (an instance, or a value), the warning says that the object before it lacks an
attribute, which it has. -/
theorem C209_blame_violated (e : Env) (h : Heap) (s : List Char) (pre post : List Name) (n p q : Name) (j : Nat)
    (w v : Val) (hp : IsPath s (pre ++ q :: p :: post) n) (hj : Leads (world e h) (.obj root) pre (.obj j)) (hq : world e h j q = some w)
    (hn : e.named j = true) (hw : e.hasName w = false) (hs : ∀ i, w = .obj i → world e h i p = none) :
    (e.loadRc h (.mapping [(.text s, v)])).log = [.bad j q] ∧ world e h j q = some w := by
  refine ⟨?_, hq⟩
  have hg : (e.getObj h (.obj root) (pre ++ q :: p :: post)).2 = .error (.path j q) := by
    refine RcP.getObj_through e hj h _ j q rfl (fun h' hw' => ?_)
    obtain ⟨h'', hw'', he⟩ := RcP.getObj_step e h' j q (p :: post) w (by rw [hw']; exact hq)
    have hst := RcP.getObj_stuck e h'' w p post (by rw [hw'', hw']; exact hs)
    have hst' : (e.getObj h'' w (p :: post)).2 = .error .attr := by
      rw [hst]
      cases w with
      | data => rfl
      | obj k => simp only [Env.hasName] at hw; simp [hw]
    rw [he]
    generalize e.getObj h'' w (p :: post) = G at hst'
    obtain ⟨g, r⟩ := G
    simp only at hst'
    subst hst'
    simp [Env.blame, hn]
  generalize hG : e.getObj h (.obj root) (pre ++ q :: p :: post) = G at hg
  obtain ⟨h', r⟩ := G
  simp only at hg
  subst hg
  have : e.setAttribute h s v = (h', [], .error (.path j q)) := by
    simp only [Env.setAttribute, RcP.split_of_path hp, List.dropLast_concat, hG]
  simp [Env.loadRc, Env.loop, this]

/-! ### A case: `viscid` (0) with a module `readers` (1) that is not imported yet, in which a class `A` (2) has `on`, `opts` (3, an
instance without a name, on which nothing can be set), and a post action; a file with a good line, a bad one, another good one. -/

def rcEnv : Env where
  named i := i < 3
  imports i p := if i = 0 ∧ p = "readers".toList then some 1 else none
  settable i := i < 3

def rcHeap : Heap := fun i p =>
  if i = 1 ∧ p = "A".toList then some (.obj 2)
  else if i = 2 ∧ p = "on".toList then some (.data 0)
  else if i = 2 ∧ p = "opts".toList then some (.obj 3)
  else none

def rcItems : List (Key × Val) :=
  [(.text "readers.A.on".toList, .data 1), (.text "nope.x".toList, .data 2), (.text "readers.A.off".toList, .data 3)]

theorem rcPath1 : IsPath "readers.A.on".toList ["readers".toList, "A".toList] "on".toList := by
  refine ⟨?_, ?_, ?_⟩ <;> decide

theorem rcLeads (W : World) (h0 : W 0 "readers".toList = some (.obj 1)) (h1 : W 1 "A".toList = some (.obj 2)) :
    Leads W (.obj root) ["readers".toList, "A".toList] (.obj 2) := .step h0 (.step h1 (.here _))

example : rcEnv.named root = true ∧ ∃ W' os, Lines rcEnv (world rcEnv rcHeap) rcItems W' os := by
  refine ⟨rfl, ((C209_raises rcEnv rfl rcItems rcHeap).1).1 (by decide +kernel)⟩

example : (rcEnv.loadRc rcHeap (.mapping rcItems)).heap 2 "on".toList = some (.data 1) ∧
    (rcEnv.loadRc rcHeap (.mapping rcItems)).heap 2 "off".toList = some (.data 3) ∧
    (rcEnv.loadRc rcHeap (.mapping rcItems)).touched = [2] ∧
    (rcEnv.loadRc rcHeap (.mapping rcItems)).log = [.bad 0 "nope".toList, .new "readers.A.off".toList] := by decide +kernel

/-- `C209_warning` and `C209_blame_partial` -/
example : Leads (world rcEnv rcHeap) (.obj root) ["readers".toList, "A".toList] (.obj 2) ∧ rcEnv.settable 2 = true ∧
    (rcHeap 2 "on".toList).isSome ∧ world rcEnv rcHeap 2 "off".toList = none :=
  ⟨rcLeads _ (by decide +kernel) (by decide +kernel), rfl, by decide +kernel, by decide +kernel⟩

example : Stuck (world rcEnv rcHeap) [] (.obj 0) "nope".toList ∧ IsPath "nope.x".toList ([] ++ "nope".toList :: []) "x".toList :=
  ⟨⟨.here _, fun i hi => by cases hi; decide +kernel⟩, by refine ⟨?_, ?_, ?_⟩ <;> decide⟩

/-- `C209_hopeless_violated`: a line that sets something on a number -/
example : Hopeless rcEnv (world rcEnv rcHeap) (.text "readers.A.on.x".toList, .data 1) :=
  ⟨["readers".toList, "A".toList, "on".toList], "x".toList, .data 0, by refine ⟨?_, ?_, ?_⟩ <;> decide,
    .step (v := .obj 1) (by decide +kernel) (.step (v := .obj 2) (by decide +kernel) (.step (v := .data 0) (by decide +kernel) (.here _))),
    fun i hi => by cases hi⟩

/-- `C209_blame_violated`: `readers.A.opts.x.y` is said to fail because `A` has no `opts` -/
example : Leads (world rcEnv rcHeap) (.obj root) ["readers".toList, "A".toList] (.obj 2) ∧
    world rcEnv rcHeap 2 "opts".toList = some (.obj 3) ∧ rcEnv.hasName (.obj 3) = false ∧ world rcEnv rcHeap 3 "x".toList = none ∧
    (rcEnv.loadRc rcHeap (.mapping [(.text "readers.A.opts.x.y".toList, .data 1)])).log = [.bad 2 "opts".toList] :=
  ⟨rcLeads _ (by decide +kernel) (by decide +kernel), by decide +kernel, rfl, by decide +kernel, by decide +kernel⟩

end Viscid.Props
