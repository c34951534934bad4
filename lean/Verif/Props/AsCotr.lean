import Verif.Spec.AsCotr
import Verif.Props.Tree
import Verif.Props.Angle
import Mathlib.Data.List.Forall2
/-! # C205: names of coordinate systems; C206: making a `Cotr` of something -/
namespace Viscid.Props
open Viscid.AsCotr Viscid.Spec.AsCotr Viscid.Spec.Tree

namespace AC

theorem blank_iff (c : Char) : A2b.isSpace c = true ↔ Blank c := Ang.space_iff c

theorem dropWhile_head (l : List Char) (c : Char) (h : (l.dropWhile A2b.isSpace).head? = some c) : A2b.isSpace c = false := by
  induction l with
  | nil => simp at h
  | cons x l ih =>
    rw [List.dropWhile_cons] at h
    split at h
    · exact ih h
    · rename_i hx; simp at h; subst h; simpa using hx

theorem strip_trimmed (s : List Char) : Trimmed s (A2b.strip s) := by
  refine ⟨s.takeWhile A2b.isSpace, ((s.dropWhile A2b.isSpace).reverse.takeWhile A2b.isSpace).reverse, ?_, ?_, ?_, ?_, ?_⟩
  · unfold A2b.strip
    rw [List.append_assoc, ← List.reverse_append, List.takeWhile_append_dropWhile, List.reverse_reverse, List.takeWhile_append_dropWhile]
  · exact fun c hc => (blank_iff c).1 (Ang.takeWhile_all _ c hc)
  · exact fun c hc => (blank_iff c).1 (Ang.takeWhile_all _ c (List.mem_reverse.1 hc))
  · intro c hc hb
    rw [← blank_iff] at hb
    have h1 : (s.dropWhile A2b.isSpace) = A2b.strip s ++ ((s.dropWhile A2b.isSpace).reverse.takeWhile A2b.isSpace).reverse := by
      unfold A2b.strip
      rw [← List.reverse_append, List.takeWhile_append_dropWhile, List.reverse_reverse]
    have h2 : (s.dropWhile A2b.isSpace).head? = some c := by
      rw [h1, List.head?_append, hc]; rfl
    rw [dropWhile_head s c h2] at hb; cases hb
  · intro c hc hb
    rw [← blank_iff] at hb
    have h2 : ((s.dropWhile A2b.isSpace).reverse.dropWhile A2b.isSpace).head? = some c := by
      unfold A2b.strip at hc
      rw [List.getLast?_reverse] at hc; exact hc
    rw [dropWhile_head _ c h2] at hb; cases hb

theorem toLower_small (c : Char) : SmallOf c c.toLower := by
  unfold SmallOf Char.toLower
  by_cases h : 65 ≤ c.toNat ∧ c.toNat ≤ 90
  · rw [if_pos h, dif_pos (show c.val ≥ 'A'.val ∧ c.val ≤ 'Z'.val from h)]
    show (c.val + ('a'.val - 'A'.val)).toNat = c.toNat + 32
    rw [UInt32.toNat_add]
    have h5 : ('a'.val - 'A'.val).toNat = 32 := rfl
    have : c.val.toNat = c.toNat := rfl
    omega
  · rw [if_neg h, dif_neg (show ¬ (c.val ≥ 'A'.val ∧ c.val ≤ 'Z'.val) from h)]

theorem small_unique (c d : Char) (h : SmallOf c d) : d = c.toLower := by
  have h' := toLower_small c
  unfold SmallOf at h h'
  split at h
  · rename_i hc; rw [if_pos hc] at h'; exact Char.toNat_inj.1 (h.trans h'.symm)
  · rename_i hc; rw [if_neg hc] at h'; rw [h, h']

theorem small_map (t u : List Char) : List.Forall₂ SmallOf t u ↔ u = t.map Char.toLower := by
  constructor
  · intro h
    induction h with
    | nil => rfl
    | cons h _ ih => rw [List.map_cons, small_unique _ _ h, ih]
  · rintro rfl
    induction t with
    | nil => exact .nil
    | cons x t ih => exact .cons (toLower_small x) ih

theorem dropWhile_of_head (t b : List Char) (h : ∀ c, t.head? = some c → ¬ Blank c) (hb : t = [] → b = []) :
    (t ++ b).dropWhile A2b.isSpace = t ++ b := by
  cases t with
  | nil => rw [hb rfl]; rfl
  | cons x t =>
    have := h x rfl
    rw [← blank_iff] at this
    rw [List.cons_append, List.dropWhile_cons_of_neg (by simpa using this)]

theorem dropWhile_blank (b : List Char) (h : ∀ c ∈ b, Blank c) : b.dropWhile A2b.isSpace = [] := by
  induction b with
  | nil => rfl
  | cons x b ih => rw [List.dropWhile_cons_of_pos ((blank_iff x).2 (h x (by simp)))]; exact ih fun c hc => h c (by simp [hc])

theorem trimmed_strip (s t : List Char) (h : Trimmed s t) : A2b.strip s = t := by
  obtain ⟨a, b, rfl, ha, hb, h1, h2⟩ := h
  unfold A2b.strip
  rw [List.append_assoc, Ang.drop_all _ _ _ fun x hx => (blank_iff x).2 (ha x hx)]
  by_cases ht : t = []
  · subst ht
    rw [List.nil_append, dropWhile_blank b hb]; rfl
  · rw [dropWhile_of_head t b h1 fun h => absurd h ht, List.reverse_append,
      Ang.drop_all _ _ _ fun x hx => (blank_iff x).2 (hb x (List.mem_reverse.1 hx))]
    have := dropWhile_of_head t.reverse [] (fun c hc => h2 c (by rwa [List.head?_reverse] at hc)) fun _ => rfl
    rw [List.append_nil] at this
    rw [this, List.reverse_reverse]

theorem clean_iff (s u : List Char) : clean s = u ↔ Name s u := by
  constructor
  · rintro rfl; exact ⟨_, strip_trimmed s, (small_map _ _).2 rfl⟩
  · rintro ⟨t, h1, h2⟩
    rw [clean, trimmed_strip s t h1, (small_map _ _).1 h2]

theorem truth_iff (w : World) (v : Val) : w.truth v = false ↔ Nought w v := by
  cases v <;> simp [World.truth, Nought]

theorem find_nearest (w : World) (n : Nat) (hf : FewAbove w n) (key : String) (v : Val) (h : Nearest w n key v) :
    w.find n key.toList = .ok v := by
  obtain ⟨univ, h1, h2⟩ := hf
  obtain ⟨m, hm, hv⟩ := h
  obtain ⟨d, hd, hd'⟩ := hm
  have hs := List.find?_some hd
  rcases Tree.parentBfs_spec w.parents (Tree.hasInfo w.info key.toList) n univ h1 w.fuel h2 with ⟨k, hk, dk, hdk, hdk'⟩ | ⟨_, hk⟩
  · have : k = m := by
      rcases Nat.lt_trichotomy d dk with hlt | rfl | hlt
      · have := hdk' d hlt m (List.mem_of_find?_eq_some hd)
        unfold Tree.hasInfo at this; rw [this] at hs; cases hs
      · have : some k = some m := hdk.symm.trans hd
        exact Option.some.inj this
      · have hs' := List.find?_some hdk
        have := hd' dk hlt k (List.mem_of_find?_eq_some hdk)
        unfold Tree.hasInfo at hs'; simp only at this; rw [this] at hs'; cases hs'
    subst this
    have hv : (w.info k).get? key.toList = some v := hv
    unfold World.find Tree.findInfo Tree.findInfoOwner
    simp only [hk, hv]
  · have := hk d m (List.mem_of_find?_eq_some hd)
    unfold Tree.hasInfo at this; rw [this] at hs; cases hs

theorem find_nowhere (w : World) (n : Nat) (hf : FewAbove w n) (key : String) (h : Nowhere w n key) :
    w.find n key.toList = .ok .none := by
  obtain ⟨univ, h1, h2⟩ := hf
  rcases Tree.C08_find_info w.parents w.info n univ h1 w.fuel h2 key.toList (some Val.none) with ⟨m, v, ⟨d, hd, _⟩, hv, _⟩ | ⟨_, h3⟩
  · have := h d m (List.mem_of_find?_eq_some hd)
    rw [this] at hv; cases hv
  · unfold World.find; rw [h3]

theorem find_unset (w : World) (n : Nat) (hf : FewAbove w n) (key : String) (h : Unset w n key) :
    ∃ v, w.find n key.toList = .ok v ∧ w.truth v = false := by
  rcases h with h | ⟨v, h, hv⟩
  · exact ⟨.none, find_nowhere w n hf key h, rfl⟩
  · exact ⟨v, find_nearest w n hf key v h, (truth_iff w v).2 hv⟩

theorem attr_none (w : World) (n : Nat) (hf : FewAbove w n) (has : Nat → Bool) (h : ∀ m, Above w n m → has m = false) :
    w.attr has n = .ok none := by
  obtain ⟨univ, h1, h2⟩ := hf
  unfold World.attr Tree.findAttr
  rcases Tree.parentBfs_spec w.parents has n univ h1 w.fuel h2 with ⟨m, _, d, hd, _⟩ | ⟨h3, _⟩
  · have := List.find?_some hd
    rw [h m ⟨d, List.mem_of_find?_eq_some hd⟩] at this; cases this
  · rw [h3]

theorem attr_error (w : World) (n : Nat) (hf : FewAbove w n) (has : Nat → Bool) (m : Nat) (h : Above w n m) (hm : has m = true) :
    w.attr has n = .error .nameError := by
  obtain ⟨univ, h1, h2⟩ := hf
  obtain ⟨d, hd⟩ := h
  unfold World.attr Tree.findAttr
  rcases Tree.parentBfs_spec w.parents has n univ h1 w.fuel h2 with ⟨k, h3, _⟩ | ⟨_, h3⟩
  · rw [h3]
  · rw [h3 d m hd] at hm; cases hm

theorem crd_attr_kind (w : World) (n : Nat) : w.hasCrd n = true ↔ w.kind n ≠ .plain := by
  unfold World.hasCrd; cases w.kind n <;> simp

theorem cotr_attr_kind (w : World) (n : Nat) : w.hasCotr n = true ↔ w.kind n = .ggcmGrid := by
  unfold World.hasCotr; cases w.kind n <;> simp

/-- The nodes whose name can be asked for: fields and grids of OpenGGCM, and nodes with none of these above them. -/
def Askable (w : World) (n : Nat) : Prop := w.kind n ≠ .plain ∨ ∀ m, Above w n m → w.kind m = .plain

theorem crdOf_set (w : World) (n : Nat) (hf : FewAbove w n) (ha : Askable w n) (v : Val) (h : Nearest w n "crd_system" v)
    (hv : ¬ Nought w v) : w.crdOf (.node n) = .ok (.val v) := by
  have hfind := find_nearest w n hf _ v h
  have ht : w.truth v = true := by
    cases hb : w.truth v
    · exact absurd ((truth_iff w v).1 hb) hv
    · rfl
  unfold World.crdOf
  dsimp only
  split
  · rename_i hk
    unfold World.crdAttr crdSystem
    rw [hfind]
    show ((if w.truth v = true then Except.ok v else _) >>= _) = _
    rw [if_pos ht]; rfl
  · rename_i hk
    rcases ha with ha | ha
    · exact absurd ((crd_attr_kind w n).2 ha) hk
    · rw [attr_none w n hf w.hasCrd fun m hm => by
        cases hb : w.hasCrd m
        · rfl
        · exact absurd (ha m hm) ((crd_attr_kind w m).1 hb)]
      show (World.find w n crdSystem >>= _) = _
      unfold crdSystem
      rw [hfind]
      show (if w.truth v = true then _ else _) = _
      rw [if_pos ht]; rfl

theorem crdOf_unset (w : World) (n : Nat) (hf : FewAbove w n) (ha : Askable w n) (h : Unset w n "crd_system") :
    w.crdOf (.node n) = .ok (.val .notImplemented) ∨ w.crdOf (.node n) = .ok (.node n) := by
  obtain ⟨v, hfind, ht⟩ := find_unset w n hf _ h
  unfold World.crdOf
  dsimp only
  split
  · left
    unfold World.crdAttr crdSystem
    rw [hfind]
    show ((if w.truth v = true then _ else Except.ok Val.notImplemented) >>= _) = _
    rw [if_neg (by rw [ht]; simp)]; rfl
  · rename_i hk
    right
    rcases ha with ha | ha
    · exact absurd ((crd_attr_kind w n).2 ha) hk
    · rw [attr_none w n hf w.hasCrd fun m hm => by
        cases hb : w.hasCrd m
        · rfl
        · exact absurd (ha m hm) ((crd_attr_kind w m).1 hb)]
      show (World.find w n crdSystem >>= _) = _
      unfold crdSystem
      rw [hfind]
      show (if w.truth v = true then _ else _) = _
      rw [if_neg (by rw [ht]; simp)]; rfl

theorem asCrd_of (w : World) (x : Thing) (default : Option Thing) (y : Thing) (h : w.crdOf x = .ok y) :
    w.asCrd x default = match (generalizing := false) y with
      | .val (.text s) => .ok (clean s)
      | .val .none => .ok "Unknown".toList
      | _ => match default with
        | none => .error .typeError
        | some d => w.asCrd1 d := by
  unfold World.asCrd
  rw [h]
  rcases y with m | v
  · cases default <;> rfl
  · cases v <;> cases default <;> rfl

theorem asCrd1_eq (w : World) (d : Thing) : w.asCrd1 d = w.asCrd d none := by
  unfold World.asCrd1 World.asCrd
  rfl

end AC
open AC

/-- C205: the name of a system given as text is the text without what is blank around it, in lower case (whatever the default). -/
theorem C205_text (w : World) (s u : List Char) (default : Option Thing) :
    w.asCrd (.val (.text s)) default = .ok u ↔ Name s u := by
  rw [asCrd_of w _ default (.val (.text s)) rfl]
  simp only [Except.ok.injEq]
  exact clean_iff s u

/-- C205: there is always one such name. -/
theorem C205_text_one (s : List Char) : ∃! u, Name s u :=
  ⟨clean s, (clean_iff s _).1 rfl, fun u hu => ((clean_iff s u).2 hu).symm⟩

/-- C205: for a node (a field, a grid, a dataset or a file) it is the name of the nearest `crd_system` info that is text. Missing:
nodes of other kinds below a field or a grid of OpenGGCM (see `C205_below_violated`). -/
theorem C205_node_partial (w : World) (n : Nat) (hf : FewAbove w n) (ha : Askable w n) (s u : List Char) (hs : s ≠ [])
    (h : Nearest w n "crd_system" (.text s)) (default : Option Thing) :
    w.asCrd (.node n) default = .ok u ↔ Name s u := by
  rw [asCrd_of w _ default _ (crdOf_set w n hf ha (.text s) h (by simpa [Nought] using hs))]
  simp only [Except.ok.injEq]
  exact clean_iff s u

/-- C205: if there is no info, or the nearest is no text, the default takes its place; without one there is a TypeError. -/
theorem C205_default (w : World) (n : Nat) (hf : FewAbove w n) (ha : Askable w n)
    (h : Unset w n "crd_system" ∨ ∃ v, Nearest w n "crd_system" v ∧ ∀ s, v ≠ .text s) :
    w.asCrd (.node n) none = .error .typeError ∧ ∀ d, w.asCrd (.node n) (some d) = w.asCrd d none := by
  have key : ∃ y, w.crdOf (.node n) = .ok y ∧ (∀ s, y ≠ .val (.text s)) ∧ y ≠ .val .none := by
    rcases h with h | ⟨v, h, hv⟩
    · rcases crdOf_unset w n hf ha h with h | h
      · exact ⟨_, h, by simp, by simp⟩
      · exact ⟨_, h, by simp, by simp⟩
    · by_cases hvoid : Nought w v
      · rcases crdOf_unset w n hf ha (.inr ⟨v, h, hvoid⟩) with h | h
        · exact ⟨_, h, by simp, by simp⟩
        · exact ⟨_, h, by simp, by simp⟩
      · refine ⟨_, crdOf_set w n hf ha v h hvoid, by simpa using hv, ?_⟩
        intro he; simp at he; subst he; exact hvoid trivial
  obtain ⟨y, hy, h1, h2⟩ := key
  constructor
  · rw [asCrd_of w _ _ y hy]
    split
    · exact absurd rfl (h1 _)
    · exact absurd rfl h2
    · rfl
  · intro d
    rw [asCrd_of w _ _ y hy, ← asCrd1_eq]
    split
    · exact absurd rfl (h1 _)
    · exact absurd rfl h2
    · rfl

/-- C205: so it is for values that are no text. -/
theorem C205_value_default (w : World) (v : Val) (hv : ∀ s, v ≠ .text s) (hn : v ≠ .none) :
    w.asCrd (.val v) none = .error .typeError ∧ ∀ d, w.asCrd (.val v) (some d) = w.asCrd d none := by
  refine ⟨?_, fun d => ?_⟩ <;> rw [asCrd_of w _ _ (.val v) rfl] <;> cases v <;> simp_all [asCrd1_eq]

/-- C205 is false: the name of None is "Unknown", which is not in lower case, so that the name of that name is another one. -/
theorem C205_unknown_violated (w : World) (default d' : Option Thing) :
    w.asCrd (.val .none) default = .ok "Unknown".toList ∧ w.asCrd (.val (.text "Unknown".toList)) d' = .ok "unknown".toList := by
  rw [asCrd_of w _ default (.val .none) rfl, asCrd_of w _ d' (.val (.text _)) rfl]
  refine ⟨rfl, ?_⟩
  simp only [Except.ok.injEq]
  decide +kernel

/-- C205: every other name is in lower case and without blanks around it: it is its own name. -/
theorem C205_again_partial (w : World) (x : Thing) (default d' : Option Thing) (u : List Char)
    (h : w.asCrd x default = .ok u) : u = "Unknown".toList ∨ w.asCrd (.val (.text u)) d' = .ok u := by
  have clean2 : ∀ s, Name (clean s) (clean s) := by
    intro s
    obtain ⟨a, b, h1, ha, hb, h2, h3⟩ := strip_trimmed s
    have hbl : ∀ c : Char, Blank c.toLower → Blank c := by
      intro c hc
      have := toLower_small c
      unfold SmallOf at this
      split at this
      · rename_i h
        exfalso
        simp only [Blank, List.mem_cons, List.not_mem_nil, or_false] at hc
        rcases hc with hc | hc | hc | hc | hc | hc <;> rw [hc] at this <;> simp at this <;> omega
      · rwa [this] at hc
    refine ⟨clean s, ⟨[], [], by simp, by simp, by simp, ?_, ?_⟩, ?_⟩
    · intro c hc hb
      unfold clean at hc
      rw [List.head?_map] at hc
      obtain ⟨c', hc', rfl⟩ := Option.map_eq_some_iff.1 hc
      exact h2 c' hc' (hbl c' hb)
    · intro c hc hb
      unfold clean at hc
      rw [List.getLast?_map] at hc
      obtain ⟨c', hc', rfl⟩ := Option.map_eq_some_iff.1 hc
      exact h3 c' hc' (hbl c' hb)
    · rw [small_map]
      unfold clean
      rw [List.map_map]
      refine List.map_congr_left fun c _ => ?_
      show c.toLower = c.toLower.toLower
      have h := toLower_small c
      have h' := toLower_small c.toLower
      unfold SmallOf at h h'
      split at h
      · rw [if_neg (by omega)] at h'; exact h'.symm
      · rename_i hc; rw [h] at h' ⊢; rw [if_neg hc] at h'; exact h'.symm
  have one : ∀ y (default : Option Thing), w.asCrd y default = .ok u → u = "Unknown".toList ∨ (∃ s, u = clean s) ∨ ∃ d, default = some d ∧ w.asCrd d none = .ok u := by
    intro y default h
    cases hy : w.crdOf y with
    | error e =>
      unfold World.asCrd at h; rw [hy] at h; cases h
    | ok z =>
      rw [asCrd_of w y default z hy] at h
      split at h
      · simp at h; exact .inr (.inl ⟨_, h.symm⟩)
      · simp at h; exact .inl (by simpa using h.symm)
      · cases default with
        | none => cases h
        | some d => exact .inr (.inr ⟨d, rfl, by rw [← asCrd1_eq]; exact h⟩)
  have done : ∀ s, u = clean s → w.asCrd (.val (.text u)) d' = .ok u := by
    rintro s rfl
    exact (C205_text w _ _ d').2 (clean2 s)
  rcases one x default h with h | ⟨s, h⟩ | ⟨d, _, h⟩
  · exact .inl h
  · exact .inr (done s h)
  · rcases one d none h with h | ⟨s, h⟩ | ⟨d, hd, _⟩
    · exact .inl h
    · exact .inr (done s h)
    · cases hd

/-- C205 is false: for a node of another kind with a field or a grid of OpenGGCM above it there is a NameError, whatever its info and
the default. -/
theorem C205_below_violated (w : World) (n m : Nat) (hf : FewAbove w n) (hn : w.kind n = .plain) (hm : Above w n m)
    (hk : w.kind m ≠ .plain) (default : Option Thing) : w.asCrd (.node n) default = .error .nameError := by
  have : w.crdOf (.node n) = .error .nameError := by
    unfold World.crdOf
    dsimp only
    rw [if_neg (fun h => (crd_attr_kind w n).1 h hn), attr_error w n hf w.hasCrd m hm ((crd_attr_kind w m).2 hk)]
    rfl
  unfold World.asCrd; rw [this]; rfl

/-- Two nodes: field 0 on grid 1, which says "  GSE ". -/
def exCrd : World where
  parents n := if n = 0 then [1] else []
  info n := if n = 1 then [("crd_system".toList, .text "  GSE ".toList)] else []
  kind n := if n = 0 then .field else .plain
  fuel := 4
  moment _ := none
  timeTruth _ := true

theorem exCrd_parents : exCrd.parents = fun n => if n = 0 then [1] else [] := rfl
theorem exCrd_kind : exCrd.kind = fun n => if n = 0 then .field else .plain := rfl
theorem exCrd_fuel : exCrd.fuel = 4 := rfl

theorem exCrd_finite : FewAbove exCrd 0 := by
  refine ⟨[0, 1], ⟨by simp [exCrd_parents], ?_⟩, by simp [exCrd_fuel]⟩
  intro n hn m hm
  simp at hn
  rcases hn with rfl | rfl <;> simp_all [exCrd_parents]

/-- The hypotheses are met: a field finds what its grid says. -/
example : FewAbove exCrd 0 ∧ Askable exCrd 0 ∧ Nearest exCrd 0 "crd_system" (.text "  GSE ".toList) ∧
    exCrd.asCrd (.node 0) none = .ok "gse".toList := by
  have hN : Nearest exCrd 0 "crd_system" (.text "  GSE ".toList) :=
    ⟨1, ⟨1, by decide +kernel, by
      intro d hd m hm
      obtain rfl : d = 0 := by omega
      simp [level] at hm; subst hm; decide +kernel⟩, by unfold Holds; decide +kernel⟩
  refine ⟨exCrd_finite, .inl (by simp [exCrd_kind]), hN, ?_⟩
  rw [C205_node_partial exCrd 0 exCrd_finite (.inl (by simp [exCrd_kind])) _ _ (by simp) hN, ← clean_iff]
  decide +kernel

/-! ### C206 -/

namespace AC

theorem asCotr_of (w : World) (x : Thing) (default : Option Thing) (y : Option Out) (h : w.cotrOf x = .ok y) :
    w.asCotr x default = match (generalizing := false) y with
      | some o => .ok o
      | none => match default with
        | none => .error .typeError
        | some d => w.asCotr d none := by
  unfold World.asCotr
  rw [h]
  cases y <;> cases default <;> rfl

/-- No grid of OpenGGCM among `n` and the nodes above it. -/
def Free (w : World) (n : Nat) : Prop := ∀ m, Above w n m → w.kind m ≠ .ggcmGrid

theorem self_above (w : World) (n : Nat) : Above w n n := ⟨0, by simp [level]⟩

theorem free_attr (w : World) (n : Nat) (hf : FewAbove w n) (h : Free w n) : w.attr w.hasCotr n = .ok none ∧ w.hasCotr n = false := by
  have : ∀ m, Above w n m → w.hasCotr m = false := fun m hm => by
    cases hb : w.hasCotr m
    · rfl
    · exact absurd ((cotr_attr_kind w m).1 hb) (h m hm)
  exact ⟨attr_none w n hf _ this, this n (self_above w n)⟩

theorem nearest_self (w : World) (n : Nat) (key : String) (v : Val) (h : Holds w n key v) : Nearest w n key v := by
  refine ⟨n, ⟨0, ?_, fun d hd => absurd hd (by omega)⟩, h⟩
  unfold Holds at h
  simp [level, h]

theorem truth_pos (w : World) (v : Val) (hv : ¬ Nought w v) : w.truth v = true := by
  cases hb : w.truth v
  · exact absurd ((truth_iff w v).1 hb) hv
  · rfl

end AC

/-- C206: nothing stands for a dipole without tilt; a `Cotr` for itself; a time, or a text that is one, for the `Cotr` of that time. -/
theorem C206_value (w : World) (default : Option Thing) :
    w.asCotr (.val .none) default = .ok (.cotr (.angles 0 0)) ∧
    (∀ c, w.asCotr (.val (.cotr c)) default = .ok (.cotr c)) ∧
    (∀ t, w.asCotr (.val (.time t)) default = .ok (.cotr (.atTime t))) ∧
    ∀ s t, w.moment s = some t → w.asCotr (.val (.text s)) default = .ok (.cotr (.atTime t)) := by
  refine ⟨asCotr_of w (.val .none) default (some _) rfl, fun c => asCotr_of w (.val (.cotr c)) default (some _) rfl, fun t => asCotr_of w (.val (.time t)) default (some _) rfl, fun s t h => ?_⟩
  rw [asCotr_of w _ default (some (.cotr (.atTime t)))]
  show Except.ok (World.cotrVal w (.text s)) = _
  rw [World.cotrVal, h]; rfl

/-- C206: text that is no time, and other values, give way to the default; without one there is a TypeError. -/
theorem C206_default (w : World) (v : Val) (hv : (∃ s, v = .text s ∧ w.moment s = none) ∨ v = .notImplemented ∨ ∃ b, v = .other b) :
    w.asCotr (.val v) none = .error .typeError ∧ ∀ d, w.asCotr (.val v) (some d) = w.asCotr d none := by
  have h : w.cotrOf (.val v) = .ok none := by
    rcases hv with ⟨s, rfl, h⟩ | rfl | ⟨b, rfl⟩
    · show Except.ok (World.cotrVal w (.text s)) = _
      rw [World.cotrVal, h]; rfl
    · rfl
    · rfl
  exact ⟨asCotr_of w _ none _ h, fun d => asCotr_of w _ (some d) _ h⟩

/-- C206 is false: a mapping is said to be passed on to the constructor, but none is understood. -/
theorem C206_mapping_violated (w : World) (d : Dict (List Char) Int) :
    w.asCotr (.val (.mapping d)) none = .error .typeError ∧ ∀ x, w.asCotr (.val (.mapping d)) (some x) = w.asCotr x none :=
  ⟨asCotr_of w (.val (.mapping d)) none none rfl, fun x => asCotr_of w (.val (.mapping d)) (some x) none rfl⟩

/-- C206: a grid of OpenGGCM that holds the time of its dipole, or failing that a base time, stands for that time. -/
theorem C206_grid_partial (w : World) (n : Nat) (hf : FewAbove w n) (hk : w.kind n = .ggcmGrid) (t : Int) (default : Option Thing)
    (h : Holds w n "dipoletime" (.time t) ∨ (w.info n).get? "dipoletime".toList = none ∧ Holds w n "basetime" (.time t)) :
    w.asCotr (.node n) default = .ok (.cotr (.atTime t)) := by
  apply asCotr_of w _ default (some _)
  unfold World.cotrOf
  dsimp only
  rw [if_pos ((cotr_attr_kind w n).2 hk)]
  unfold World.cotrAttr Tree.hasInfo
  rcases h with h | ⟨h0, h⟩
  · have h' : (w.info n).get? dipoletime = some (.time t) := h
    have hfind : w.find n dipoletime = _ := find_nearest w n hf "dipoletime" _ (nearest_self w n _ _ h)
    rw [h', hfind]; rfl
  · have h0' : (w.info n).get? dipoletime = none := h0
    have h' : (w.info n).get? basetime = some (.time t) := h
    have hfind : w.find n basetime = _ := find_nearest w n hf "basetime" _ (nearest_self w n _ _ h)
    rw [h0', h', hfind]; rfl

/-- C206 is false: for a grid of OpenGGCM that holds neither, `NotImplemented` is given back, which is no `Cotr` and no exception,
whatever the default and whatever the nodes above it hold. -/
theorem C206_grid_violated (w : World) (n : Nat) (hk : w.kind n = .ggcmGrid) (h1 : (w.info n).get? "dipoletime".toList = none)
    (h2 : (w.info n).get? "basetime".toList = none) (default : Option Thing) : w.asCotr (.node n) default = .ok .notImplemented := by
  apply asCotr_of w _ default (some _)
  unfold World.cotrOf
  dsimp only
  rw [if_pos ((cotr_attr_kind w n).2 hk)]
  unfold World.cotrAttr Tree.hasInfo
  rw [show (w.info n).get? dipoletime = none from h1, show (w.info n).get? basetime = none from h2]; rfl

/-- C206 is false: for a field (or any other node) on a grid of OpenGGCM there is a NameError, whatever the grid holds and whatever
the default. -/
theorem C206_field_violated (w : World) (n m : Nat) (hf : FewAbove w n) (hn : w.kind n ≠ .ggcmGrid) (hm : Above w n m)
    (hk : w.kind m = .ggcmGrid) (default : Option Thing) : w.asCotr (.node n) default = .error .nameError := by
  have : w.cotrOf (.node n) = .error .nameError := by
    unfold World.cotrOf
    dsimp only
    rw [if_neg (fun h => hn ((cotr_attr_kind w n).1 h)), attr_error w n hf w.hasCotr m hm ((cotr_attr_kind w m).2 hk)]
    rfl
  unfold World.asCotr; rw [this]; rfl

/-- C206: for other nodes it is what the nearest `cotr` info stands for, or failing that the nearest `dipoletime`; if neither is there
the default takes their place. -/
theorem C206_node_partial (w : World) (n : Nat) (hf : FewAbove w n) (hn : Free w n) :
    (∀ v default, Nearest w n "cotr" v → ¬ Nought w v → w.asCotr (.node n) default = w.asCotr (.val v) none) ∧
    (∀ v default, Unset w n "cotr" → Nearest w n "dipoletime" v → ¬ Nought w v →
      w.asCotr (.node n) default = w.asCotr (.val v) none) ∧
    (Unset w n "cotr" → Unset w n "dipoletime" →
      w.asCotr (.node n) none = .error .typeError ∧ ∀ d, w.asCotr (.node n) (some d) = w.asCotr d none) := by
  obtain ⟨h1, h2⟩ := free_attr w n hf hn
  have fin : ∀ v default, w.cotrOf (.node n) = (w.cotrInfo v >>= fun o => pure (some o)) →
      w.asCotr (.node n) default = w.asCotr (.val v) none := by
    intro v default h
    rw [asCotr_of w (.val v) none _ rfl]
    unfold World.cotrInfo at h
    cases hv : w.cotrVal v with
    | some o =>
      rw [hv] at h
      rw [asCotr_of w (.node n) default (some o) h]
    | none =>
      rw [hv] at h
      unfold World.asCotr
      rw [h]; rfl
  refine ⟨fun v default hv hn => fin v default ?_, fun v default hu hv hn => fin v default ?_, fun hu hu' => ?_⟩
  · unfold World.cotrOf
    dsimp only
    rw [if_neg (by rw [h2]; simp), h1]
    show (World.find w n cotrKey >>= _) = _
    have hfind : w.find n cotrKey = _ := find_nearest w n hf "cotr" v hv
    rw [hfind]
    show (if w.truth v = true then _ else _) = _
    rw [if_pos (truth_pos w v hn)]
  · unfold World.cotrOf
    dsimp only
    rw [if_neg (by rw [h2]; simp), h1]
    show (World.find w n cotrKey >>= _) = _
    obtain ⟨v', hfind', ht'⟩ := find_unset w n hf "cotr" hu
    have hfind' : w.find n cotrKey = _ := hfind'
    have hfind : w.find n dipoletime = _ := find_nearest w n hf "dipoletime" v hv
    rw [hfind']
    show (if w.truth v' = true then _ else (w.find n dipoletime >>= _)) = _
    rw [if_neg (by rw [ht']; simp), hfind]
    show (if w.truth v = true then _ else _) = _
    rw [if_pos (truth_pos w v hn)]
  · have : w.cotrOf (.node n) = .ok none := by
      unfold World.cotrOf
      dsimp only
      rw [if_neg (by rw [h2]; simp), h1]
      show (World.find w n cotrKey >>= _) = _
      obtain ⟨v', hfind', ht'⟩ := find_unset w n hf "cotr" hu
      obtain ⟨v, hfind, ht⟩ := find_unset w n hf "dipoletime" hu'
      have hfind' : w.find n cotrKey = _ := hfind'
      have hfind : w.find n dipoletime = _ := hfind
      rw [hfind']
      show (if w.truth v' = true then _ else (w.find n dipoletime >>= _)) = _
      rw [if_neg (by rw [ht']; simp), hfind]
      show (if w.truth v = true then _ else _) = _
      rw [if_neg (by rw [ht]; simp)]; rfl
    exact ⟨asCotr_of w _ none _ this, fun d => asCotr_of w _ (some d) _ this⟩

/-- C206 is false: a default is of no use if an info is there but is not understood: there is a TypeError nevertheless. -/
theorem C206_info_violated (w : World) (n : Nat) (hf : FewAbove w n) (hn : Free w n) (s : List Char) (hs : s ≠ [])
    (h : Nearest w n "cotr" (.text s)) (hm : w.moment s = none) (default : Option Thing) :
    w.asCotr (.node n) default = .error .typeError := by
  rw [(C206_node_partial w n hf hn).1 (.text s) default h (by simpa [Nought] using hs)]
  exact (C206_default w (.text s) (.inl ⟨s, rfl, hm⟩)).1

/-- A field 0 on an OpenGGCM grid 1 that holds the time of its dipole, in a file 2. -/
def exCotr : World where
  parents n := if n = 0 then [1] else if n = 1 then [2] else []
  info n := if n = 1 then [("dipoletime".toList, .time 7)] else []
  kind n := if n = 0 then .field else if n = 1 then .ggcmGrid else .plain
  fuel := 5
  moment _ := none
  timeTruth _ := true

theorem exCotr_parents : exCotr.parents = fun n => if n = 0 then [1] else if n = 1 then [2] else [] := rfl
theorem exCotr_kind : exCotr.kind = fun n => if n = 0 then .field else if n = 1 then .ggcmGrid else .plain := rfl
theorem exCotr_fuel : exCotr.fuel = 5 := rfl
theorem exCotr_info : exCotr.info 2 = [] := rfl

theorem exCotr_few (n : Nat) (h : n < 3) : FewAbove exCotr n := by
  refine ⟨[0, 1, 2], ⟨?_, ?_⟩, by simp [exCotr_fuel]⟩
  · intro m hm
    have : n = 0 ∨ n = 1 ∨ n = 2 := by omega
    rcases this with rfl | rfl | rfl <;> simp_all [exCotr_parents]
  · intro k hk m hm
    simp at hk
    rcases hk with rfl | rfl | rfl <;> simp_all [exCotr_parents]

/-- The hypotheses are met: the grid stands for its time, the field on it does not, the file stands for the default. -/
example : exCotr.asCotr (.node 1) none = .ok (.cotr (.atTime 7)) ∧ exCotr.asCotr (.node 0) (some (.val .none)) = .error .nameError ∧
    exCotr.asCotr (.node 2) (some (.val .none)) = .ok (.cotr (.angles 0 0)) := by
  refine ⟨C206_grid_partial exCotr 1 (exCotr_few 1 (by omega)) rfl 7 none (.inl (by unfold Holds; decide +kernel)),
    C206_field_violated exCotr 0 1 (exCotr_few 0 (by omega)) (by simp [exCotr_kind]) ⟨1, by simp [level, exCotr_parents]⟩ rfl _, ?_⟩
  have none2 : ∀ d m, m ∈ level exCotr.parents 2 d → m = 2 := by
    intro d
    induction d with
    | zero => intro m hm; simpa [level] using hm
    | succ d ih =>
      intro m hm
      simp only [level, List.mem_flatMap] at hm
      obtain ⟨k, hk, hm⟩ := hm
      rw [ih k hk] at hm
      simp [exCotr_parents] at hm
  have hfree : Free exCotr 2 := by
    rintro m ⟨d, hd⟩
    rw [none2 d m hd]; simp [exCotr_kind]
  have := ((C206_node_partial exCotr 2 (exCotr_few 2 (by omega)) hfree).2.2 (.inl ?_) (.inl ?_)).2 (.val .none)
  · rw [this]; exact (C206_value exCotr none).1
  · intro d m hm; rw [none2 d m hm]; rw [exCotr_info]; rfl
  · intro d m hm; rw [none2 d m hm]; rw [exCotr_info]; rfl

end Viscid.Props
