import Verif.Model.CrdNames
import Verif.Spec.CrdNames
import Verif.Props.Crds
import Mathlib.Tactic.Linarith
import Mathlib.Tactic.Ring
import Mathlib.Tactic.FieldSimp
/-!
# C193, C194: coordinate arrays by name; extents
-/
namespace Viscid.Props
open Viscid.CrdNames
open Viscid.Crds (Axis Uniform linspace reflectArr linspace_length linspace_get)
open Viscid.Spec.CrdNames

namespace CN

/-- where the points of a centering are -/
def wh : Center → Where
  | .none => .nodes
  | .node => .nodes
  | .cell => .cells
  | .face => .faces
  | .edge => .edges

theorem ending (c : Center) : Ending (sfx c) (wh c) := by cases c <;> constructor

theorem capital_up (c : Nat) : Capital c (upC c) := by
  unfold Capital upC
  by_cases h : 97 ≤ c ∧ c ≤ 122
  · rw [if_pos h]; left; omega
  · rw [if_neg h]; right; omega

theorem capital_iff (c d : Nat) : Capital c d ↔ d = upC c := by
  unfold Capital upC
  by_cases h : 97 ≤ c ∧ c ≤ 122
  · rw [if_pos h]; omega
  · rw [if_neg h]; omega

theorem capitals (a b : List Nat) : List.Forall₂ Capital a b ↔ b = up a := by
  induction a generalizing b with
  | nil => constructor
           · intro h; cases h; rfl
           · rintro rfl; exact .nil
  | cons c a ih =>
    constructor
    · intro h
      cases h with
      | cons h1 h2 => rw [(capital_iff _ _).1 h1, (ih _).1 h2]; rfl
    · rintro rfl
      exact .cons (capital_up c) ((ih _).2 rfl)

theorem low_small (a : Name) (h : ∀ c ∈ a, c < 65 ∨ 90 < c) : low a = a := by
  unfold low
  have : ∀ c ∈ a, lowC c = c := by
    intro c hc
    unfold lowC
    rw [if_neg]
    have := h c hc
    omega
  simp only [List.map_congr_left this, List.map_id']

theorem up_inj (a b : Name) (ha : ∀ c ∈ a, c < 65 ∨ 90 < c) (hb : ∀ c ∈ b, c < 65 ∨ 90 < c) (h : up a = up b) :
    a = b := by
  unfold up at h
  induction a generalizing b with
  | nil => cases b with
    | nil => rfl
    | cons d b => simp at h
  | cons c a ih =>
    cases b with
    | nil => simp at h
    | cons d b =>
      simp only [List.map_cons, List.cons.injEq] at h
      have h1 := ha c (List.mem_cons_self ..)
      have h2 := hb d (List.mem_cons_self ..)
      have h3 : c = d := by
        have := h.1
        unfold upC at this
        split at this <;> split at this <;> omega
      rw [h3, ih b (fun e he => ha e (List.mem_cons_of_mem _ he)) (fun e he => hb e (List.mem_cons_of_mem _ he)) h.2]

/-- what `putNodes` adds -/
theorem mem_putNodes (l : List (Name × Nat)) (d : Dct) (k : Name) (e : Entry) :
    (k, e) ∈ putNodes d l ↔ (k, e) ∈ d ∨ ∃ a i, (a, i) ∈ l ∧
      (((k = low a ∨ k = low a ++ sfx .node) ∧ e = ⟨i, false, .node⟩) ∨
        ((k = up a ∨ k = up a ++ sfx .node) ∧ e = ⟨i, true, .node⟩)) := by
  induction l generalizing d with
  | nil => simp [putNodes]
  | cons x l ih =>
    obtain ⟨a, i⟩ := x
    unfold putNodes
    rw [ih]
    simp only [Dct.set, List.mem_cons, Prod.mk.injEq]
    constructor
    · rintro ((h | h | h | h | h) | ⟨b, j, h, h'⟩)
      · exact .inr ⟨a, i, .inl ⟨rfl, rfl⟩, .inr ⟨.inr h.1, h.2⟩⟩
      · exact .inr ⟨a, i, .inl ⟨rfl, rfl⟩, .inl ⟨.inr h.1, h.2⟩⟩
      · exact .inr ⟨a, i, .inl ⟨rfl, rfl⟩, .inr ⟨.inl h.1, h.2⟩⟩
      · exact .inr ⟨a, i, .inl ⟨rfl, rfl⟩, .inl ⟨.inl h.1, h.2⟩⟩
      · exact .inl h
      · exact .inr ⟨b, j, .inr h, h'⟩
    · rintro (h | ⟨b, j, ⟨rfl, rfl⟩ | h, h'⟩)
      · exact .inl (.inr (.inr (.inr (.inr h))))
      · rcases h' with ⟨h1 | h1, h2⟩ | ⟨h1 | h1, h2⟩
        · exact .inl (.inr (.inr (.inr (.inl ⟨h1, h2⟩))))
        · exact .inl (.inr (.inl ⟨h1, h2⟩))
        · exact .inl (.inr (.inr (.inl ⟨h1, h2⟩)))
        · exact .inl (.inl ⟨h1, h2⟩)
      · exact .inr ⟨b, j, h, h'⟩

/-- what `putCenter` adds -/
theorem mem_putCenter (c : Center) (l : List (Name × Nat)) (d : Dct) (k : Name) (e : Entry) :
    (k, e) ∈ putCenter c d l ↔ (k, e) ∈ d ∨ ∃ a i, (a, i) ∈ l ∧
      ((k = a ++ sfx c ∧ e = ⟨i, false, c⟩) ∨ (k = up a ++ sfx c ∧ e = ⟨i, true, c⟩)) := by
  induction l generalizing d with
  | nil => simp [putCenter]
  | cons x l ih =>
    obtain ⟨a, i⟩ := x
    unfold putCenter
    rw [ih]
    simp only [Dct.set, List.mem_cons, Prod.mk.injEq]
    constructor
    · rintro ((h | h | h) | ⟨b, j, h, h'⟩)
      · exact .inr ⟨a, i, .inl ⟨rfl, rfl⟩, .inr h⟩
      · exact .inr ⟨a, i, .inl ⟨rfl, rfl⟩, .inl h⟩
      · exact .inl h
      · exact .inr ⟨b, j, .inr h, h'⟩
    · rintro (h | ⟨b, j, ⟨rfl, rfl⟩ | h, h'⟩)
      · exact .inl (.inr (.inr h))
      · rcases h' with h' | h'
        · exact .inl (.inr (.inl h'))
        · exact .inl (.inl h')
      · exact .inr ⟨b, j, h, h'⟩

/-- the centering that an array is filed under -/
def cen : Where → Center
  | .nodes => .node
  | .cells => .cell
  | .faces => .face
  | .edges => .edge

/-- the dictionary has the names that mean something, and what they mean -/
theorem mem_fill (axes : List Name) (hs : ∀ a ∈ axes, ∀ c ∈ a, c < 65 ∨ 90 < c) (k : Name) (e : Entry) :
    (k, e) ∈ fill axes ↔ ∃ i sh w, Means axes k i sh w ∧ e = ⟨i, sh, cen w⟩ := by
  have hz : ∀ a i, (a, i) ∈ axes.zipIdx ↔ axes[i]? = some a := by
    intro a i
    rw [List.mk_mem_zipIdx_iff_getElem?]
  unfold fill
  simp only [mem_putCenter, mem_putNodes, hz]
  constructor
  · rintro ((((h | ⟨a, i, h, h'⟩) | ⟨a, i, h, h'⟩) | ⟨a, i, h, h'⟩) | ⟨a, i, h, h'⟩)
    · exact absurd h (List.not_mem_nil)
    · have hl : low a = a := low_small a (hs a (List.mem_of_getElem? h))
      rw [hl] at h'
      rcases h' with ⟨h1 | h1, h2⟩ | ⟨h1 | h1, h2⟩
      · exact ⟨i, false, .nodes, ⟨a, a, [], h, rfl, .plain, by rw [h1, List.append_nil]⟩, h2⟩
      · exact ⟨i, false, .nodes, ⟨a, a, _, h, rfl, .nc, h1⟩, h2⟩
      · exact ⟨i, true, .nodes, ⟨a, up a, [], h, (capitals a _).2 rfl, .plain, by rw [h1, List.append_nil]⟩, h2⟩
      · exact ⟨i, true, .nodes, ⟨a, up a, _, h, (capitals a _).2 rfl, .nc, h1⟩, h2⟩
    · rcases h' with ⟨h1, h2⟩ | ⟨h1, h2⟩
      · exact ⟨i, false, .cells, ⟨a, a, _, h, rfl, .cc, h1⟩, h2⟩
      · exact ⟨i, true, .cells, ⟨a, up a, _, h, (capitals a _).2 rfl, .cc, h1⟩, h2⟩
    · rcases h' with ⟨h1, h2⟩ | ⟨h1, h2⟩
      · exact ⟨i, false, .faces, ⟨a, a, _, h, rfl, .fc, h1⟩, h2⟩
      · exact ⟨i, true, .faces, ⟨a, up a, _, h, (capitals a _).2 rfl, .fc, h1⟩, h2⟩
    · rcases h' with ⟨h1, h2⟩ | ⟨h1, h2⟩
      · exact ⟨i, false, .edges, ⟨a, a, _, h, rfl, .ec, h1⟩, h2⟩
      · exact ⟨i, true, .edges, ⟨a, up a, _, h, (capitals a _).2 rfl, .ec, h1⟩, h2⟩
  · rintro ⟨i, sh, w, ⟨a, b, t, h, hb, ht, hk⟩, he⟩
    have hl : low a = a := low_small a (hs a (List.mem_of_getElem? h))
    subst hk he
    cases sh with
    | false =>
      have hb : a = b := hb
      subst hb
      cases ht with
      | plain => exact .inl (.inl (.inl (.inr ⟨a, i, h, .inl ⟨.inl (by rw [hl, List.append_nil]), rfl⟩⟩)))
      | nc => exact .inl (.inl (.inl (.inr ⟨a, i, h, .inl ⟨.inr (by rw [hl]; rfl), rfl⟩⟩)))
      | cc => exact .inl (.inl (.inr ⟨a, i, h, .inl ⟨rfl, rfl⟩⟩))
      | fc => exact .inl (.inr ⟨a, i, h, .inl ⟨rfl, rfl⟩⟩)
      | ec => exact .inr ⟨a, i, h, .inl ⟨rfl, rfl⟩⟩
    | true =>
      have hb : List.Forall₂ Capital a b := hb
      rw [capitals] at hb
      subst hb
      cases ht with
      | plain => exact .inl (.inl (.inl (.inr ⟨a, i, h, .inr ⟨.inl (by rw [List.append_nil]), rfl⟩⟩)))
      | nc => exact .inl (.inl (.inl (.inr ⟨a, i, h, .inr ⟨.inr rfl, rfl⟩⟩)))
      | cc => exact .inl (.inl (.inr ⟨a, i, h, .inr ⟨rfl, rfl⟩⟩))
      | fc => exact .inl (.inr ⟨a, i, h, .inr ⟨rfl, rfl⟩⟩)
      | ec => exact .inr ⟨a, i, h, .inr ⟨rfl, rfl⟩⟩

theorem ending_len {t w} (h : Ending t w) : t.length = 0 ∨ t.length = 2 := by cases h <;> simp

theorem ending_fun {t w w'} (h : Ending t w) (h' : Ending t w') : w = w' := by
  cases h <;> cases h' <;> rfl

theorem ending_small {t w} (h : Ending t w) : ∀ c ∈ t, 97 ≤ c ∧ c ≤ 122 := by
  cases h <;> simp

theorem append_same {a b t u : List Nat} (h : a ++ t = b ++ u) (hl : t.length = u.length) : a = b ∧ t = u :=
  List.append_inj' h hl

theorem up_no_small (a : Name) : ∀ c ∈ up a, c < 97 ∨ 122 < c := by
  intro c hc
  unfold up at hc
  rw [List.mem_map] at hc
  obtain ⟨d, _, rfl⟩ := hc
  unfold upC
  split <;> omega

theorem up_has_capital (a : Name) (h : ∃ c ∈ a, 97 ≤ c ∧ c ≤ 122) : ∃ c ∈ up a, 65 ≤ c ∧ c ≤ 90 := by
  obtain ⟨c, hc, h1⟩ := h
  refine ⟨upC c, List.mem_map_of_mem hc, ?_⟩
  unfold upC
  rw [if_pos h1]
  omega

theorem nodup_idx {l : List Name} (h : l.Nodup) {i j : Nat} {a : Name} (hi : l[i]? = some a) (hj : l[j]? = some a) : i = j := by
  obtain ⟨h1, h1'⟩ := List.getElem?_eq_some_iff.1 hi
  obtain ⟨h2, h2'⟩ := List.getElem?_eq_some_iff.1 hj
  have := List.Nodup.idxOf_getElem h i h1
  have h3 := List.Nodup.idxOf_getElem h j h2
  rw [h1'] at this
  rw [h2'] at h3
  omega

theorem means_fun {axes : List Name} (hp : Plain axes) {s i sh w j sh' w'} (h : Means axes s i sh w)
    (h' : Means axes s j sh' w') : i = j ∧ sh = sh' ∧ w = w' := by
  obtain ⟨a, b, t, hi, hb, ht, hs⟩ := h
  obtain ⟨a', b', t', hi', hb', ht', hs'⟩ := h'
  have ma := List.mem_of_getElem? hi
  have ma' := List.mem_of_getElem? hi'
  -- an open name and a flat name are different
  have key : ∀ {a a' : Name} {t t' w w'}, a ∈ axes → a' ∈ axes → Ending t w → Ending t' w' → up a ++ t ≠ a' ++ t' := by
    intro a a' t t' w w' ma ma' _ ht' heq
    obtain ⟨c, hc, h1⟩ := up_has_capital a (hp.letter a ma)
    have : c ∈ a' ++ t' := by rw [← heq]; exact List.mem_append_left _ hc
    rcases List.mem_append.1 this with h | h
    · have := hp.small a' ma' c h; omega
    · have := ending_small ht' c h; omega
  cases sh <;> cases sh'
  · have hb : a = b := hb
    have hb' : a' = b' := hb'
    subst hb hb'
    have e : a ++ t = a' ++ t' := hs.symm.trans hs'
    have hlen : t.length = t'.length := by
      rcases ending_len ht with h0 | h0 <;> rcases ending_len ht' with h0' | h0'
      · omega
      · have : t = [] := List.eq_nil_of_length_eq_zero h0
        subst this
        rw [List.append_nil] at e
        have := hp.apart a ma a' ma' t' w' ht' e
        rw [this] at h0'; simp at h0'
      · have : t' = [] := List.eq_nil_of_length_eq_zero h0'
        subst this
        rw [List.append_nil] at e
        have := hp.apart a' ma' a ma t w ht e.symm
        rw [this] at h0; simp at h0
      · omega
    obtain ⟨e1, e2⟩ := append_same e hlen
    subst e1 e2
    exact ⟨nodup_idx hp.nodup hi hi', rfl, ending_fun ht ht'⟩
  · have hb : a = b := hb
    have hb' : List.Forall₂ Capital a' b' := hb'
    rw [capitals] at hb'
    subst hb hb'
    exact absurd (hs'.symm.trans hs) (key ma' ma ht' ht)
  · have hb : List.Forall₂ Capital a b := hb
    have hb' : a' = b' := hb'
    rw [capitals] at hb
    subst hb hb'
    exact absurd (hs.symm.trans hs') (key ma ma' ht ht')
  · have hb : List.Forall₂ Capital a b := hb
    have hb' : List.Forall₂ Capital a' b' := hb'
    rw [capitals] at hb hb'
    subst hb hb'
    have e : up a ++ t = up a' ++ t' := hs.symm.trans hs'
    have bad : ∀ {a a' : Name} {t : List Nat} {w}, Ending t w → t.length = 2 → up a ≠ up a' ++ t := by
      intro a a' t w ht hl heq
      obtain ⟨c, hc⟩ : ∃ c, c ∈ t := by
        cases t with
        | nil => simp at hl
        | cons c _ => exact ⟨c, List.mem_cons_self ..⟩
      have := up_no_small a c (by rw [heq]; exact List.mem_append_right _ hc)
      have := ending_small ht c hc
      omega
    have hlen : t.length = t'.length := by
      rcases ending_len ht with h0 | h0 <;> rcases ending_len ht' with h0' | h0'
      · omega
      · have : t = [] := List.eq_nil_of_length_eq_zero h0
        subst this
        rw [List.append_nil] at e
        exact absurd e (bad ht' h0')
      · have : t' = [] := List.eq_nil_of_length_eq_zero h0'
        subst this
        rw [List.append_nil] at e
        exact absurd e.symm (bad ht h0)
      · omega
    obtain ⟨e1, e2⟩ := append_same e hlen
    have := up_inj a a' (hp.small a ma) (hp.small a' ma') e1
    subst this e2
    exact ⟨nodup_idx hp.nodup hi hi', rfl, ending_fun ht ht'⟩

theorem lookup_mem {l : Dct} {k : Name} {e : Entry} (h : l.lookup k = some e) : (k, e) ∈ l := by
  induction l with
  | nil => simp at h
  | cons x l ih =>
    obtain ⟨k', e'⟩ := x
    rw [List.lookup_cons] at h
    by_cases hk : k == k'
    · rw [hk] at h
      have := eq_of_beq hk
      simp only [Option.some.injEq] at h
      subst this h
      exact List.mem_cons_self ..
    · rw [Bool.not_eq_true] at hk
      rw [hk] at h
      exact List.mem_cons_of_mem _ (ih h)

theorem mem_lookup {l : Dct} {k : Name} {e : Entry} (h : (k, e) ∈ l) : ∃ e', l.lookup k = some e' := by
  induction l with
  | nil => simp at h
  | cons x l ih =>
    obtain ⟨k', e'⟩ := x
    rw [List.lookup_cons]
    by_cases hk : k == k'
    · rw [hk]; exact ⟨e', rfl⟩
    · rw [Bool.not_eq_true] at hk
      rw [hk]
      rcases List.mem_cons.1 h with h | h
      · injection h with h1 _
        rw [h1] at hk
        simp at hk
      · exact ih h

theorem get_means {axes : List Name} (hp : Plain axes) {s i sh w} (h : Means axes s i sh w) :
    (fill axes).get s = .ok ⟨i, sh, cen w⟩ := by
  obtain ⟨e, he⟩ := mem_lookup ((mem_fill axes hp.small s ⟨i, sh, cen w⟩).2 ⟨i, sh, w, h, rfl⟩)
  obtain ⟨i', sh', w', h', he'⟩ := (mem_fill axes hp.small s e).1 (lookup_mem he)
  obtain ⟨rfl, rfl, rfl⟩ := means_fun hp h h'
  unfold Dct.get
  rw [he, he']

theorem means_get {axes : List Name} (hs : ∀ a ∈ axes, ∀ c ∈ a, c < 65 ∨ 90 < c) {s e} (h : (fill axes).get s = .ok e) :
    ∃ i sh w, Means axes s i sh w ∧ e = ⟨i, sh, cen w⟩ := by
  unfold Dct.get at h
  cases he : (fill axes).lookup s with
  | none => rw [he] at h; cases h
  | some e' =>
    rw [he] at h
    injection h with h
    subst h
    exact (mem_fill axes hs s e').1 (lookup_mem he)

theorem getItem_eq (axes : List Name) (s : Name) : getItem axes (.name s) = (fill axes).get s := by
  unfold getItem getCrd
  simp only [bind, Except.bind, sfx, List.append_nil]
  cases h : (fill axes).get s <;> simp [h]

end CN
open CN

/-- `crds["x"]`, `crds["Xcc"]`, `crds["zfc"]`, ...: each name gives the array of the axis, the shape and the centering
that it stands for -/
theorem C193_names (axes : List Name) (hp : Plain axes) (s : Name) (i : Nat) (sh : Bool) (w : Where)
    (h : Means axes s i sh w) :
    ∃ e, getItem axes (.name s) = .ok e ∧ e.axis = i ∧ e.shaped = sh ∧
      (w = .nodes → e.center = .node) ∧ (w = .cells → e.center = .cell) ∧ (w = .faces → e.center = .face) ∧
      (w = .edges → e.center = .edge) := by
  refine ⟨_, (getItem_eq axes s).trans (get_means hp h), rfl, rfl, ?_, ?_, ?_, ?_⟩ <;> (rintro rfl; rfl)

/-- ... and every other name is a KeyError -/
theorem C193_other (axes : List Name) (hp : Plain axes) (s : Name) (h : ∀ i sh w, ¬ Means axes s i sh w) :
    getItem axes (.name s) = .error .key := by
  rw [getItem_eq]
  cases hg : (fill axes).get s with
  | ok e =>
    obtain ⟨i, sh, w, h', _⟩ := means_get hp.small hg
    exact absurd h' (h i sh w)
  | error x =>
    unfold Dct.get at hg
    split at hg
    · cases hg
    · injection hg with hg; rw [← hg]

/-- `get_crd`, and so `get_nc`, `get_cc`, ... and `get_crds`: by number, by name and by name in capitals, with the
centering given, it is the array that the name with that ending stands for -/
theorem C193_get (axes : List Name) (hp : Plain axes) (i : Nat) (a b : Name) (ha : axes[i]? = some a)
    (hb : List.Forall₂ Capital a b) (c : Center) :
    getCrd axes (.num i) false c = getItem axes (.name (a ++ sfx c)) ∧
    getCrd axes (.num (i - axes.length)) false c = getItem axes (.name (a ++ sfx c)) ∧
    getCrd axes (.name a) false c = getItem axes (.name (a ++ sfx c)) ∧
    getCrd axes (.num i) true c = getItem axes (.name (b ++ sfx c)) ∧
    getCrd axes (.num (i - axes.length)) true c = getItem axes (.name (b ++ sfx c)) ∧
    getCrd axes (.name a) true c = getItem axes (.name (b ++ sfx c)) ∧
    getCrd axes (.name b) false c = getItem axes (.name (b ++ sfx c)) := by
  have hi : i < axes.length := (List.getElem?_eq_some_iff.1 ha).1
  have hub : b = up a := (capitals a b).1 hb
  have p1 : pyAt axes (i : Int) = .ok a := by
    unfold pyAt
    rw [if_pos (by omega), Int.toNat_natCast, ha]
  have p2 : pyAt axes ((i : Int) - axes.length) = .ok a := by
    unfold pyAt
    rw [if_neg (by omega), if_pos (by omega)]
    have : ((i : Int) - axes.length + axes.length).toNat = i := by omega
    rw [this, ha]
  have m1 : Means axes a i false .nodes := ⟨a, a, [], ha, rfl, .plain, (List.append_nil a).symm⟩
  have m2 : Means axes b i true .nodes := ⟨a, b, [], ha, hb, .plain, (List.append_nil b).symm⟩
  have g1 := get_means hp m1
  have g2 := get_means hp m2
  simp only [getItem_eq]
  subst hub
  refine ⟨?_, ?_, ?_, ?_, ?_, ?_, ?_⟩ <;>
  · unfold getCrd
    simp [bind, Except.bind, p1, p2, g1, g2]

/-- a number that is not that of an axis is an IndexError -/
theorem C193_range (axes : List Name) (i : Int) (h : i < -axes.length ∨ axes.length ≤ i) (sh : Bool) (c : Center) :
    getCrd axes (.num i) sh c = .error .index := by
  have : pyAt axes i = .error .index := by
    unfold pyAt
    by_cases h0 : 0 ≤ i
    · rw [if_pos h0, List.getElem?_eq_none (by omega)]
    · rw [if_neg h0, if_neg (by omega)]
  unfold getCrd
  simp [bind, Except.bind, this]

/-- the names of the axes have to be given without capitals; then they are the axes -/
theorem C193_axes (given : List Name) :
    (∀ g ∈ given, ∀ c ∈ g, c < 65 ∨ 90 < c) ∧ axesOf given = .ok given ∨
    (∃ g ∈ given, ∃ c ∈ g, 65 ≤ c ∧ c ≤ 90) ∧ axesOf given = .error .key := by
  by_cases h : ∀ g ∈ given, ∀ c ∈ g, c < 65 ∨ 90 < c
  · left
    refine ⟨h, ?_⟩
    have e : given.map low = given := by
      have : ∀ g ∈ given, low g = g := fun g hg => low_small g (h g hg)
      simp only [List.map_congr_left this, List.map_id']
    unfold axesOf
    simp only [e]
    rw [if_pos (fun g hg => hg)]
  · right
    have h' : ∃ g ∈ given, ∃ c ∈ g, 65 ≤ c ∧ c ≤ 90 := by
      simp only [not_forall] at h
      obtain ⟨g, hg, c, hc, h1⟩ := h
      exact ⟨g, hg, c, hc, by omega⟩
    refine ⟨h', ?_⟩
    obtain ⟨g, hg, c, hc, h1⟩ := h'
    have e : axesOf given = if ∀ g ∈ given, g ∈ given.map low then .ok (given.map low) else .error .key := rfl
    rw [e, if_neg]
    intro hall
    have := hall g hg
    rw [List.mem_map] at this
    obtain ⟨g', _, hg'⟩ := this
    rw [← hg'] at hc
    unfold low at hc
    rw [List.mem_map] at hc
    obtain ⟨d, _, rfl⟩ := hc
    unfold lowC at h1
    split at h1 <;> omega

/-- `name in crds` for every name that stands for an array -/
theorem C193_contains (axes : List Name) (hp : Plain axes) (s : Name) (i : Nat) (sh : Bool) (w : Where)
    (h : Means axes s i sh w) (hlong : ∀ a ∈ axes, ∀ t w, Ending t w → t ≠ [] → ¬ t <:+ a) : contains axes s = true := by
  have isS : ∀ {s i sh w}, Means axes s i sh w → ((fill axes).lookup s).isSome = true := by
    intro s i sh w h
    have := get_means hp h
    unfold Dct.get at this
    cases hl : (fill axes).lookup s with
    | none => rw [hl] at this; cases this
    | some _ => rfl
  obtain ⟨a, b, t, hi, hb, ht, hs⟩ := h
  have ma := List.mem_of_getElem? hi
  have hlow : low b = a := by
    cases sh with
    | false => have hb : a = b := hb
               subst hb
               exact low_small a (hp.small a ma)
    | true =>
      have hb : List.Forall₂ Capital a b := hb
      rw [capitals] at hb
      subst hb
      unfold low up
      rw [List.map_map]
      have : ∀ c ∈ a, (lowC ∘ upC) c = c := by
        intro c hc
        have := hp.small a ma c hc
        simp only [Function.comp]
        unfold lowC upC
        split <;> split <;> omega
      simp only [List.map_congr_left this, List.map_id']
  unfold contains
  simp only
  by_cases hmem : s.drop (s.length - 2) ∈ [sfx .none, sfx .node, sfx .cell, sfx .face, sfx .edge]
  · rw [if_pos hmem]
    rcases ending_len ht with h0 | h0
    · have : t = [] := List.eq_nil_of_length_eq_zero h0
      subst this
      rw [List.append_nil] at hs
      subst hs
      -- the name of an axis does not end in an ending
      exfalso
      have hsuf : s.drop (s.length - 2) <:+ s := List.drop_suffix ..
      have hne : s ≠ [] := by
        rintro rfl
        obtain ⟨c, hc, _⟩ := hp.letter a ma
        rw [← hlow] at hc
        simp [low] at hc
      have hdl : (s.drop (s.length - 2)).length = min s.length 2 := by rw [List.length_drop]; omega
      have hpos : 0 < s.length := List.length_pos_iff.2 hne
      have key : ∀ t w, Ending t w → t ≠ [] → s.drop (s.length - 2) ≠ t := by
        intro t w ht htne heq
        rw [heq] at hsuf
        cases sh with
        | false =>
          have hb : a = s := hb
          subst hb
          exact hlong a ma t w ht htne hsuf
        | true =>
          have hb : List.Forall₂ Capital a s := hb
          rw [capitals] at hb
          obtain ⟨c, hc⟩ := List.exists_mem_of_ne_nil t htne
          have h1 := ending_small ht c hc
          have h2 := up_no_small a c (by rw [← hb]; exact hsuf.subset hc)
          omega
      simp only [List.mem_cons, List.not_mem_nil, or_false] at hmem
      rcases hmem with h | h | h | h | h
      · rw [h] at hdl
        simp only [sfx, List.length_nil] at hdl
        omega
      · exact key _ _ (ending .node) (by simp [sfx]) h
      · exact key _ _ (ending .cell) (by simp [sfx]) h
      · exact key _ _ (ending .face) (by simp [sfx]) h
      · exact key _ _ (ending .edge) (by simp [sfx]) h
    · have : s.take (s.length - 2) = b := by
        rw [hs, List.length_append, h0, Nat.add_sub_cancel, List.take_left]
      rw [this, hlow]
      exact isS (sh := false) ⟨a, a, [], hi, rfl, .plain, (List.append_nil a).symm⟩
  · rw [if_neg hmem]
    exact isS ⟨a, b, t, hi, hb, ht, hs⟩

/-- a shaped array of a name with an ending is a KeyError, though the centering is meant to be the same as the ending:
`crds.get_crd("xcc", shaped=True)` -/
theorem C193_shaped_ending_violated (axes : List Name) (hp : Plain axes) (a : Name) (ha : a ∈ axes) (c : Center) (hc : c ≠ .none) :
    getCrd axes (.name (a ++ sfx c)) true .none = .error .key := by
  have : getCrd axes (.name (a ++ sfx c)) true .none = getItem axes (.name (up (a ++ sfx c))) := by
    rw [getItem_eq]
    unfold getCrd
    have e0 : sfx .none = [] := rfl
    simp only [bind, Except.bind, if_true, e0, List.append_nil]
    cases h : (fill axes).get (up (a ++ sfx c)) <;> rfl
  rw [this]
  apply C193_other axes hp
  rintro i sh w ⟨x, b, t, hi, hb, ht, hs⟩
  have mx := List.mem_of_getElem? hi
  have nos := up_no_small (a ++ sfx c)
  have : t = [] := by
    by_contra hne
    obtain ⟨d, hd⟩ := List.exists_mem_of_ne_nil t hne
    have h1 := ending_small ht d hd
    have h2 := nos d (by rw [hs]; exact List.mem_append_right _ hd)
    omega
  subst this
  rw [List.append_nil] at hs
  cases sh with
  | false =>
    have hb : x = b := hb
    subst hb
    obtain ⟨d, hd, h1⟩ := hp.letter x mx
    have h2 := nos d (by rw [hs]; exact hd)
    omega
  | true =>
    have hb : List.Forall₂ Capital x b := hb
    rw [capitals] at hb
    subst hb
    have hsm : ∀ d ∈ a ++ sfx c, d < 65 ∨ 90 < d := by
      intro d hd
      rcases List.mem_append.1 hd with h | h
      · exact hp.small a ha d h
      · have := ending_small (ending c) d h; omega
    have hx := up_inj _ _ hsm (hp.small x mx) hs
    have := hp.apart x mx a ha _ _ (ending c) hx.symm
    cases c <;> simp [sfx] at this hc

/-- `"xnccc" in crds` although there is no such array -/
theorem C193_contains_violated :
    contains [[120], [121], [122]] [120, 110, 99, 99, 99] = true ∧
    getItem [[120], [121], [122]] (.name [120, 110, 99, 99, 99]) = .error .key := by decide

/-- an axis whose name has no letters: the flat array cannot be had, `crds["1"]` is the open one -/
theorem C193_letters_violated : getItem [[49], [50]] (.name [49]) = .ok ⟨0, true, .node⟩ ∧
    getCrd [[49], [50]] (.num 1) false .cell = .ok ⟨1, true, .cell⟩ := by decide

/-- the unit of an axis, when one unit or one for each axis (or more) is given: that one, '' for None; by name or number -/
theorem C193_units (blank : υ) (axes : List Name) (hn : axes.Nodup) (i : Nat) (a : Name) (ha : axes[i]? = some a) (allow : Bool)
    (u : Option υ) (g : Given υ)
    (hg : g = .one u ∨ ∃ l, g = .list l ∧ axes.length ≤ l.length ∧ l[i]? = some u) :
    getUnit blank axes g allow (.name a) = .ok (u.getD blank) ∧ getUnit blank axes g allow (.num i) = .ok (u.getD blank) := by
  obtain ⟨hi, hai⟩ := List.getElem?_eq_some_iff.1 ha
  have hidx : axes.idxOf a = i := by rw [← hai, List.Nodup.idxOf_getElem hn]
  have hu : pyAt (units blank axes.length g) (i : Int) = .ok (u.getD blank) := by
    have : (units blank axes.length g)[i]? = some (u.getD blank) := by
      unfold units
      rcases hg with rfl | ⟨l, rfl, hl, hli⟩
      · simp only [List.getElem?_map]
        rw [List.getElem?_append_left (by simpa using hi), List.getElem?_replicate, if_pos hi]
        cases u <;> rfl
      · simp only [List.getElem?_map]
        rw [List.getElem?_append_left (by omega), hli]
        cases u <;> rfl
    unfold pyAt
    rw [if_pos (by omega), Int.toNat_natCast, this]
  have hi1 : ind axes (.name a) = .ok (i : Int) := by
    unfold ind
    dsimp only
    rw [if_pos (List.mem_of_getElem? ha), hidx]
  have hi2 : ind axes (.num i) = .ok (i : Int) := by
    unfold ind
    dsimp only
    rw [if_pos (by omega)]
  constructor
  · unfold getUnit
    simp only [hi1, hu]
  · unfold getUnit
    simp only [hi2, hu]

/-- axes that are not there have no unit, or are a ValueError -/
theorem C193_units_other (blank : υ) (axes : List Name) (g : Given υ) (k : Key)
    (hk : (∃ s, k = .name s ∧ s ∉ axes) ∨ ∃ i : Int, k = .num i ∧ (axes.length : Int) ≤ i) :
    getUnit blank axes g true k = .ok blank ∧ getUnit blank axes g false k = .error .value := by
  have : ind axes k = .error .value := by
    rcases hk with ⟨s, rfl, h⟩ | ⟨i, rfl, h⟩
    · unfold ind; dsimp only; rw [if_neg h]
    · unfold ind; dsimp only; rw [if_neg (by omega)]
  constructor <;> simp [getUnit, this]

/-- a list of units that is shorter than the list of axes is not filled up: the unit of the axes that are left is an
IndexError -/
theorem C193_units_short_violated (blank : υ) (axes : List Name) (hn : axes.Nodup) (l : List (Option υ)) (i : Nat) (a : Name)
    (ha : axes[i]? = some a) (h : l.length ≤ i) (allow : Bool) : getUnit blank axes (.list l) allow (.name a) = .error .index := by
  obtain ⟨hi, hai⟩ := List.getElem?_eq_some_iff.1 ha
  have hidx : axes.idxOf a = i := by rw [← hai, List.Nodup.idxOf_getElem hn]
  have hi1 : ind axes (.name a) = .ok (i : Int) := by
    unfold ind
    dsimp only
    rw [if_pos (List.mem_of_getElem? ha), hidx]
  unfold getUnit
  simp only [hi1]
  unfold pyAt
  rw [if_pos (by omega), List.getElem?_eq_none]
  simp only [units, List.length_map, List.length_append, List.length_replicate]
  omega

/-- coordinates with their reflections applied have lost their units -/
theorem C193_units_reflected_violated (blank : υ) (axes : List Name) (hn : axes.Nodup) (i : Nat) (a : Name)
    (ha : axes[i]? = some a) (g : Given υ) (allow : Bool) :
    getUnit blank axes (reflectUnits g true) allow (.name a) = .ok blank ∧
    getUnit blank axes (reflectUnits g false) allow (.name a) = getUnit blank axes g allow (.name a) :=
  ⟨(C193_units blank axes hn i a ha allow none (.one none) (.inl rfl)).1, rfl⟩

theorem CN.plain_xyz : Plain [[120], [121], [122]] where
  small := by decide
  letter := by decide
  nodup := by decide
  apart := by
    intro a ha b hb t w ht h
    have hl : ∀ a ∈ ([[120], [121], [122]] : List (List Nat)), a.length = 1 := by decide
    have h1 := hl a ha
    have h2 := hl b hb
    rw [h, List.length_append, h2] at h1
    exact List.eq_nil_of_length_eq_zero (by omega)

example : getItem [[120], [121], [122]] (.name [89, 99, 99]) = .ok ⟨1, true, .cell⟩ :=
  (getItem_eq _ _).trans (get_means plain_xyz (w := .cells) ⟨[121], [89], [99, 99], rfl, (capitals _ _).2 rfl, .cc, rfl⟩)
example : getCrd [[120], [121], [122]] (.num (-1)) true .face = .ok ⟨2, true, .face⟩ := by decide
example : contains [[120], [121], [122]] [88, 102, 99] = true ∧ contains [[120], [121], [122]] [113] = false := by decide
example : axesOf [[120], [89]] = .error .key ∧ axesOf [[120], [121]] = .ok [[120], [121]] := by decide
example : getUnit "" [[120], [121]] (.list [some "m"]) true (.name [121]) = .error .index := by decide
example : getUnit "" [[120], [121]] (.list [some "m", none]) true (.name [121]) = .ok "" := by decide
example : getCrd [[120], [121], [122]] (.name ([120] ++ sfx .cell)) true .none = .error .key := by decide

/-! ### Extents -/

/-- the ends and the length of an axis are those of its nodes; reflected ones of the reflected nodes -/
theorem C194_ends (a : Axis) (hne : a.nc ≠ []) :
    ∃ lo hi, a.nc.head? = some lo ∧ a.nc.getLast? = some hi ∧
      sXl a = .ok (if a.reflect then -hi else lo) ∧ sXh a = .ok (if a.reflect then -lo else hi) ∧
      sL a = .ok (hi - lo) := by
  obtain ⟨lo, hlo⟩ : ∃ lo, a.nc.head? = some lo := by
    cases h : a.nc with
    | nil => exact absurd h hne
    | cons x l => exact ⟨x, rfl⟩
  obtain ⟨hi, hhi⟩ : ∃ hi, a.nc.getLast? = some hi := by
    cases h : a.nc.getLast? with
    | none => exact absurd (List.getLast?_eq_none_iff.1 h) hne
    | some x => exact ⟨x, rfl⟩
  have nne : a.nodes ≠ [] := by
    unfold Axis.nodes
    split
    · unfold reflectArr; simpa using hne
    · exact hne
  have pos : 0 < a.nodes.length := List.length_pos_iff.2 nne
  have e1 : sXl a = .ok (if a.reflect then -hi else lo) := by
    have : a.nodes[0]? = some (if a.reflect then -hi else lo) := by
      rw [← List.head?_eq_getElem?]
      unfold Axis.nodes
      cases a.reflect with
      | false => simpa using hlo
      | true => simp [reflectArr, hhi]
    unfold sXl pyAt
    rw [if_pos (by omega)]
    simp only [Int.toNat_zero]
    rw [this]
  have e2 : sXh a = .ok (if a.reflect then -lo else hi) := by
    have : a.nodes[a.nodes.length - 1]? = some (if a.reflect then -lo else hi) := by
      rw [← List.getLast?_eq_getElem?]
      unfold Axis.nodes
      cases a.reflect with
      | false => simpa using hhi
      | true => simp [reflectArr, hlo]
    unfold sXh pyAt
    have hz : ((-1 : Int) + a.nodes.length).toNat = a.nodes.length - 1 := by omega
    rw [if_neg (by omega), if_pos (by omega), hz, this]
  refine ⟨lo, hi, hlo, hhi, e1, e2, ?_⟩
  unfold sL
  rw [e1, e2]
  simp only [bind, Except.bind]
  cases a.reflect
  · simp
  · simp only [if_true]
    congr 1
    ring

/-- the widths of the cells are positive when the nodes increase, and add up to the length of the axis -/
theorem C194_widths (l : List ℚ) (h : 2 ≤ l.length) :
    (dx l).length + 1 = l.length ∧ (∃ lo hi, l.head? = some lo ∧ l.getLast? = some hi ∧ (dx l).sum = hi - lo) ∧
    (l.Pairwise (· < ·) → ∀ d ∈ dx l, 0 < d) := by
  unfold dx
  rw [if_pos (by omega)]
  refine ⟨by simp; omega, ?_, ?_⟩
  · match l, h with
    | x :: y :: r, _ =>
      refine ⟨x, (y :: r).getLast (by simp), rfl, by simp [List.getLast?_eq_some_getLast], ?_⟩
      clear h
      induction r generalizing x y with
      | nil => simp
      | cons z r ih =>
        have := ih y z (by simp)
        simp only [List.tail_cons, List.dropLast_cons_cons, List.zipWith_cons_cons, List.sum_cons] at this ⊢
        have e : (y :: z :: r).getLast (by simp) = (z :: r).getLast (by simp) := List.getLast_cons (by simp)
        rw [this, e]
        ring
  · intro hp d hd
    obtain ⟨i, hi, rfl⟩ := List.getElem_of_mem hd
    simp only [List.length_zipWith, List.length_tail, List.length_dropLast] at hi
    rw [List.getElem_zipWith, List.getElem_tail, List.getElem_dropLast]
    have := List.pairwise_iff_getElem.1 hp i (i + 1) (by omega) (by omega) (by omega)
    linarith

/-- an axis of a single node: its width is said to be 1 -/
theorem C194_width_single (x : ℚ) : dx [x] = [1] := rfl

/-- uniform coordinates that are not reflected: the ends are those of the nodes -/
theorem C194_uniform (u : Uniform) (h : 2 ≤ u.n) :
    (RUniform.mk u false).nodes.head? = some (RUniform.mk u false).getXl ∧
    (RUniform.mk u false).nodes.getLast? = some (RUniform.mk u false).getXh ∧
    (RUniform.mk u false).getL = (RUniform.mk u false).getXh - (RUniform.mk u false).getXl := by
  have hl := linspace_length u.xl u.xh u.n
  have hn : ((u.n : ℚ) - 1) ≠ 0 := by
    have : (2 : ℚ) ≤ u.n := by exact_mod_cast h
    intro h0; linarith
  refine ⟨?_, ?_, rfl⟩
  · show (linspace u.xl u.xh u.n).head? = some u.xl
    rw [List.head?_eq_getElem?, linspace_get _ _ _ (by omega) 0 (by omega)]
    simp
  · show (linspace u.xl u.xh u.n).getLast? = some u.xh
    rw [List.getLast?_eq_getElem?, hl, linspace_get _ _ _ (by omega) (u.n - 1) (by omega)]
    congr 1
    rw [Nat.cast_sub (by omega)]
    field_simp
    push_cast
    ring

/-- uniform coordinates that are reflected: the ends are still those before the reflection, not those of the nodes
(unless the axis is symmetric) -/
theorem C194_reflected_violated (u : Uniform) (h : 2 ≤ u.n) :
    (RUniform.mk u true).nodes.head? = some (-u.xh) ∧ (RUniform.mk u true).nodes.getLast? = some (-u.xl) ∧
    (RUniform.mk u true).getXl = u.xl ∧ (RUniform.mk u true).getXh = u.xh ∧
    ((RUniform.mk u true).nodes.head? = some (RUniform.mk u true).getXl ↔ u.xl + u.xh = 0) := by
  obtain ⟨h1, h2, _⟩ := C194_uniform u h
  have h1 : (linspace u.xl u.xh u.n).head? = some u.xl := h1
  have h2 : (linspace u.xl u.xh u.n).getLast? = some u.xh := h2
  have e1 : (RUniform.mk u true).nodes.head? = some (-u.xh) := by
    show (reflectArr (linspace u.xl u.xh u.n)).head? = _
    simp [reflectArr, h2]
  refine ⟨e1, ?_, rfl, rfl, ?_⟩
  · show (reflectArr (linspace u.xl u.xh u.n)).getLast? = _
    simp [reflectArr, h1]
  · rw [e1]
    show some (-u.xh) = some u.xl ↔ _
    simp only [Option.some.injEq]
    constructor <;> intro h <;> linarith

/-- applying the reflections of uniform coordinates gives the same nodes, and ends that are those of the nodes -/
theorem C194_apply (a : RUniform) (h : 2 ≤ a.u.n) :
    a.apply.nodes = a.nodes ∧ a.apply.reflect = false ∧ a.nodes.head? = some a.apply.getXl ∧
    a.nodes.getLast? = some a.apply.getXh := by
  obtain ⟨u, r⟩ := a
  have key : (RUniform.mk u r).apply.nodes = (RUniform.mk u r).nodes := by
    cases r with
    | false => rfl
    | true =>
      show linspace (-u.xh) (-u.xl) u.n = reflectArr (linspace u.xl u.xh u.n)
      have hl := linspace_length u.xl u.xh u.n
      have hn : ((u.n : ℚ) - 1) ≠ 0 := by
        have : (2 : ℚ) ≤ u.n := by exact_mod_cast h
        intro h0; linarith
      apply List.ext_getElem?
      intro i
      by_cases hi : i < u.n
      · rw [linspace_get _ _ _ (by simp only at h; omega) i hi]
        unfold reflectArr
        rw [List.getElem?_map, List.getElem?_reverse (by omega), hl, linspace_get _ _ _ (by simp only at h; omega) _ (by omega)]
        simp only [Option.map_some, Option.some.injEq]
        have : ((u.n - 1 - i : Nat) : ℚ) = u.n - 1 - i := by
          rw [Nat.cast_sub (by omega), Nat.cast_sub (by omega)]
          push_cast; ring
        rw [this]
        field_simp
        ring
      · rw [List.getElem?_eq_none (by rw [linspace_length]; omega),
          List.getElem?_eq_none (by simp [reflectArr, hl]; omega)]
  have hfalse : (RUniform.mk u r).apply.reflect = false := by cases r <;> rfl
  refine ⟨key, hfalse, ?_, ?_⟩
  · cases r with
    | false => exact (C194_uniform u h).1
    | true => exact (C194_reflected_violated u h).1
  · cases r with
    | false => exact (C194_uniform u h).2.1
    | true => exact (C194_reflected_violated u h).2.1

/-- an axis of a single node whose ends are different: `get_xh` is not the node, and with a reflection applied the node is
another one -/
theorem C194_single_violated (xl xh : ℚ) (h : xl ≠ xh) :
    (RUniform.mk ⟨xl, xh, 1⟩ false).nodes = [xl] ∧ (RUniform.mk ⟨xl, xh, 1⟩ false).getXh ≠ xl ∧
    (RUniform.mk ⟨xl, xh, 1⟩ true).nodes = [-xl] ∧ (RUniform.mk ⟨xl, xh, 1⟩ true).apply.nodes = [-xh] := by
  refine ⟨rfl, fun h' => h h'.symm, ?_, rfl⟩
  show reflectArr (linspace xl xh 1) = _
  simp [reflectArr, linspace]

example : (RUniform.mk ⟨-10, 2, 7⟩ true).getXl = -10 ∧ (RUniform.mk ⟨-10, 2, 7⟩ true).nodes = [-2, 0, 2, 4, 6, 8, 10] := by
  refine ⟨rfl, ?_⟩
  decide +kernel
example : sXl ⟨[1, 2, 5], none, true⟩ = .ok (-5) ∧ dx [1, 2, 5] = [1, 3] := by decide +kernel

end Viscid.Props
