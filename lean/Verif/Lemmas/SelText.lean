import Verif.Props.Grid
import Verif.Spec.SelText
import Mathlib.Tactic.Tauto
/-!
# Lemmas on selections given as text
-/
namespace Viscid.Props
open Viscid.SelText Viscid.Spec.SelText

/-! ### components -/

theorem findSub_none (s h : List Char) : findSub s h = none ↔ ¬ s <:+: h := by
  induction h with
  | nil => simp only [findSub]; by_cases hs : s = [] <;> simp [hs]
  | cons c h ih =>
    rw [findSub]
    by_cases hp : s.isPrefixOf (c :: h) = true
    · rw [if_pos hp]
      simp only [reduceCtorEq, false_iff, not_not]
      exact (List.isPrefixOf_iff_prefix.mp hp).isInfix
    · rw [if_neg hp, Option.map_eq_none_iff, ih, List.infix_cons_iff]
      have : ¬ s <+: c :: h := fun h' => hp (List.isPrefixOf_iff_prefix.mpr h')
      simp [this]

theorem findSub_single (x : Char) (h : List Char) : findSub [x] h = h.findIdx? fun c => c = x := by
  induction h with
  | nil => simp [findSub]
  | cons c h ih =>
    rw [findSub, List.findIdx?_cons, ih]
    by_cases hc : c = x
    · subst hc; simp [List.isPrefixOf]
    · have : ¬ x = c := fun e => hc e.symm
      simp [List.isPrefixOf, hc, this]

/-- text is taken for a component exactly if it is a name, unless it is found in a string of names in another way -/
theorem index_eq (names : Names) (s : List Char) (hs : ∀ h, names = .str h → s <:+: h → s.length = 1) :
    names.index s = (nameList names).findIdx? fun n => n = s := by
  cases names with
  | seq l => rfl
  | str h =>
    unfold Names.index nameList
    simp only
    by_cases hi : s <:+: h
    · obtain ⟨x, rfl⟩ := List.length_eq_one_iff.mp (hs h rfl hi)
      rw [findSub_single, List.findIdx?_map]
      congr 1
      funext c
      simp
    · rw [(findSub_none s h).mpr hi, eq_comm, List.findIdx?_eq_none_iff]
      intro n hn
      obtain ⟨c, hc, rfl⟩ := List.mem_map.mp hn
      simp only [decide_eq_false_iff_not]
      rintro rfl
      obtain ⟨l, r, rfl⟩ := List.append_of_mem hc
      exact hi ⟨l, r, by simp⟩

/-- which component an element names -/
def compOf (names : Names) : Item O → Option Nat
  | .other _ => none
  | .text s => names.index (norm s)

theorem scan_none (names : Names) (sel : List (Item O)) (i : Nat) (acc : Option (Nat × Nat))
    (h : ∀ x ∈ sel, compOf names x = none) : scan names i sel acc = .ok acc := by
  induction sel generalizing i with
  | nil => rfl
  | cons x sel ih =>
    have ih' := ih (i + 1) fun y hy => h y (by simp [hy])
    have hx := h x (by simp)
    cases x with
    | other o => exact ih'
    | text s =>
      have : names.index (norm s) = none := hx
      rw [scan, this]
      exact ih'

theorem scan_append (names : Names) (pre sel : List (Item O)) (i : Nat) (acc : Option (Nat × Nat))
    (h : ∀ x ∈ pre, compOf names x = none) : scan names i (pre ++ sel) acc = scan names (i + pre.length) sel acc := by
  induction pre generalizing i with
  | nil => rfl
  | cons x pre ih =>
    have ih' := ih (i + 1) fun y hy => h y (by simp [hy])
    have hx := h x (by simp)
    have e : i + (x :: pre).length = i + 1 + pre.length := by simp only [List.length_cons]; omega
    rw [e]
    cases x with
    | other o => exact ih'
    | text s =>
      have : names.index (norm s) = none := hx
      rw [List.cons_append, scan, this]
      exact ih'

theorem scan_hit (names : Names) (x : Item O) (sel : List (Item O)) (i c : Nat) (acc : Option (Nat × Nat))
    (h : compOf names x = some c) :
    scan names i (x :: sel) acc = if acc.isSome then .error .index else scan names (i + 1) sel (some (i, c)) := by
  cases x with
  | other o => simp [compOf] at h
  | text s =>
    have : names.index (norm s) = some c := h
    rw [scan, this]

/-! ### splitting -/

theorem splitAt_none (sep : Char) (s : List Char) (h : sep ∉ s) : splitAt sep s = [s] := by
  induction s with
  | nil => rfl
  | cons c s ih =>
    have h1 : ¬ c = sep := fun e => h (by simp [e])
    rw [SelText.splitAt, if_neg h1, ih fun hs => h (by simp [hs])]

theorem splitAt_append (sep : Char) (s t : List Char) (h : sep ∉ s) :
    splitAt sep (s ++ sep :: t) = s :: splitAt sep t := by
  induction s with
  | nil => simp [SelText.splitAt]
  | cons c s ih =>
    have h1 : ¬ c = sep := fun e => h (by simp [e])
    rw [List.cons_append, SelText.splitAt, if_neg h1, ih fun hs => h (by simp [hs])]

/-- a part with the commas in arrays hidden -/
def Seg.hidden : Seg → List Char
  | .chr c => [c]
  | .arr s => '[' :: s.map (fun x => if x = ',' then '@' else x) ++ [']']

theorem takeWhile_run (p : Char → Bool) (s t : List Char) (c : Char) (hs : ∀ x ∈ s, p x = true) (hc : p c = false) :
    (s ++ c :: t).takeWhile p = s := by
  rw [List.takeWhile_append_of_pos hs]
  simp [hc]

theorem hide_seg (g : Seg) (h : g.Ok) (rest : List Char) : hide (g.text ++ rest) = Seg.hidden g ++ hide rest := by
  cases g with
  | chr c =>
    show hide (c :: rest) = c :: hide rest
    rw [hide]
    have : ¬ c = '[' := fun e => h (by simp [e])
    simp [this]
  | arr s =>
    have e : Seg.text (.arr s) ++ rest = '[' :: (s ++ ']' :: rest) := by simp [Seg.text]
    have hrun : (s ++ ']' :: rest).takeWhile (fun x => !isBrack x) = s := by
      apply takeWhile_run
      · intro x hx
        have := h x hx
        simp only [List.mem_cons, List.not_mem_nil, or_false, not_or] at this
        simp [isBrack, this.2.2.1, this.2.2.2]
      · rfl
    rw [e, hide]
    simp only [hrun]
    by_cases hs : s = []
    · subst hs
      rw [if_neg (by simp)]
      rw [List.nil_append, hide]
      simp [Seg.hidden]
    · rw [if_pos ⟨trivial, hs, by simp⟩]
      have : (s ++ ']' :: rest).drop (s.length + 1) = rest := by
        rw [← List.drop_drop, List.drop_left]; rfl
      rw [this]
      simp [Seg.hidden]

theorem hide_part (p : List Seg) (h : ∀ g ∈ p, g.Ok) (rest : List Char) :
    hide (partText p ++ rest) = p.flatMap Seg.hidden ++ hide rest := by
  induction p with
  | nil => rfl
  | cons g p ih =>
    have e : partText (g :: p) ++ rest = g.text ++ (partText p ++ rest) := by simp [partText]
    rw [e, hide_seg g (h g (by simp)), ih fun x hx => h x (by simp [hx])]
    simp

theorem hidden_no_comma (p : List Seg) (h : ∀ g ∈ p, g.Ok) : ',' ∉ p.flatMap Seg.hidden := by
  intro hc
  obtain ⟨g, hg, hc⟩ := List.mem_flatMap.mp hc
  have := h g hg
  cases g with
  | chr c =>
    have e : ',' = c := by simpa [Seg.hidden] using hc
    exact this (by simp [← e])
  | arr s =>
    simp only [Seg.hidden, List.cons_append, List.mem_cons, List.mem_append, List.mem_map, List.not_mem_nil, or_false] at hc
    rcases hc with hc | ⟨x, -, hx⟩ | hc
    · exact absurd hc (by decide)
    · split at hx
      · exact absurd hx (by decide)
      · rename_i hne; exact hne hx
    · exact absurd hc (by decide)

theorem unhide (p : List Seg) (h : ∀ g ∈ p, g.Ok) :
    (p.flatMap Seg.hidden).map (fun c => if c = '@' then ',' else c) = partText p := by
  induction p with
  | nil => rfl
  | cons g p ih =>
    rw [List.flatMap_cons, List.map_append, ih fun x hx => h x (by simp [hx])]
    have hg := h g (by simp)
    have : (Seg.hidden g).map (fun c => if c = '@' then ',' else c) = g.text := by
      cases g with
      | chr c =>
        have : ¬ c = '@' := fun e => hg (by simp [e])
        simp [Seg.hidden, Seg.text, this]
      | arr s =>
        have e : (s.map (fun x => if x = ',' then '@' else x)).map (fun c => if c = '@' then ',' else c) = s := by
          rw [List.map_map]
          conv_rhs => rw [← List.map_id s]
          apply List.map_congr_left
          intro x hx
          have := hg x hx
          simp only [List.mem_cons, List.not_mem_nil, or_false, not_or] at this
          by_cases hc : x = ','
          · simp [hc]
          · simp [hc, this.2.1]
        simp only [Seg.hidden, Seg.text, List.map_cons, List.map_append, List.cons_append, e]
        simp
    rw [this]
    simp [partText]

/-- no bracket opens within another -/
theorem multilevel_seg (g : Seg) (h : g.Ok) (rest : List Char) : multilevel (g.text ++ rest) = multilevel rest := by
  cases g with
  | chr c =>
    have : ¬ c = '[' := fun e => h (by simp [e])
    show multilevel (c :: rest) = _
    rw [multilevel]
    simp [this]
  | arr s =>
    have hs : ∀ x ∈ s, x ≠ '[' ∧ x ≠ ']' := fun x hx => by
      have := h x hx
      simp only [List.mem_cons, List.not_mem_nil, or_false, not_or] at this
      exact this.2.2
    have e : Seg.text (.arr s) ++ rest = '[' :: (s ++ ']' :: rest) := by simp [Seg.text]
    have hrun : (s ++ ']' :: rest).takeWhile (· != ']') = s := by
      apply takeWhile_run
      · intro x hx; simp [(hs x hx).2]
      · rfl
    have hno : s.contains '[' = false := by
      rw [← Bool.not_eq_true, List.contains_iff_mem]
      exact fun hm => (hs _ hm).1 rfl
    have hin : ∀ t : List Char, (∀ x ∈ t, x ≠ '[' ∧ x ≠ ']') → multilevel (t ++ ']' :: rest) = multilevel rest := by
      intro t ht
      induction t with
      | nil => rw [List.nil_append, multilevel]; simp
      | cons x t ih =>
        rw [List.cons_append, multilevel, ih fun y hy => ht y (by simp [hy])]
        simp [(ht x (by simp)).1]
    rw [e, multilevel, hrun, hno, hin s hs]
    simp

theorem multilevel_part (p : List Seg) (h : ∀ g ∈ p, g.Ok) (rest : List Char) :
    multilevel (partText p ++ rest) = multilevel rest := by
  induction p with
  | nil => rfl
  | cons g p ih =>
    have e : partText (g :: p) ++ rest = g.text ++ (partText p ++ rest) := by simp [partText]
    rw [e, multilevel_seg g (h g (by simp)), ih fun x hx => h x (by simp [hx])]

theorem part_no_underscore (p : List Seg) (h : ∀ g ∈ p, g.Ok) :
    (partText p).map (fun c => if c = '_' then ',' else c) = partText p := by
  conv_rhs => rw [← List.map_id (partText p)]
  apply List.map_congr_left
  intro c hc
  obtain ⟨g, hg, hc⟩ := List.mem_flatMap.mp hc
  have hgo := h g hg
  have : c ≠ '_' := by
    cases g with
    | chr d =>
      have e : c = d := by simpa [Seg.text] using hc
      subst e
      exact fun e => hgo (by simp [e])
    | arr s =>
      simp only [Seg.text, List.cons_append, List.mem_cons, List.mem_append, List.not_mem_nil, or_false] at hc
      rcases hc with rfl | hc | rfl
      · decide
      · exact fun e => hgo c hc (by simp [e])
      · decide
  simp [this]

/-! ### values -/

theorem dropWhile_none (p : Char → Bool) (s : List Char) (h : ∀ c ∈ s, p c = false) : s.dropWhile p = s := by
  cases s with
  | nil => rfl
  | cons c s => simp [h c (by simp)]

theorem strip_id (s : List Char) (h : ∀ c ∈ s, ¬ Spec.Grid.Blank c) : strip s = s := by
  have h' : ∀ c ∈ s, Grid.isSpace c = false := fun c hc => by
    have := h c hc
    rw [← isSpace_iff] at this
    simpa using this
  unfold strip Grid.strip
  rw [dropWhile_none _ s h', dropWhile_none, List.reverse_reverse]
  intro c hc
  exact h' c (List.mem_reverse.mp hc)

theorem norm_id (s : List Char) (h : ∀ c ∈ s, ¬ Spec.Grid.Blank c ∧ c.toLower = c) : norm s = s := by
  unfold norm
  rw [strip_id s fun c hc => (h c hc).1]
  conv_rhs => rw [← List.map_id s]
  exact List.map_congr_left fun c hc => (h c hc).2

theorem plain_norm {p : Parsers T A} {s : List Char} (h : Plain p s) : norm s = s :=
  norm_id s fun c hc => ⟨(h.2.1 c hc).1, (h.2.1 c hc).2.1⟩

theorem plain_bracketed {p : Parsers T A} {s : List Char} (h : Plain p s) : bracketed s = false := by
  cases s with
  | nil => rfl
  | cons c s =>
    have := (h.2.1 c (by simp)).2.2.2.1
    simp [bracketed, this]

theorem stdText_plain {p : Parsers T A} {s : List Char} (h : Plain p s) :
    stdText p s = match p.int s with
    | some i => .ok (.int i)
    | none =>
      if 'j' ∈ s ∨ 'f' ∈ s then
        match p.cplx (s.map fun c => if c = 'f' then 'j' else c) with
        | some z => .ok (.cplx z.1 z.2)
        | none => .error .value
      else match p.flt s with
        | some q => .ok (.cplx 0 q)
        | none => .error .value := by
  have hb := plain_bracketed h
  have hn := plain_norm h
  obtain ⟨h0, -, ht, hk⟩ := h
  simp only [List.mem_cons, List.not_mem_nil, or_false, not_or] at hk
  obtain ⟨k1, k2, k3, k4, k5, k6, k7, k8⟩ := hk
  unfold stdText
  simp only [hn, List.mem_cons, List.not_mem_nil, or_false]
  rw [if_neg (by tauto), if_neg (by tauto), if_neg k5, if_neg k6, if_neg (by tauto), hb, ht,
    if_neg (by simp), if_neg (by simp)]
  rfl

/-- text that is written as a value has no blanks, brackets or colons, and no capitals -/
theorem written_chars {p : Parsers T A} {s : List Char} {o : Obj T A} (h : Written p s o) :
    ∀ c ∈ s, ¬ Spec.Grid.Blank c ∧ c.toLower = c ∧ c ≠ ':' ∧ c ≠ '[' ∧ c ≠ ']' := by
  cases o with
  | none =>
    rcases h with rfl | rfl
    · simp
    · decide
  | bool b => cases b <;> (have h' : s = _ := h; subst h'; decide)
  | ellipsis => have h' : s = _ := h; subst h'; decide
  | int i => exact h.1.2.1
  | flt q => exact h.1.2.1
  | cplx re im => exact h.2.1.2.1
  | time t => exact h.elim
  | arr a => exact h.elim

theorem map_fj (t : List Char) (h : 'f' ∉ t) : t.map (fun c => if c = 'f' then 'j' else c) = t := by
  conv_rhs => rw [← List.map_id t]
  apply List.map_congr_left
  intro c hc
  have : c ≠ 'f' := fun e => h (e ▸ hc)
  simp [this]

theorem stdText_written {p : Parsers T A} {s : List Char} {o : Obj T A} (h : Written p s o) : stdText p s = stdObj p o := by
  cases o with
  | none =>
    rcases h with rfl | rfl
    · rfl
    · have : norm "none".toList = "none".toList := by decide
      unfold stdText
      simp only [this]
      rw [if_neg (by decide), if_pos (by decide)]
      rfl
  | bool b =>
    cases b <;> (have h' : s = _ := h; subst h')
    · have : norm "false".toList = "false".toList := by decide
      unfold stdText
      simp only [Bool.false_eq_true, if_false, this]
      rw [if_neg (by decide), if_neg (by decide), if_neg (by decide)]
      rfl
    · have : norm "true".toList = "true".toList := by decide
      unfold stdText
      simp only [if_true, this]
      rw [if_neg (by decide), if_neg (by decide)]
      rfl
  | ellipsis =>
    have h' : s = _ := h
    subst h'
    have : norm "...".toList = "...".toList := by decide
    unfold stdText
    simp only [this]
    rw [if_neg (by decide), if_neg (by decide), if_neg (by decide), if_neg (by decide), if_pos (by decide)]
    rfl
  | int i => rw [stdText_plain h.1, h.2]; rfl
  | flt q =>
    obtain ⟨h1, h2, h3, h4, h5⟩ := h
    rw [stdText_plain h1, h2]
    simp only
    rw [if_neg (by tauto), h5]
    rfl
  | cplx re im =>
    obtain ⟨h0, h1, h2, h3⟩ := h
    rw [stdText_plain h1, h2]
    simp only
    rcases h3 with ⟨t, rfl, hf, hc⟩ | ⟨t, rfl, hf, hc⟩
    · rw [if_pos (by simp), List.map_append, map_fj t hf]
      have : List.map (fun c => if c = 'f' then 'j' else c) ['j'] = ['j'] := by decide
      rw [this, hc]
      simp [stdObj, h0]
    · rw [if_pos (by simp), List.map_append, map_fj t hf]
      have : List.map (fun c => if c = 'f' then 'j' else c) ['f'] = ['j'] := by decide
      rw [this, hc]
      simp [stdObj, h0]
  | time t => exact h.elim
  | arr a => exact h.elim

end Viscid.Props
