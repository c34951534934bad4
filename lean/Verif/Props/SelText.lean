import Verif.Lemmas.SelText
/-!
# C122, C123, C124: selections given as text
-/
namespace Viscid.Props
open Viscid.SelText Viscid.Spec.SelText

/-! ### C122: components -/

/-- trimming and lower case have one result -/
theorem lowered_iff (s n : List Char) : Lowered s n ↔ n = norm s := by
  constructor
  · rintro ⟨t, ht, rfl⟩
    rw [trimmed_unique s t _ ht (strip_trimmed s) rfl]
    rfl
  · rintro rfl
    exact ⟨_, strip_trimmed s, rfl⟩

theorem findIdx?_first (l : List (List Char)) (n : List Char) (c : Nat) :
    l.findIdx? (fun m => m = n) = some c ↔ l[c]? = some n ∧ ∀ j < c, l[j]? ≠ some n := by
  rw [List.findIdx?_eq_some_iff_getElem]
  constructor
  · rintro ⟨h, h1, h2⟩
    refine ⟨by rw [List.getElem?_eq_getElem h]; simpa using h1, ?_⟩
    intro j hj
    rw [List.getElem?_eq_getElem (by omega)]
    simpa using h2 j hj
  · rintro ⟨h1, h2⟩
    obtain ⟨h, h1⟩ := List.getElem?_eq_some_iff.mp h1
    refine ⟨h, by simpa using h1, ?_⟩
    intro j hj
    have := h2 j hj
    rw [List.getElem?_eq_getElem (by omega)] at this
    simpa using this

/-- C122: an element of a selection that is the name of a component selects that component and is taken out; without one, all
components are selected and the selection stays as it is; with two, IndexError is raised. If the names are a string, texts that are found in it
must be of one character. -/
theorem C122_component_partial (names : Names) (sel : List (Item O))
    (hs : ∀ s n, .text s ∈ sel → Lowered s n → ∀ h, names = .str h → n <:+: h → n.length = 1) :
    ((∀ x ∈ sel, ∀ c, ¬ Named names x c) → prune names sel = .ok (sel, none)) ∧
    (∀ pre x post c, sel = pre ++ x :: post → Named names x c → (∀ y ∈ pre ++ post, ∀ c, ¬ Named names y c) →
      prune names sel = .ok (pre ++ post, some c)) ∧
    (∀ pre x mid y post c c', sel = pre ++ x :: (mid ++ y :: post) → Named names x c → Named names y c' →
      prune names sel = .error .index) := by
  have key : ∀ x ∈ sel, ∀ c, compOf names x = some c ↔ Named names x c := by
    intro x hx c
    cases x with
    | other o => simp [compOf, Named]
    | text s =>
      have e : compOf names (Item.text s : Item O) = (nameList names).findIdx? fun n => n = norm s :=
        index_eq names (norm s) (hs s _ hx ((lowered_iff s _).mpr rfl))
      rw [e, findIdx?_first]
      constructor
      · exact fun h => ⟨s, norm s, rfl, (lowered_iff s _).mpr rfl, h⟩
      · rintro ⟨t, n, ht, hn, h⟩
        cases ht
        rw [(lowered_iff s n).mp hn] at h
        exact h
  have knone : ∀ x ∈ sel, (∀ c, ¬ Named names x c) → compOf names x = none := by
    intro x hx h
    cases hc : compOf names x with
    | none => rfl
    | some c => exact absurd ((key x hx c).mp hc) (h c)
  refine ⟨fun h => ?_, ?_, ?_⟩
  · unfold prune
    rw [scan_none names sel 0 none fun x hx => knone x hx (h x hx)]
  · rintro pre x post c rfl hx h
    unfold prune
    rw [scan_append names pre _ 0 none fun y hy => knone y (by simp [hy]) (h y (by simp [hy])),
      scan_hit names x post _ c none ((key x (by simp) c).mpr hx)]
    simp only [Option.isSome_none, Bool.false_eq_true, if_false]
    rw [scan_none names post _ _ fun y hy => knone y (by simp [hy]) (h y (by simp [hy]))]
    simp [List.eraseIdx_append_of_length_le]
  · rintro pre x mid y post c c' rfl hx hy
    have hany : ∀ (l : List (Item O)) (i : Nat) (acc : Nat × Nat), y ∈ l → scan names i l (some acc) = .error .index := by
      intro l
      induction l with
      | nil => simp
      | cons z l ih =>
        intro i acc hz
        cases hc : compOf names z with
        | some d => rw [scan_hit names z l i d _ hc]; rfl
        | none =>
          have hyz : y ≠ z := by
            rintro rfl
            rw [(key y (by simp) c').mpr hy] at hc
            simp at hc
          have : scan names i (z :: l) (some acc) = scan names (i + 1) l (some acc) := by
            have := scan_append names [z] l i (some acc) (by simpa using hc)
            simpa using this
          rw [this]
          exact ih _ _ ((List.mem_cons.mp hz).resolve_left hyz)
    have hfirst : ∀ (l : List (Item O)) (i : Nat), scan names i (l ++ x :: (mid ++ y :: post)) none = .error .index := by
      intro l
      induction l with
      | nil =>
        intro i
        rw [List.nil_append, scan_hit names x _ i c none ((key x (by simp) c).mpr hx)]
        exact hany _ _ _ (by simp)
      | cons z l ih =>
        intro i
        cases hc : compOf names z with
        | some d => rw [List.cons_append, scan_hit names z _ i d _ hc]; exact hany _ _ _ (by simp)
        | none =>
          have := scan_append names [z] (l ++ x :: (mid ++ y :: post)) i none (by simpa using hc)
          rw [List.cons_append, show z :: (l ++ x :: (mid ++ y :: post)) = [z] ++ (l ++ x :: (mid ++ y :: post)) from rfl, this]
          exact ih _
    unfold prune
    rw [hfirst pre 0]

example : prune (O := Nat) (.str "xyzuvw".toList) [.other 3, .text " Y".toList, .text "x=3:5".toList] =
    .ok ([.other 3, .text "x=3:5".toList], some 1) := by decide +kernel

example : Named (O := Nat) (.str "xyzuvw".toList) (.text " Y".toList) 1 :=
  ⟨_, "y".toList, rfl, (lowered_iff _ _).mpr (by decide +kernel), by decide +kernel, by decide +kernel⟩

/-- C122 fails: any text found in the names is taken for a component, "yz" for the second and nothing at all, as after a trailing comma, for the
first; on a scalar field, that raises AssertionError -/
theorem C122_substring_violated :
    prune (O := Nat) (.str "xyzuvw".toList) [.text "yz".toList] = .ok ([], some 1) ∧
    prune (O := Nat) (.str "xyzuvw".toList) [.text "x=3".toList, .text []] = .ok ([.text "x=3".toList], some 0) ∧
    prepare (O := Nat) true (.str []) [.text "x=3".toList, .text []] = .error .assertion := by
  decide +kernel

/-! ### C123: splitting -/

/-- C123: a selection is split into its parts at the commas or underscores between them; those in arrays stay -/
theorem C123_parts_partial (p : List Seg) (rest : List (Char × List Seg)) (hp : ∀ g ∈ p, g.Ok)
    (hr : ∀ x ∈ rest, (x.1 = ',' ∨ x.1 = '_') ∧ ∀ g ∈ x.2, g.Ok) :
    rawText (selText p rest) = .ok (partText p :: rest.map fun x => partText x.2) := by
  have h1 : (selText p rest).map (fun c => if c = '_' then ',' else c) =
      partText p ++ rest.flatMap fun x => ',' :: partText x.2 := by
    unfold selText
    rw [List.map_append, part_no_underscore p hp]
    congr 1
    rw [List.map_flatMap, List.flatMap_def, List.flatMap_def]
    congr 1
    apply List.map_congr_left
    intro x hx
    rw [List.map_cons, part_no_underscore x.2 (hr x hx).2]
    rcases (hr x hx).1 with h | h <;> simp [h]
  have hm : ∀ (q : List Seg) (l : List (Char × List Seg)), (∀ g ∈ q, g.Ok) → (∀ x ∈ l, ∀ g ∈ x.2, g.Ok) →
      multilevel (partText q ++ l.flatMap fun x => ',' :: partText x.2) = false := by
    intro q l hq hl
    rw [multilevel_part q hq]
    induction l with
    | nil => rfl
    | cons x l ih =>
      rw [List.flatMap_cons, List.cons_append, multilevel, multilevel_part x.2 (hl x (by simp)),
        ih fun y hy => hl y (by simp [hy])]
      rfl
  have hh : ∀ (q : List Seg) (l : List (Char × List Seg)), (∀ g ∈ q, g.Ok) → (∀ x ∈ l, ∀ g ∈ x.2, g.Ok) →
      (splitAt ',' (hide (partText q ++ l.flatMap fun x => ',' :: partText x.2))).map
        (fun p => p.map fun c => if c = '@' then ',' else c) = partText q :: l.map fun x => partText x.2 := by
    intro q l hq hl
    induction l generalizing q with
    | nil =>
      rw [List.flatMap_nil, hide_part q hq, hide, List.append_nil, splitAt_none _ _ (hidden_no_comma q hq)]
      simp [unhide q hq]
    | cons x l ih =>
      have hcomma : ∀ t, hide (',' :: t) = ',' :: hide t := by
        intro t
        rw [hide]
        simp
      rw [List.flatMap_cons, List.cons_append, hide_part q hq, hcomma, splitAt_append _ _ _ (hidden_no_comma q hq), List.map_cons,
        unhide q hq, ih x.2 (hl x (by simp)) fun y hy => hl y (by simp [hy])]
      rfl
  unfold rawText
  simp only
  rw [h1, hm p rest hp fun x hx => (hr x hx).2, if_neg (by simp), hh p rest hp fun x hx => (hr x hx).2]

example : rawText "x=[1,2],y=3_z".toList = .ok ["x=[1,2]".toList, "y=3".toList, "z".toList] ∧
    "x=[1,2],y=3_z".toList = selText [.chr 'x', .chr '=', .arr "1,2".toList]
      [(',', [.chr 'y', .chr '=', .chr '3']), ('_', [.chr 'z'])] ∧
    rawText "x=[[1,2],[3]]".toList = .error .index := by
  decide +kernel

/-- C123 fails: the name of an axis is split at underscores, and '@' becomes a comma -/
theorem C123_underscore_violated :
    rawText "new_x=3".toList = .ok ["new".toList, "x=3".toList] ∧ rawText "a@b".toList = .ok ["a,b".toList] := by
  decide +kernel

/-! ### C124: text and values -/

/-- C124: text selects the same as the value that is written -/
theorem C124_value_partial (p : Parsers T A) (s : List Char) (o : Obj T A) (h : Written p s o) (hne : s ≠ []) :
    stdSelText p s = stdSelObj p o ∧ ∃ v, meaning o = some v ∧ stdSelObj p o = .ok (.val v) := by
  refine ⟨?_, ?_⟩
  swap
  · cases o with
    | cplx re im =>
      have : re = 0 := h.1
      subst this
      exact ⟨.cplx 0 im, by simp [meaning], by simp [stdSelObj, stdObj, Except.map]⟩
    | arr a => exact h.elim
    | _ => exact ⟨_, rfl, rfl⟩
  have hc := written_chars h
  have hn : norm s = s := norm_id s fun c hx => ⟨(hc c hx).1, (hc c hx).2.1⟩
  have hb : bracketed s = false := by
    cases s with
    | nil => rfl
    | cons c s => simp [bracketed, (hc c (by simp)).2.2.2.1]
  unfold stdSelText stdSelObj
  simp only [hn]
  rw [if_neg hne, hb, if_neg (by simp), if_neg (fun hx => (hc _ hx).2.2.1 rfl), stdText_written h]

/-- a step of `None` is 1 -/
def stepOne : Std T A → Std T A
  | .slc a b .none => .slc a b (.int 1)
  | s => s

/-- C124: the text of a slice selects the same as the slice, if steps of `None` are taken for 1 -/
theorem C124_slice_partial (p : Parsers T A) (a b : List Char) (c : Option (List Char)) (oa ob oc : Obj T A)
    (ha : Written p a oa) (hb : Written p b ob) (hc : c.elim (oc = .none) fun c => Written p c oc)
    (hstep : oc = .none ∨ ∃ i, oc = .int i) (ht : p.cut (slcText a b c) = ([], slcText a b c)) :
    (stdSelText p (slcText a b c)).map stepOne = stdSelSlice p oa ob oc := by
  have ca := written_chars ha
  have cb := written_chars hb
  have cc : ∀ t, c = some t → ∀ x ∈ t, ¬ Spec.Grid.Blank x ∧ x.toLower = x ∧ x ≠ ':' ∧ x ≠ '[' ∧ x ≠ ']' := by
    rintro t rfl
    exact written_chars hc
  have hchars : ∀ x ∈ slcText a b c, ¬ Spec.Grid.Blank x ∧ x.toLower = x ∧ x ≠ '[' := by
    intro x hx
    have colon : ¬ Spec.Grid.Blank ':' ∧ (':' : Char).toLower = ':' ∧ ':' ≠ '[' := by decide
    unfold slcText at hx
    rw [List.mem_append, List.mem_cons, List.mem_append] at hx
    rcases hx with hx | rfl | hx | hx
    · exact ⟨(ca x hx).1, (ca x hx).2.1, (ca x hx).2.2.2.1⟩
    · exact colon
    · exact ⟨(cb x hx).1, (cb x hx).2.1, (cb x hx).2.2.2.1⟩
    · cases c with
      | none => simp at hx
      | some t =>
        rcases List.mem_cons.mp hx with rfl | hx
        · exact colon
        · exact ⟨(cc t rfl x hx).1, (cc t rfl x hx).2.1, (cc t rfl x hx).2.2.2.1⟩
  have hn : norm (slcText a b c) = slcText a b c := norm_id _ fun x hx => ⟨(hchars x hx).1, (hchars x hx).2.1⟩
  have hne : slcText a b c ≠ [] := by unfold slcText; simp
  have hbr : bracketed (slcText a b c) = false := by
    cases hs : slcText a b c with
    | nil => rfl
    | cons x s =>
      have := (hchars x (by rw [hs]; simp)).2.2
      simp [bracketed, this]
  have hin : ':' ∈ slcText a b c := by unfold slcText; simp
  have hsplit : (splitAt ':' (slcText a b c)).map strip = a :: b :: c.toList := by
    unfold slcText
    rw [splitAt_append _ _ _ fun h => (ca _ h).2.2.1 rfl]
    cases c with
    | none =>
      simp only [Option.elim_none, List.append_nil]
      rw [splitAt_none _ _ fun h => (cb _ h).2.2.1 rfl]
      simp [strip_id a fun x hx => (ca x hx).1, strip_id b fun x hx => (cb x hx).1]
    | some t =>
      simp only [Option.elim_some]
      rw [splitAt_append _ _ _ fun h => (cb _ h).2.2.1 rfl, splitAt_none _ _ fun h => (cc t rfl _ h).2.2.1 rfl]
      simp [strip_id a fun x hx => (ca x hx).1, strip_id b fun x hx => (cb x hx).1, strip_id t fun x hx => (cc t rfl x hx).1]
  have hval : ∀ {s : List Char} {o : Obj T A}, Written p s o → ∃ v, stdObj p o = .ok v := by
    intro s o h
    cases o with
    | cplx re im => exact ⟨.cplx re im, by simp [stdObj, h.1]⟩
    | time t => exact h.elim
    | arr a => exact h.elim
    | _ => exact ⟨_, rfl⟩
  obtain ⟨va, hva⟩ := hval ha
  obtain ⟨vb, hvb⟩ := hval hb
  have ta := stdText_written ha
  have tb := stdText_written hb
  rw [hva] at ta
  rw [hvb] at tb
  unfold stdSelText stdSelSlice
  simp only [hn]
  rw [if_neg hne, hbr, if_neg (by simp), if_pos hin]
  unfold splitSlice
  rw [ht]
  simp only [hsplit, putBack, hva, hvb]
  cases c with
  | none =>
    have hoc : oc = .none := hc
    subst hoc
    simp [stdAll, ta, tb, stdObj, stepOne, Except.map]
  | some t =>
    have tc := stdText_written (show Written p t oc from hc)
    rcases hstep with rfl | ⟨i, rfl⟩
    · have tc' : stdText p t = .ok .none := tc
      simp [stdAll, ta, tb, tc', stdObj, stepOne, stepOk, Except.map]
    · have tc' : stdText p t = .ok (.int i) := tc
      simp [stdAll, ta, tb, tc', stdObj, stepOne, stepOk, Except.map]

/-- parsers of a few words, for examples -/
def exParsers : Parsers Unit Unit where
  int s := if s = "3".toList then some 3 else if s = "-2".toList then some (-2) else none
  flt s := if s = "1.5".toList then some (3 / 2) else none
  cplx s := if s = "2.5j".toList then some (0, 5 / 2) else none
  isTime _ := false
  time _ := .error .value
  arr _ := .error .value
  cut s := ([], s)
  stdArr a := .ok a

theorem exWritten : Written exParsers "3".toList (.int 3) ∧ Written exParsers "2.5f".toList (.cplx 0 (5 / 2)) ∧
    Written exParsers "1.5".toList (.flt (3 / 2)) ∧ Written exParsers [] .none := by
  refine ⟨⟨⟨by decide, by decide, rfl, by decide⟩, by decide⟩, ⟨rfl, ⟨by decide, by decide, rfl, by decide⟩, by decide,
    .inr ⟨"2.5".toList, by decide, by decide, by decide +kernel⟩⟩,
    ⟨⟨by decide, by decide, rfl, by decide⟩, by decide, by decide, by decide, by decide +kernel⟩, .inl rfl⟩

example : stdSelText exParsers " 2.5F : : -2 ".toList = .ok (.slc (.cplx 0 (5 / 2)) .none (.int (-2))) ∧
    stdSelText exParsers "::1.5".toList = .error .assertion ∧ stdSelText exParsers "3:::".toList = .error .type ∧
    stdSelText exParsers "what".toList = .error .value := by
  decide +kernel

/-- C124 fails: text without anything, which is `None` within a slice, raises IndexError; and the step of a text that has none stays
`None`, unlike that of a slice -/
theorem C124_empty_violated :
    stdSelText exParsers [] = .error .index ∧ stdSelObj exParsers .none = .ok (.val .none) ∧
    stdSelText exParsers "3:".toList = .ok (.slc (.int 3) .none .none) ∧
    stdSelSlice exParsers (.int 3) .none .none = .ok (.slc (.int 3) .none (.int 1)) := by
  decide +kernel

end Viscid.Props
