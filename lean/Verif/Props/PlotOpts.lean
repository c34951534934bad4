import Verif.Spec.PlotOpts
import Verif.Props.LogValue
/-! # C216: plot options given as text -/
namespace Viscid.Props
open Viscid.LogValue Viscid.PlotOpts Viscid.Spec.LogValue Viscid.Spec.AsCotr Viscid.Spec.PlotOpts

namespace PO

theorem isName_iff (t : Text) : isName t = true ↔ IsName t := by
  cases t with
  | nil => simp [isName, IsName]
  | cons c cs => simp [isName, IsName, LV.letter_iff, LV.digit_iff, or_assoc]

theorem keyword_iff (t : Text) : t ∈ keywords ↔ Keyword t := Iff.rfl

theorem lower_letter (c d : Char) (h : c.toLower = d) (hd : 'a' ≤ d ∧ d ≤ 'z') : Letter c := by
  rw [← LV.letter_iff]
  unfold Char.toLower at h
  simp only [isLetter, Bool.or_eq_true, Bool.and_eq_true, decide_eq_true_eq]
  split at h
  · rename_i hc
    right
    exact hc
  · left; subst h; exact hd

theorem lower_name (t u : Text) (h : t.map Char.toLower = u) (hu : ∀ d ∈ u, 'a' ≤ d ∧ d ≤ 'z') (hne : u ≠ []) : IsName t := by
  have hl : ∀ c ∈ t, Letter c := by
    intro c hc
    have : c.toLower ∈ u := by rw [← h]; exact List.mem_map_of_mem hc
    exact lower_letter c _ rfl (hu _ this)
  cases t with
  | nil => exact absurd h.symm hne
  | cons c cs => exact ⟨c, cs, rfl, .inl (hl c (by simp)), fun d hd => .inl (hl d (by simp [hd]))⟩

theorem key_lower : ∀ k ∈ keywords, k.map Char.toLower ≠ "true".toList ∧ k.map Char.toLower ≠ "false".toList ∧ k.map Char.toLower ≠ "none".toList := by decide +kernel

theorem parse_special (w : World V) (s u : Text) (h : Name s u) (hu : u = "true".toList ∨ u = "false".toList ∨ u = "none".toList) :
    parse w s = if u = "true".toList then .ok (.bool true) else if u = "false".toList then .ok (.bool false) else .ok .none := by
  obtain ⟨t, ht, hs⟩ := h
  rw [LV.trimmed_iff] at ht
  rw [AC.small_map] at hs
  have hn : isName t = true := by
    rw [isName_iff]
    refine lower_name t u hs.symm ?_ ?_ <;> rcases hu with rfl | rfl | rfl <;> decide
  have hk : t ∉ keywords := by
    intro hk
    have := key_lower t hk
    rw [← hs] at this
    rcases hu with h | h | h
    · exact this.1 h
    · exact this.2.1 h
    · exact this.2.2 h
  unfold parse
  simp only [ht]
  rw [if_pos hn, if_neg hk, ← hs]
  rcases hu with rfl | rfl | rfl
  · rfl
  · rfl
  · rfl

theorem parse_ok (w : World V) (s : Text) (v : Atom V) (h : Reads w s v) : parse w s = .ok v := by
  cases h with
  | yes h => rw [parse_special w s _ h (.inl rfl), if_pos rfl]
  | no h => rw [parse_special w s _ h (.inr (.inl rfl))]; rfl
  | none h => rw [parse_special w s _ h (.inr (.inr rfl))]; rfl
  | @word t h1 h2 h3 h4 =>
    have ht := (LV.trimmed_iff s t).1 h1
    have hn : ∀ x : String, x ∈ ["true", "false", "none"] → t.map Char.toLower ≠ x.toList := by
      intro x hx e
      exact h4 x hx ⟨t, h1, (AC.small_map _ _).2 e.symm⟩
    unfold parse
    simp only [ht]
    rw [if_pos ((isName_iff t).2 h2), if_neg (show t ∉ keywords from h3), if_neg (hn _ (by simp)), if_neg (hn _ (by simp)), if_neg (hn _ (by simp))]
  | @expr t x h1 h2 h3 =>
    have ht := (LV.trimmed_iff s t).1 h1
    unfold parse
    simp only [ht]
    rw [if_neg (by rw [isName_iff]; exact h2), h3]

theorem parse_all (w : World V) (l : List Text) (vs : List (Atom V)) (h : List.Forall₂ (Reads w) l vs) : l.mapM (parse w) = .ok vs := by
  induction h with
  | nil => rfl
  | cons h _ ih => rw [List.mapM_cons, parse_ok w _ _ h, ih]; rfl

abbrev flat (o : Text) : Text := o.map fun c => if c = '=' then '_' else c

theorem flat_none (p : Text) (h : '=' ∉ p) : flat p = p := by
  unfold flat
  conv_rhs => rw [← List.map_id p]
  apply List.map_congr_left
  intro c hc
  rw [if_neg (by rintro rfl; exact h hc)]; rfl

theorem pieces_split {o : Text} {l : List Text} (h : Pieces o l) : LogValue.split '_' (flat o) = l := by
  induction h with
  | one h1 h2 => rw [flat_none _ h2, LV.split_none _ _ h1]
  | @more p c s l h1 h2 h3 h ih =>
    have e : flat (p ++ c :: s) = p ++ '_' :: flat s := by
      have := flat_none p h2
      unfold flat at this ⊢
      rw [List.map_append, List.map_cons, this]
      rcases h3 with rfl | rfl <;> rfl
    rw [e, LV.split_append _ _ _ h1, ih]

theorem join_none (l : List (Atom V)) (h : ∃ v ∈ l, ∀ u, v ≠ .text u) : join l = none := by
  induction l with
  | nil => obtain ⟨v, h, _⟩ := h; cases h
  | cons a l ih =>
    cases a with
    | bool b => cases l <;> rfl
    | none => cases l <;> rfl
    | other x => cases l <;> rfl
    | text s =>
      obtain ⟨v, hv, hu⟩ := h
      have hv : v ∈ l := by
        rcases List.mem_cons.1 hv with rfl | hv
        · exact absurd rfl (hu s)
        · exact hv
      cases l with
      | nil => cases hv
      | cons b l => simp only [join]; rw [ih ⟨v, hv, hu⟩]; rfl

/-- the text of some texts with an underscore between each two -/
theorem join_texts (s : Text) (l : List Text) : ∃ t, join ((s :: l).map (Atom.text (V := V))) = some t ∧ t = List.intercalate ['_'] (s :: l) := by
  induction l generalizing s with
  | nil => exact ⟨s, rfl, by simp [List.intercalate]⟩
  | cons b l ih =>
    obtain ⟨t, e1, e2⟩ := ih b
    refine ⟨s ++ '_' :: t, ?_, ?_⟩
    · have : join ((s :: b :: l).map (Atom.text (V := V))) = (join ((b :: l).map (Atom.text (V := V)))).map fun t => s ++ '_' :: t := rfl
      rw [this, e1]; rfl
    · rw [e2]; simp [List.intercalate]

theorem option_ok (w : World V) (o : Text) (m : Option (Text × Val V)) (h : Means w o m) : option w o = .ok m := by
  cases h with
  | blank h =>
    have h1 : '_' ∉ o := fun hc => absurd (h _ hc) (by unfold Blank; decide)
    have h2 : '=' ∉ o := fun hc => absurd (h _ hc) (by unfold Blank; decide)
    have e := pieces_split (Pieces.one h1 h2)
    have hs : LogValue.strip o = [] := (LV.trimmed_iff o []).1 ⟨o, [], by simp, h, by simp, by simp, by simp⟩
    unfold option
    rw [e]
    simp only [List.mapM_nil, hs]; rfl
  | @flag k h1 h2 h3 h4 =>
    have e := pieces_split (Pieces.one h1 h2)
    have hs := (LV.trimmed_iff o k).1 h3
    unfold option
    rw [e]
    simp only [List.mapM_nil, hs]
    show Except.ok (if k = [] then _ else _) = _
    rw [if_neg h4]
  | @value n k s v h1 h2 h3 =>
    have e := pieces_split h1
    have hs := (LV.trimmed_iff n k).1 h2
    unfold option
    rw [e]
    simp only [hs, parse_all w [s] [v] (.cons h3 .nil)]; rfl
  | @values n k s t l a b vs h1 h2 h3 h4 h5 h6 =>
    have e := pieces_split h1
    have hs := (LV.trimmed_iff n k).1 h2
    unfold option
    rw [e]
    simp only [hs, parse_all w (s :: t :: l) (a :: b :: vs) (.cons h3 (.cons h4 h5))]
    show Except.ok (some (k, Val.list (match join (a :: b :: vs) with | some s => _ | none => _))) = _
    rw [join_none _ h6]

theorem options_ok (w : World V) (os : List Text) (ms : List (Option (Text × Val V))) (h : List.Forall₂ (Means w) os ms) (kw : Kw V) :
    ∃ r, options w os kw = .ok r ∧ Updated kw r ms := by
  induction h generalizing kw with
  | nil => exact ⟨kw, rfl, fun k => ⟨by simp, fun _ => rfl⟩⟩
  | @cons o m os ms hm _ ih =>
    have ho := option_ok w o m hm
    cases m with
    | none =>
      obtain ⟨r, e, hr⟩ := ih kw
      refine ⟨r, by rw [options, ho]; exact e, fun k => ⟨?_, ?_⟩⟩
      · intro i v hi hl
        cases i with
        | zero => simp at hi
        | succ i => exact (hr k).1 i v hi fun j u hj => hl (j + 1) u (by omega)
      · intro hn
        exact (hr k).2 fun i v => hn (i + 1) v
    | some p =>
      obtain ⟨k', v'⟩ := p
      obtain ⟨r, e, hr⟩ := ih (kw.put k' v')
      refine ⟨r, by rw [options, ho]; exact e, fun k => ⟨?_, ?_⟩⟩
      · intro i v hi hl
        cases i with
        | zero =>
          simp only [List.getElem?_cons_zero, Option.some.injEq, Prod.mk.injEq] at hi
          rw [(hr k).2 fun j u => hl (j + 1) u (by omega)]
          simp [Kw.put, hi.1, hi.2]
        | succ i => exact (hr k).1 i v hi fun j u hj => hl (j + 1) u (by omega)
      · intro hn
        rw [(hr k).2 fun i v => hn (i + 1) v]
        have : k ≠ k' := by rintro rfl; exact hn 0 v' rfl
        simp [Kw.put, this]

theorem to_options (w : World V) (s t : Text) (ht : Trimmed s t) (hne : t ≠ []) (hb : ¬ Braced t) (kw : Kw V) :
    toKwargs w s kw = options w (LogValue.split ',' t) kw := by
  have e := (LV.trimmed_iff s t).1 ht
  have hs : s ≠ [] := by
    rintro rfl
    exact hne (by rw [← e]; rfl)
  unfold toKwargs
  rw [if_neg hs]
  simp only [e]
  cases t with
  | nil => exact absurd rfl hne
  | cons c cs =>
    simp only [List.head?_cons, List.getLast?_eq_some_getLast (show c :: cs ≠ [] by simp)]
    rw [if_neg]
    rintro ⟨rfl, h⟩
    exact hb ⟨cs, rfl, by rw [List.getLast?_eq_some_getLast (by simp), h]⟩

end PO

/-- C216: options with commas between them are what they mean, one by one, the last for a name counts, and options given before are kept if they are not named
(for options with several values: if they are not all texts). -/
theorem C216_options_partial (w : World V) (s t : Text) (os : List Text) (ms : List (Option (Text × Val V))) (kw : Kw V) (ht : Trimmed s t) (hne : t ≠ [])
    (hb : ¬ Braced t) (hj : Joined ',' t os) (hm : List.Forall₂ (Means w) os ms) : ∃ r, toKwargs w s kw = .ok r ∧ Updated kw r ms := by
  rw [PO.to_options w s t ht hne hb kw, (LV.joined_iff ',' t os).1 hj]
  exact PO.options_ok w os ms hm kw

/-- C216: no text, no options. -/
theorem C216_empty (w : World V) (kw : Kw V) : toKwargs w [] kw = .ok kw := rfl

/-- C216 is false: a text of blanks is an error rather than no options. -/
theorem C216_blank_violated (w : World V) (kw : Kw V) (s : Text) (hne : s ≠ []) (h : ∀ c ∈ s, Blank c) : toKwargs w s kw = .error .index := by
  have hs : LogValue.strip s = [] := (LV.trimmed_iff s []).1 ⟨s, [], by simp, h, by simp, by simp, by simp⟩
  unfold toKwargs
  rw [if_neg hne]
  simp only [hs]; rfl

/-- C216 is false: a value with underscores in it, as names of reversed colour maps have one, becomes the list of its characters. -/
theorem C216_underscore_violated (w : World V) (kw : Kw V) (n k a b : Text) (l : List Text) (o : Text) (hp : Pieces o (n :: a :: b :: l)) (hn : Trimmed n k)
    (hr : ∀ x ∈ a :: b :: l, Reads w x (.text x)) (ht : Trimmed o o) (hb : ¬ Braced o) (hc : ',' ∉ o) :
    ∃ r, toKwargs w o kw = .ok r ∧ r k = some (.list ((List.intercalate ['_'] (a :: b :: l)).map fun c => .text [c])) ∧
      r k ≠ some (.one (.text (List.intercalate ['_'] (a :: b :: l)))) := by
  have hne : o ≠ [] := by
    rintro rfl
    have := PO.pieces_split hp
    simp [PO.flat, LogValue.split] at this
  rw [PO.to_options w o o ht hne hb kw, LV.split_none _ _ hc]
  have e := PO.pieces_split hp
  have hs := (LV.trimmed_iff n k).1 hn
  have hall : (a :: b :: l).mapM (parse w) = .ok ((a :: b :: l).map Atom.text) := by
    apply PO.parse_all
    generalize a :: b :: l = l at hr
    induction l with
    | nil => exact .nil
    | cons x l ih => exact .cons (hr x (by simp)) (ih fun y hy => hr y (by simp [hy]))
  obtain ⟨t, e1, e2⟩ := PO.join_texts (V := V) a (b :: l)
  have ho : option w o = .ok (some (k, .list ((List.intercalate ['_'] (a :: b :: l)).map fun c => .text [c]))) := by
    unfold option
    rw [e]
    simp only [hs, hall]
    show Except.ok (some (k, Val.list (match join ((a :: b :: l).map Atom.text) with | some s => _ | none => _))) = _
    rw [e1, e2]
  refine ⟨_, by rw [options, ho]; rfl, ?_, ?_⟩
  · simp [Kw.put]
  · simp [Kw.put]

/-- C216: options as yaml: those without a value are True. -/
theorem C216_yaml (w : World V) (kw : Kw V) (s t : Text) (d : List (Text × Atom V)) (ht : Trimmed s t) (hb : Braced t) (hd : w.yaml t = .ok d) :
    ∃ r, toKwargs w s kw = .ok r ∧ Updated kw r (d.map fun p => some (p.1, .one (match p.2 with | .none => .bool true | x => x))) := by
  have e := (LV.trimmed_iff s t).1 ht
  obtain ⟨m, rfl, hl⟩ := hb
  have hs : s ≠ [] := by rintro rfl; cases e
  refine ⟨d.foldl (fun kw p => kw.put p.1 (.one (if p.2.isNone then .bool true else p.2))) kw, ?_, ?_⟩
  · unfold toKwargs
    rw [if_neg hs]
    simp only [e, List.head?_cons, hl]
    rw [if_pos ⟨trivial, trivial⟩, hd]; rfl
  · clear hd hl ht e hs
    induction d generalizing kw with
    | nil => exact fun k => ⟨by simp, fun _ => rfl⟩
    | cons p d ih =>
      intro k
      have hr := ih (kw.put p.1 (.one (if p.2.isNone then .bool true else p.2))) k
      refine ⟨?_, ?_⟩
      · intro i v hi hl
        cases i with
        | zero =>
          simp only [List.map_cons, List.getElem?_cons_zero, Option.some.injEq, Prod.mk.injEq] at hi
          rw [List.foldl_cons, hr.2 fun j u => hl (j + 1) u (by omega)]
          obtain ⟨rfl, rfl⟩ := hi
          simp only [Kw.put, if_true, Option.some.injEq, Val.one.injEq]
          cases p.2 <;> rfl
        | succ i => exact hr.1 i v hi fun j u hj => hl (j + 1) u (by omega)
      · intro hn
        rw [List.foldl_cons, hr.2 fun i v => hn (i + 1) v]
        have : k ≠ p.1 := by rintro rfl; exact hn 0 _ rfl
        simp [Kw.put, this]

/-- C216: an expression that python refuses is refused. -/
theorem C216_error (w : World V) (kw : Kw V) (n s t o : Text) (e : Err) (hp : Pieces o [n, s]) (hs : Trimmed s t) (hn : ¬ IsName t) (he : w.expr t = .error e)
    (ht : Trimmed o o) (hb : ¬ Braced o) (hc : ',' ∉ o) : toKwargs w o kw = .error e := by
  have hne : o ≠ [] := by
    rintro rfl
    have := PO.pieces_split hp
    simp [PO.flat, LogValue.split] at this
  rw [PO.to_options w o o ht hne hb kw, LV.split_none _ _ hc]
  have hx := PO.pieces_split hp
  have h1 : parse w s = .error e := by
    unfold parse
    simp only [(LV.trimmed_iff s t).1 hs]
    rw [if_neg (by rw [PO.isName_iff]; exact hn), he]
  have ho : option w o = .error e := by
    unfold option
    rw [hx]
    simp only [List.mapM_cons, h1]; rfl
  rw [options, ho]; rfl

/-- C216 is false: a value that is a word of python's is refused, rather than being a text as other words are. -/
theorem C216_keyword_violated (w : World V) (kw : Kw V) (n s t o : Text) (hp : Pieces o [n, s]) (hs : Trimmed s t) (hk : Keyword t)
    (ht : Trimmed o o) (hb : ¬ Braced o) (hc : ',' ∉ o) : toKwargs w o kw = .error .syntax := by
  have hne : o ≠ [] := by
    rintro rfl
    have := PO.pieces_split hp
    simp [PO.flat, LogValue.split] at this
  rw [PO.to_options w o o ht hne hb kw, LV.split_none _ _ hc]
  have hx := PO.pieces_split hp
  have hn : ∀ k ∈ keywords, isName k = true := by decide +kernel
  have h1 : parse w s = .error .syntax := by
    unfold parse
    simp only [(LV.trimmed_iff s t).1 hs]
    rw [if_pos (hn t hk), if_pos (show t ∈ keywords from hk)]
  have ho : option w o = .error .syntax := by
    unfold option
    rw [hx]
    simp only [List.mapM_cons, h1]; rfl
  rw [options, ho]; rfl

/-- C216: the axis is the one named, in lower case and trimmed; none, nothing and None are no axis; `equalaxis` takes the place of `axis`. -/
theorem C216_axis (eq : Option Bool) (axis : Option AxisVal) (default : AxisVal) :
    (eq = some true → popAxis eq axis default = .ok (some "equal".toList, false)) ∧
    (eq = some false → popAxis eq axis default = .ok (none, false)) ∧
    (∀ s u, eq = none → (axis = some (.text s) ∨ axis = none ∧ default = .text s) → Name s u →
      popAxis eq axis default = .ok (if u = "none".toList ∨ u = [] then none else some u, axis.isNone)) ∧
    (eq = none → (axis = some .none ∨ axis = none ∧ default = .none) → popAxis eq axis default = .ok (none, axis.isNone)) ∧
    (eq = none → axis = some .other → popAxis eq axis default = .error .attr) := by
  refine ⟨?_, ?_, ?_, ?_, ?_⟩
  · rintro rfl; rfl
  · rintro rfl; rfl
  · rintro s u rfl h hs
    have := (AC.clean_iff s u).2 hs
    rcases h with rfl | ⟨rfl, rfl⟩
    · unfold popAxis; simp only [Option.getD_some, this]
    · unfold popAxis; simp only [Option.getD_none, this]
  · rintro rfl (rfl | ⟨rfl, rfl⟩) <;> rfl
  · rintro rfl rfl; rfl

/-- "x_-10_10,log" and "cmap_jet_r" -/
def plotWorld : World Int := { expr := fun t => match intOf t with | some n => .ok (.other n) | none => .error .syntax, yaml := fun _ => .error .syntax }

example : Means plotWorld "x=-10_10".toList (some ("x".toList, .list [.other (-10), .other 10])) := by
  refine .values (n := "x".toList) (s := "-10".toList) (t := "10".toList) (l := []) ?_ ⟨[], [], rfl, by simp, by simp, by unfold Blank; decide, by unfold Blank; decide⟩ ?_ ?_ .nil ⟨_, List.mem_cons_self .., by simp⟩
  · exact .more (p := "x".toList) (c := '=') (s := "-10_10".toList) (by decide) (by decide) (.inr rfl)
      (.more (p := "-10".toList) (c := '_') (by decide) (by decide) (.inl rfl) (.one (by decide) (by decide)))
  · exact .expr (t := "-10".toList) ⟨[], [], rfl, by simp, by simp, by unfold Blank; decide, by unfold Blank; decide⟩
      (by rw [← PO.isName_iff]; decide) rfl
  · exact .expr (t := "10".toList) ⟨[], [], rfl, by simp, by simp, by unfold Blank; decide, by unfold Blank; decide⟩
      (by rw [← PO.isName_iff]; decide) rfl

example : ∃ r, toKwargs plotWorld "cmap_jet_r".toList (fun _ => none) = .ok r ∧ r "cmap".toList = some (.list ("jet_r".toList.map fun c => .text [c])) :=
  ⟨_, rfl, rfl⟩

end Viscid.Props
