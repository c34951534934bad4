import Verif.Lemmas.Evaluator
/-!
# C118, C119: equations
-/
namespace Viscid.Props
open Viscid.Evaluator Viscid.Spec.Evaluator

/-- C118: whatever the equation, two underscores in a row are never evaluated; equations without any are not changed -/
theorem C118_no_dunder (s : List Char) : ¬ Dunder (removeDunder s) ∧ (¬ Dunder s → removeDunder s = s) :=
  ⟨(removeDunder_spec s).1, removeDunder_none s⟩

/-- C118: neither does the text that is evaluated have any, for every equation, with quotes or without; and nothing is evaluated if that is
not enabled -/
theorem C118_text (enabled : Bool) (getField : List Char → Option F) (calcF np : List Char → Option G) (s : List Char) :
    (∀ out d, prepare enabled getField calcF np s = .ok (out, d) → ¬ Dunder out) ∧
    (enabled = false → prepare enabled getField calcF np s = .error .runtime) := by
  constructor
  · intro out d h
    unfold prepare at h
    split at h
    · simp at h
    · split at h
      · simp at h
      · rename_i s1 d1 h1
        simp only [Except.ok.injEq] at h
        have h2 := varPass_safe getField _ none _ _ _ h1
        rw [Option.toList_none, List.nil_append, tokens_flat] at h2
        have h3 := funcPass_safe calcF np ((tokens s1).length + 1) (tokens s1) none d1
        rw [Option.toList_none, List.nil_append, tokens_flat, h] at h3
        exact (h3 (h2 (removeDunder_spec s).1).1).1
  · rintro rfl
    rfl

example : removeDunder "vx.____class____ + __a___b".toList = "vx.class + a_b".toList := by decide +kernel

/-- C119: in an equation of names of fields, calls of functions, numbers and operators, every name gets a prefix and nothing else
changes, but blanks in front of parentheses. With the prefix, a field's name stands for the field, and a function's for that of
`calc`, or else that of numpy, unless it is the name of a field as well. There are no other names. -/
theorem C119_names_partial (getField : List Char → Option F) (calcF np : List Char → Option G) (e : List Item) (h : Parsed e)
    (hu : ¬ Dunder (text e)) (hf : ∀ n, .field n ∈ e → (getField n).isSome = true) :
    ∃ d, prepare true getField calcF np (text e) = .ok (prefixed salt e, d) ∧
      (∀ n, .field n ∈ e → d.get (salt ++ n) = (getField n).map .fld) ∧
      (∀ n b, .func n b ∈ e → .field n ∉ e → d.get (salt ++ n) = ((calcF n).or (np n)).map .fn) ∧
      ∀ k, (d.get k).isSome = true → ∃ n, k = salt ++ n ∧ (.field n ∈ e ∨ ∃ b, .func n b ∈ e) := by
  obtain ⟨d1, h1, i1, i1'⟩ := varPass_items (G := G) getField e h [] hf
  have hp := half_parsed h
  obtain ⟨h2, i2, i2'⟩ := funcPass_items calcF np (e.map half) hp d1 _ (Nat.lt_succ_self _)
  have hnil : ∀ k, Dict.get ([] : Dict F G) k = none := fun k => rfl
  refine ⟨(funcPass calcF np (((e.map half).flatMap toks).length + 1) none ((e.map half).flatMap toks) d1).2, ?_, ?_, ?_, ?_⟩
  · unfold prepare
    rw [if_neg (by simp), removeDunder_none _ hu, tokens_text e h, h1]
    simp only
    rw [tokens_text _ hp]
    rw [← rest_half, ← h2]
  · intro n hn
    rw [i2 n, i1 n, hnil, if_pos hn]
    obtain ⟨f, hfn⟩ := Option.isSome_iff_exists.mp (hf n hn)
    rw [hfn]
    rfl
  · intro n b hb hn
    rw [i2 n, i1 n, hnil, if_neg hn, calls_half, if_pos ((calls_iff n e).mpr ⟨b, hb⟩)]
    rfl
  · intro k hk
    by_cases hks : ∃ n, k = salt ++ n
    · obtain ⟨n, rfl⟩ := hks
      refine ⟨n, rfl, ?_⟩
      rw [i2 n, i1 n, hnil, calls_half] at hk
      by_cases h3 : Item.field n ∈ e
      · exact .inl h3
      · right
        rw [if_neg h3] at hk
        by_cases h4 : calls n e = true
        · exact (calls_iff n e).mp h4
        · rw [if_neg h4] at hk
          simp at hk
    · have hks' : ∀ n, k ≠ salt ++ n := fun n hn => hks ⟨n, hn⟩
      rw [i2' k hks', i1' k hks', hnil] at hk
      simp at hk

/-- The hypotheses of C119 are met: the equation `sqrt (vx)*2`. -/
example : Parsed [.func "sqrt".toList [' '], .field "vx".toList, .op ')', .op '*', .num "2".toList] ∧
    ¬ Dunder (text [.func "sqrt".toList [' '], .field "vx".toList, .op ')', .op '*', .num "2".toList]) ∧
    text [.func "sqrt".toList [' '], .field "vx".toList, .op ')', .op '*', .num "2".toList] = "sqrt (vx)*2".toList ∧
    prefixed salt [.func "sqrt".toList [' '], .field "vx".toList, .op ')', .op '*', .num "2".toList] = "SALTsqrt(SALTvx)*2".toList := by
  refine ⟨?_, ?_, by decide, by decide⟩
  · refine ⟨⟨Or.inl (by decide), by unfold Wordy Letter; decide⟩, by decide, ⟨Or.inl (by decide), by unfold Wordy Letter; decide⟩, trivial, ?_,
      by unfold Wordy Letter; decide, by decide, by decide, by unfold Wordy Letter; decide, by decide, by decide, ⟨by decide, by unfold Wordy Letter; decide⟩, trivial, trivial⟩
    simp only [Called]
    decide
  · unfold Dunder; decide

/-- C119: the first name of a field that the grid does not have is the error -/
theorem C119_unknown (getField : List Char → Option F) (calcF np : List Char → Option G) (e1 e2 : List Item) (n : List Char)
    (h : Parsed (e1 ++ .field n :: e2)) (hu : ¬ Dunder (text (e1 ++ .field n :: e2))) (hn : getField n = none)
    (hf : ∀ m, .field m ∈ e1 → (getField m).isSome = true) :
    prepare true getField calcF np (text (e1 ++ .field n :: e2)) = .error (.noField n) := by
  unfold prepare
  rw [if_neg (by simp), removeDunder_none _ hu, tokens_text _ h]
  rw [varPass_err (G := G) getField e1 e2 n h [] rfl hn hf]

/-- "sqrt (vx**2+vx*1e5)" -/
def exEqn : List Item :=
  [.func ['s', 'q', 'r', 't'] [' '], .field ['v', 'x'], .op '*', .op '*', .num ['2'], .op '+', .field ['v', 'x'],
    .op '*', .num ['1', 'e', '5'], .op ')']

theorem exEqn_parsed : Parsed exEqn ∧ text exEqn = "sqrt (vx**2+vx*1e5)".toList ∧
    prefixed salt exEqn = "SALTsqrt(SALTvx**2+SALTvx*1e5)".toList := by
  refine ⟨?_, by decide, by decide⟩
  simp +decide [exEqn, Parsed, Ends, Called, Name, Number, Wordy, Letter]

/-- C119 fails: the exponent of "2.e3" is taken for a field, -/
theorem C119_exponent_violated (getField : List Char → Option F) (calcF np : List Char → Option G)
    (h : getField "e3".toList = none) : prepare true getField calcF np "2.e3*vx".toList = .error (.noField "e3".toList) := by
  have h2 : varPass (G := G) getField none (tokens (removeDunder "2.e3*vx".toList)) [] = .error (.noField "e3".toList) := by
    have : tokens (removeDunder "2.e3*vx".toList) =
        [.word ['2'], .chr '.', .word ['e', '3'], .chr '*', .word ['v', 'x']] := by decide +kernel
    rw [this]
    have h3 : getField ['e', '3'] = none := h
    simp [varPass, symbol, isStart, paren, isQuote, varSalter, h3, Dict.get]
  unfold prepare
  rw [if_neg (by simp), h2]

/-- ... so are keyword arguments and Python's own words, -/
theorem C119_keyword_violated (getField : List Char → Option F) (calcF np : List Char → Option G)
    (h : getField "axis".toList = none) : prepare true getField calcF np "sum(1,axis=0)".toList = .error (.noField "axis".toList) := by
  have h2 : varPass (G := G) getField none (tokens (removeDunder "sum(1,axis=0)".toList)) [] = .error (.noField "axis".toList) := by
    have : tokens (removeDunder "sum(1,axis=0)".toList) =
        [.word "sum".toList, .chr '(', .word ['1'], .chr ',', .word "axis".toList, .chr '=', .word ['0'], .chr ')'] := by
      decide +kernel
    rw [this]
    have h3 : getField ['a', 'x', 'i', 's'] = none := h
    simp [varPass, symbol, isStart, paren, isQuote, varSalter, h3, Dict.get]
  unfold prepare
  rw [if_neg (by simp), h2]

/-- ... and a field with the name of a function hides it: "x(x)" applies the field to itself; fields with two underscores in a row cannot be
named; and strings in double quotes are taken for fields -/
theorem C119_clash_violated :
    prepare (F := Nat) (G := Nat) true (fun n => if n = ['x'] then some 1 else none) (fun n => if n = ['x'] then some 2 else none) (fun _ => none)
      "x(x)".toList = .ok ("SALTx(SALTx)".toList, [("SALTx".toList, .fld 1)]) ∧
    prepare (F := Nat) (G := Nat) true (fun n => if n = "a__b".toList then some 1 else none) (fun _ => none) (fun _ => none) "a__b".toList =
      .error (.noField "ab".toList) ∧
    prepare (F := Nat) (G := Nat) true (fun n => if n = "b".toList then some 1 else none) (fun _ => none) (fun _ => none) "b[\"x\"]".toList =
      .error (.noField "\"x".toList) ∧
    prepare (F := Nat) (G := Nat) true (fun n => if n = "b".toList then some 1 else none) (fun _ => none) (fun _ => none) "b['x']".toList =
      .ok ("SALTb['x']".toList, [("SALTb".toList, .fld 1)]) := by
  refine ⟨?_, ?_, ?_, ?_⟩ <;> decide +kernel

end Viscid.Props
