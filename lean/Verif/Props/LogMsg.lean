import Verif.Lemmas.LogMsg

/-!
C262: what viscid's logger shows. (viscid/__init__.py:77-93)
-/

namespace Viscid.Props
open Viscid.LogMsg Viscid.LogMsg.Lem Viscid.Spec.LogMsg

namespace LG

/-- The label in front of a message -/
def label (level : List Char) : List Char := level ++ [':', ' ']

theorem shown_lines (cut : Str → List Str) (level msg : Str) (hl : '\n' ∉ level) (l : Str) (ls : List Str)
    (h : lines (if '\n' ∈ msg then msg else joinNl (wrap cut msg)) = l :: ls) :
    lines (level ++ ':' :: ' ' :: filter cut level msg) = labelled (label level) (l :: ls) := by
  have h1 := lines_indent (level.length + 2) _ l ls h
  have h2 := lines_pre (label level) _ (by simp [label, hl]) _ _ h1
  have e : level ++ ':' :: ' ' :: filter cut level msg = label level ++ filter cut level msg := by simp [label]
  rw [e, filter, h2, labelled]
  simp [label]

theorem plain_cuts : Cuts fun w => if w = [] then [] else [w] := by
  refine ⟨?_, ?_, ?_⟩
  · intro w; by_cases h : w = [] <;> simp [h]
  · intro w p hp
    by_cases h : w = []
    · simp [h] at hp
    · simp [h] at hp; subst hp; exact h
  · intro w h _; simp [h]

/-- A long word by itself is broken behind 65 characters -/
theorem wrap_long (cut : Str → List Str) (hc : Cuts cut) (w : Str) (hw : ∀ c ∈ w, ¬ Space c) (hy : '-' ∉ w) (h1 : 65 < w.length) (h2 : w.length ≤ 130) :
    wrap cut w = [w.take 65, w.drop 65] := by
  have hne : w ≠ [] := by intro e; rw [e] at h1; simp at h1
  have hw' : ∀ c ∈ w, isWs c = false := fun c hx => (isWs_false c).2 (hw c hx)
  have hs : split cut (munge 0 w) = [w] := by
    rw [munge_word w 0 hw, split, chunks_word w hne hw']
    simp [not_blank w hne hw', hc.plain w hne hy]
  simp only [wrap, hs]
  have hlen : ([w] : List Str).flatten.length + 1 = (w.length - 1) + 1 + 1 := by simp; omega
  have htake : blank (w.take 65) = false := by
    refine not_blank _ ?_ fun c hx => hw' c (List.mem_of_mem_take hx)
    intro e
    have := congrArg List.length e
    simp at this
    exact hne this
  have hdropne : w.drop 65 ≠ [] := by
    intro e
    have := congrArg List.length e
    simp at this; omega
  have hdrop : blank (w.drop 65) = false := not_blank _ hdropne fun c hx => hw' c (List.mem_of_mem_drop hx)
  have o1 : oneLine false [w] = ([w.take 65], [w.drop 65]) := by
    have hf : fill 0 [w] = ([], [w]) := by rw [fill, if_neg (by simp [width]; omega)]
    simp only [oneLine, lead, Bool.false_and, Bool.false_eq_true, if_false, hf, long, width, if_pos h1, List.flatten_nil, List.length_nil, Nat.sub_zero,
      endOf_plain 65 w hy, List.nil_append, trail, List.getLast?_singleton, htake]
  have o2 : oneLine true [w.drop 65] = ([w.drop 65], []) := by
    have hf : fill 0 [w.drop 65] = ([w.drop 65], []) := by
      rw [fill, if_pos (by simp [width]; omega)]; rfl
    simp only [oneLine, lead, Bool.true_and, hdrop, Bool.false_eq_true, if_false, hf, long, trail, List.getLast?_singleton]
  rw [hlen]
  simp only [wrapLoop, o1]
  rw [if_neg (by simp)]
  obtain ⟨k, hk⟩ : ∃ k, w.length - 1 = k + 1 := ⟨w.length - 2, by omega⟩
  rw [hk]
  simp [wrapLoop, o2]

end LG

open LG

/-- A message in one line is shown in lines of at most 65 characters behind the label and below it; every letter is there, in order,
and words of up to 65 characters are whole -/
theorem C262_short (cut : List Char → List (List Char)) (hc : Cuts cut) (level msg : List Char) (hl : '\n' ∉ level) (hm : '\n' ∉ msg) :
    ∃ s ls, shown cut level msg [] = .ok s ∧ lines s = labelled (label level) ls ∧
      (∀ l ∈ ls, l.length ≤ 65) ∧ letters ls.flatten = letters msg ∧
      ∀ w, Word w msg → '-' ∉ w → w.length ≤ 65 → ∃ l ∈ ls, w <:+: l := by
  have hfl := split_flatten cut hc (munge 0 msg)
  obtain ⟨i1, i2, i3, i4⟩ := loop_spec ((split cut (munge 0 msg)).flatten.length + 1) false _ (split_ne cut hc (munge 0 msg)) (Nat.lt_succ_self _)
  rw [show wrapLoop ((split cut (munge 0 msg)).flatten.length + 1) false (split cut (munge 0 msg)) = wrap cut msg from rfl] at i1 i2 i3 i4
  rw [hfl] at i1 i3
  rw [munge_letters] at i1
  have hw4 : ∀ w, Word w msg → '-' ∉ w → w.length ≤ 65 → ∃ l ∈ wrap cut msg, w <:+: l := by
    intro w hw hy hlen
    refine i4 w (split_word cut hc w msg hw hy 0) ?_ hlen
    obtain ⟨_, _, _, hne, hns, _, _⟩ := hw
    exact not_blank w hne fun c hx => (isWs_false c).2 (hns c hx)
  cases hwr : wrap cut msg with
  | nil =>
    rw [hwr] at i1 hw4
    refine ⟨_, [[]], rfl, shown_lines cut level msg hl [] [] (by rw [if_neg hm, hwr]; rfl), by simp, by simpa using i1, ?_⟩
    intro w hw hy hlen
    obtain ⟨l, hmem, _⟩ := hw4 w hw hy hlen
    exact absurd hmem (by simp)
  | cons l ls =>
    rw [hwr] at i1 i2 i3 hw4
    have hnl : ∀ x ∈ l :: ls, '\n' ∉ x := by
      intro x hx hn
      rcases munge_chars msg 0 _ (i3 x hx _ hn) with h | h
      · exact absurd h (by decide)
      · exact absurd h (by decide)
    exact ⟨_, l :: ls, rfl, shown_lines cut level msg hl l ls (by rw [if_neg hm, hwr]; exact lines_join _ (by simp) hnl), i2, i1, hw4⟩

/-- A message of several lines is shown line by line, as it is, behind the label and below it -/
theorem C262_lines (cut : List Char → List (List Char)) (level msg : List Char) (hl : '\n' ∉ level) (hm : '\n' ∈ msg) :
    ∃ s, shown cut level msg [] = .ok s ∧ lines s = labelled (label level) (lines msg) := by
  cases h : lines msg with
  | nil => exact absurd h (lines_ne msg)
  | cons l ls => exact ⟨_, rfl, shown_lines cut level msg hl l ls (by rw [if_pos hm, h])⟩

/-- A word of more than 65 characters, such as the path of a file, is broken in two -/
theorem C262_words_violated (cut : List Char → List (List Char)) (hc : Cuts cut) (level w : List Char) (hl : '\n' ∉ level) (hw : ∀ c ∈ w, ¬ Space c) (hy : '-' ∉ w)
    (h1 : 65 < w.length) (h2 : w.length ≤ 130) :
    ∃ s, shown cut level w [] = .ok s ∧ lines s = [label level ++ w.take 65, List.replicate (level.length + 2) ' ' ++ w.drop 65] := by
  have hm : '\n' ∉ w := fun h => hw _ h (by decide)
  have hwr := wrap_long cut hc w hw hy h1 h2
  have hnl : ∀ x ∈ [w.take 65, w.drop 65], '\n' ∉ x := by
    intro x hx hn
    simp only [List.mem_cons, List.not_mem_nil, or_false] at hx
    rcases hx with rfl | rfl
    · exact hm (List.mem_of_mem_take hn)
    · exact hm (List.mem_of_mem_drop hn)
  refine ⟨_, rfl, ?_⟩
  rw [shown_lines cut level w hl _ _ (by rw [if_neg hm, hwr]; exact lines_join _ (by simp) hnl)]
  simp [labelled, label]

/-- What is put in for `%s` is neither wrapped nor set below the label: the text is wrapped before -/
theorem C262_args_violated (cut : List Char → List (List Char)) (hc : Cuts cut) (level a : List Char) :
    shown cut level ['%', 's'] [a] = .ok (label level ++ a) := by
  have hs : split cut (munge 0 ['%', 's']) = [['%', 's']] := by
    have : chunks (munge 0 ['%', 's']) = [['%', 's']] := by decide
    rw [split, this]
    have hb : blank ['%', 's'] = false := by decide
    simp [hb, hc.plain ['%', 's'] (by simp) (by decide)]
  have hw : wrap cut ['%', 's'] = [['%', 's']] := by
    simp only [wrap, hs]; decide
  have hf : filter cut level ['%', 's'] = ['%', 's'] := by
    rw [filter, if_neg (by decide), hw]
    simp [joinNl, indent]
  simp [shown, hf, subst, label, Except.map]

/-- A `%s` behind 64 letters is broken in two, and the message is lost -/
theorem C262_format_violated (cut : List Char → List (List Char)) (hc : Cuts cut) (level w a : List Char) (hw : ∀ c ∈ w, ¬ Space c) (hy : '-' ∉ w) (hp : '%' ∉ w)
    (h : w.length = 64) : shown cut level (w ++ ['%', 's']) [a] = .error .format := by
  have hw2 : ∀ c ∈ w ++ ['%', 's'], ¬ Space c := by
    intro c hcm
    rcases List.mem_append.1 hcm with h | h
    · exact hw c h
    · simp only [List.mem_cons, List.not_mem_nil, or_false] at h
      rcases h with rfl | rfl <;> decide
  have hy2 : '-' ∉ w ++ ['%', 's'] := by simp [hy]
  have hm : '\n' ∉ w ++ ['%', 's'] := fun h => hw2 _ h (by decide)
  have hwr := wrap_long cut hc _ hw2 hy2 (by simp; omega) (by simp; omega)
  have ht : (w ++ ['%', 's']).take 65 = w ++ ['%'] := by
    rw [List.take_append, List.take_of_length_le (by omega), h]; rfl
  have hd : (w ++ ['%', 's']).drop 65 = ['s'] := by
    rw [List.drop_append, List.drop_of_length_le (by omega), h]; rfl
  have hind : ∀ (v rest : List Char), (∀ c ∈ v, ¬ Space c) → indent (level.length + 2) (v ++ rest) = v ++ indent (level.length + 2) rest := by
    intro v rest hv
    induction v with
    | nil => rfl
    | cons c v ih =>
      have hcn : c ≠ '\n' := fun e => hv c (by simp) (by rw [e]; decide)
      rw [List.cons_append, indent, if_neg hcn, ih fun x hx => hv x (by simp [hx])]; rfl
  have hf : ∃ rest, filter cut level (w ++ ['%', 's']) = w ++ '%' :: '\n' :: rest := by
    rw [filter, if_neg hm, hwr, ht, hd]
    refine ⟨List.replicate (level.length + 2) ' ' ++ ['s'], ?_⟩
    simp only [joinNl, List.append_assoc, List.cons_append, List.nil_append]
    rw [hind w _ hw]
    simp [indent]
  obtain ⟨rest, hf⟩ := hf
  have hsub : ∀ (v : List Char), '%' ∉ v → ∀ args, subst (v ++ '%' :: '\n' :: rest) args = .error .format := by
    intro v
    induction v with
    | nil => intro _ args; simp [subst]
    | cons c v ih =>
      intro hv args
      have hcp : c ≠ '%' := fun e => hv (by simp [e])
      have := ih (fun e => hv (by simp [e])) args
      rw [List.cons_append]
      unfold subst
      split
      all_goals simp_all [Except.map]
  simp [shown, hf, hsub w hp, Except.map]

/-! ## Examples -/

/-- the cutting of words at hyphens of which there are none -/
example : Cuts fun w => if w = [] then [] else [w] := plain_cuts

example : Word "file".toList "no file here".toList := ⟨"no ".toList, " here".toList, by decide, by decide, by decide, by decide, by decide⟩

example : (shown (fun w => if w = [] then [] else [w]) "ERROR".toList "a\nb".toList []).toOption = some "ERROR: a\n       b".toList := by decide +kernel

/-- a path of 70 letters -/
example : (∀ c ∈ List.replicate 70 'p', ¬ Space c) ∧ '-' ∉ List.replicate 70 'p' ∧ 65 < (List.replicate 70 'p').length ∧ (List.replicate 70 'p').length ≤ 130 := by decide

example : (∀ c ∈ List.replicate 64 'p', ¬ Space c) ∧ '-' ∉ List.replicate 64 'p' ∧ '%' ∉ List.replicate 64 'p' ∧ (List.replicate 64 'p').length = 64 := by decide

example : (shown (fun w => if w = [] then [] else [w]) "INFO".toList "got %s, 100%%".toList ["it".toList]).toOption = some "INFO: got it, 100%".toList := by decide +kernel

end Viscid.Props
