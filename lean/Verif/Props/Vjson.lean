import Verif.Lemmas.Vjson
/-!
# C30: the JSON clean-up

`preprocess text` is what `vjson.loads` hands to `json.loads`.  The value of a JSON text depends only on
its tokens.
-/
namespace Viscid.Vjson
open Viscid.Spec.Vjson

/-- C30: if, without its comments, the text splits into tokens whose strings are tame, and no comment
shares its line with an apostrophe before it, then the clean-up succeeds and leaves exactly the tokens
outside comments, without the trailing commas. -/
theorem C30_cleanup_partial (text : List Char) (ts : List Tok)
    (htok : tokens (joinLines ((splitLines text).map (code .out))) = some ts)
    (hstr : ∀ s, Tok.str s ∈ ts → Tame pySpace s) (hchr : ∀ c g, Tok.chr c g ∈ ts → pySpace c = false)
    (hapo : ∀ l ∈ splitLines text, code .out l = l ∨ '\'' ∉ code .out l) :
    ∃ out, preprocess text = some out ∧ tokens out = some (dropTrailing ts) := by
  rw [lex_join] at htok
  obtain ⟨tts, h1, h2, h3⟩ := lexLines_split _ _ htok
  have hg : ∀ t ∈ ts, Good t := by
    intro t ht
    cases t with
    | str s => exact hstr s ht
    | punct c => trivial
    | chr c g => exact hchr c g ht
  obtain ⟨out, h4, h5⟩ := process_spec (splitLines text) tts [] none []
    ⟨rfl, fun _ => rfl, by simp⟩ (by simpa using h2.symm) (by
      intro i l t hl ht
      refine ⟨h3 i _ t (by simp [hl]) ht, ?_, hapo l (List.mem_of_getElem? hl)⟩
      intro x hx
      apply hg
      rw [← h1]
      exact List.mem_flatten.mpr ⟨t, List.mem_of_getElem? ht, hx⟩)
  refine ⟨joinLines out, by unfold preprocess; rw [h4]; rfl, ?_⟩
  rw [lex_join, h5, List.nil_append, h1]

/-- C30 (valid JSON): a text without comments and without trailing commas, all of whose strings are tame,
keeps its tokens, hence its value.  Apostrophes do not matter here. -/
theorem C30_valid_json_partial (text : List Char) (ts : List Tok) (htok : tokens text = some ts)
    (hcom : ∀ l ∈ splitLines text, code .out l = l) (htrail : dropTrailing ts = ts)
    (hstr : ∀ s, Tok.str s ∈ ts → Tame pySpace s) (hchr : ∀ c g, Tok.chr c g ∈ ts → pySpace c = false) :
    ∃ out, preprocess text = some out ∧ tokens out = tokens text := by
  have hmap : (splitLines text).map (code .out) = splitLines text := by
    conv => rhs; rw [← List.map_id (splitLines text)]
    exact List.map_congr_left hcom
  obtain ⟨out, h1, h2⟩ := C30_cleanup_partial text ts (by rw [hmap, (join_split text).2]; exact htok) hstr hchr
    (fun l hl => Or.inl (hcom l hl))
  exact ⟨out, h1, by rw [h2, htok, htrail]⟩

/-- A text with a comment, markers and brackets inside strings, an apostrophe and trailing commas. -/
def sample : List Char := "{\"a#b\": [1, 2,], // note\n \"it's ]\": \"x\\n, y\",\n\n # done\n}".toList

/-- The sample meets the hypotheses of `C30_cleanup_partial`. -/
example : ∃ ts, tokens (joinLines ((splitLines sample).map (code .out))) = some ts ∧
    (∀ s, Tok.str s ∈ ts → Tame pySpace s) ∧ (∀ c g, Tok.chr c g ∈ ts → pySpace c = false) ∧
    (∀ l ∈ splitLines sample, code .out l = l ∨ '\'' ∉ code .out l) ∧ dropTrailing ts ≠ ts := by
  refine ⟨[.punct '{', .str "a#b".toList, .punct ':', .punct '[', .chr '1' false, .punct ',', .chr '2' false, .punct ',',
    .punct ']', .punct ',', .str "it's ]".toList, .punct ':', .str "x\\n, y".toList, .punct ',', .punct '}'], by decide +kernel, ?_, ?_,
    by decide +kernel, by decide +kernel⟩
  · intro s hs
    simp at hs
    have tame : ∀ s : List Char, '"' ∉ s → removals s = [] → Tame pySpace s := by
      intro s h1 h2
      refine ⟨h1, ?_⟩
      intro p w q c e hw
      rw [Bool.eq_false_iff]
      intro hc
      have key : ∀ (p : List Char), removals (p ++ ',' :: (w ++ c :: q)) ≠ [] := by
        intro p
        induction p with
        | nil =>
          rw [List.nil_append, removals_cons, if_pos ⟨rfl, (closes_iff _).mpr ⟨w, c, q, rfl, hw, hc⟩⟩]
          simp
        | cons a p ih =>
          rw [List.cons_append, removals_cons]
          simp only [ne_eq, List.append_eq_nil_iff, List.map_eq_nil_iff, not_and]
          intro _
          exact ih
      exact key p (e ▸ h2)
    rcases hs with rfl | rfl | rfl <;> exact tame _ (by decide +kernel) (by decide +kernel)
  · intro c g hc
    simp at hc
    rcases hc with ⟨rfl, _⟩ | ⟨rfl, _⟩ <;> decide

/-- and is cleaned as expected. -/
example : preprocess sample = some "{\"a#b\": [1, 2],\n \"it's ]\": \"x\\n, y\"\n\n\n}".toList := by decide +kernel

/-- C30 fails for commas inside strings: the valid text {"a": ",]"} loses one. -/
theorem C30_comma_violated :
    preprocess "{\"a\": \",]\"}".toList = some "{\"a\": \"]\"}".toList ∧
    tokens "{\"a\": \",]\"}".toList = some [.punct '{', .str ['a'], .punct ':', .str [',', ']'], .punct '}'] ∧
    tokens "{\"a\": \"]\"}".toList = some [.punct '{', .str ['a'], .punct ':', .str [']'], .punct '}'] := by
  decide +kernel

/-- C30 fails after an escaped quote: in the valid text "\" #" the marker is cut off and the string is not
closed any more. -/
theorem C30_escape_violated :
    (tokens "\"\\\" #\"".toList).isSome = true ∧
    preprocess "\"\\\" #\"".toList = some "\"\\\"".toList ∧ tokens "\"\\\"".toList = none := by
  decide +kernel

/-- C30 fails after an apostrophe: the comment in  ["it's"] # ok  is kept. -/
theorem C30_apostrophe_violated :
    preprocess "[\"it's\"] # ok".toList = some "[\"it's\"] # ok".toList ∧
    code .out "[\"it's\"] # ok".toList = "[\"it's\"] ".toList ∧
    tokens "[\"it's\"] # ok".toList ≠ tokens "[\"it's\"] ".toList := by
  decide +kernel

end Viscid.Vjson
