import Verif.Model.Extools
import Verif.Spec.Extools
/-!
# C250: films and meshes
-/
namespace Viscid.Props
open Viscid.Extools Viscid.Spec.Extools

namespace ET

theorem glob_iff (pre suf name : List Char) : glob pre suf name = true ↔ ∃ mid, name = pre ++ mid ++ suf ∧ '/' ∉ mid := by
  unfold glob
  simp only [Bool.and_eq_true, List.isPrefixOf_iff_prefix, List.isSuffixOf_iff_suffix, Bool.not_eq_true', List.contains_eq_mem]
  constructor
  · rintro ⟨⟨r, rfl⟩, h1, h2⟩
    rw [List.drop_left] at h1 h2
    obtain ⟨mid, rfl⟩ := h1
    refine ⟨mid, by simp, ?_⟩
    simpa using h2
  · rintro ⟨mid, rfl, h⟩
    refine ⟨⟨mid ++ suf, by simp⟩, ?_⟩
    rw [List.append_assoc, List.drop_left]
    exact ⟨⟨mid, rfl⟩, by simpa using h⟩

theorem split_ne (s : List Char) : splitDots s ≠ [] := by
  fun_induction splitDots s <;> simp_all

theorem split_none : ∀ s : List Char, '.' ∉ s → splitDots s = [s]
  | [], _ => rfl
  | c :: s, h => by
    have hc : c ≠ '.' := fun e => h (by simp [e])
    have hs : '.' ∉ s := fun e => h (by simp [e])
    rw [splitDots, split_none s hs]
    exact fun e => hc e

theorem split_append : ∀ (a b : List Char), '.' ∉ b → splitDots (a ++ '.' :: b) = splitDots a ++ [b]
  | [], b, h => by
    show splitDots ('.' :: b) = _
    rw [show splitDots ('.' :: b) = [] :: splitDots b from rfl, split_none b h]; rfl
  | c :: a, b, h => by
    have ih := split_append a b h
    by_cases hc : c = '.'
    · subst hc
      rw [List.cons_append, splitDots, ih, splitDots]; rfl
    · rw [List.cons_append, splitDots, ih, splitDots]
      · cases e : splitDots a with
        | nil => exact absurd e (split_ne a)
        | cons p ps => rfl
      · exact fun e => hc e
      · exact fun e => hc e

theorem join_split : ∀ s : List Char, joinDots (splitDots s) = s
  | [] => rfl
  | c :: s => by
    have ih := join_split s
    by_cases hc : c = '.'
    · subst hc
      rw [splitDots]
      cases e : splitDots s with
      | nil => exact absurd e (split_ne s)
      | cons p ps => rw [e] at ih; rw [joinDots, ih]; rfl
    · rw [splitDots]
      · cases e : splitDots s with
        | nil => exact absurd e (split_ne s)
        | cons p ps =>
          rw [e] at ih
          cases ps with
          | nil => simp only [joinDots] at ih ⊢; rw [ih]
          | cons q qs => simp only [joinDots] at ih ⊢; rw [← ih]; rfl
      · exact fun e => hc e

theorem digits_slash (n : Nat) : '/' ∉ Nat.toDigits 10 n := by
  intro h
  have := Nat.isDigit_of_mem_toDigits (by decide) (by decide) h
  revert this
  decide

end ET

/-- C250: without a film to make, and told by a prefix where its frames are, `make_animation` runs nothing: all files stay. -/
theorem C250_no_film (works : Bool) (files : List (List Char)) (pfx : List Char) (framerate qscale : Nat) (keep yes : Bool)
    (fmt program : List Char) :
    commands none (some pfx) framerate qscale keep none fmt program yes = [] ∧
    makeAnimation works files none (some pfx) framerate qscale keep none fmt program yes = files := by
  have : commands none (some pfx) framerate qscale keep none fmt program yes = [] := by simp [commands]
  exact ⟨this, by rw [makeAnimation, this]; rfl⟩

/-- C250: told to keep frames, no file is ever lost, and only the film may be new. -/
theorem C250_keep (works : Bool) (files : List (List Char)) (movie pfx : Option (List Char)) (framerate qscale : Nat) (yes : Bool)
    (fmt program : List Char) (n : List Char) :
    (n ∈ files → n ∈ makeAnimation works files movie pfx framerate qscale true none fmt program yes) ∧
    (n ∈ makeAnimation works files movie pfx framerate qscale true none fmt program yes → n ∈ files ∨ movie = some n) := by
  cases movie with
  | none => simp [makeAnimation, commands]
  | some m =>
    cases m with
    | nil =>
      have e : makeAnimation works files (some []) pfx framerate qscale true none fmt program yes = files := by
        simp [makeAnimation, commands]
      rw [e]
      exact ⟨id, .inl⟩
    | cons c m =>
      by_cases hp : program = "ffmpeg".toList
      · simp only [makeAnimation, commands, if_pos hp, ite_self, if_true, List.append_nil, List.foldl_cons, List.foldl_nil, run]
        cases works with
        | false => simp only [Bool.false_eq_true, if_false]; exact ⟨id, .inl⟩
        | true =>
          by_cases hm : (c :: m) ∈ files
          · simp only [if_true, if_pos hm]; exact ⟨id, .inl⟩
          · simp only [if_true, if_neg hm, List.mem_cons]
            exact ⟨fun h => .inr h, fun h => h.elim (fun e => .inr (by rw [e])) .inl⟩
      · simp only [makeAnimation, commands, if_neg hp, ite_self, if_true, List.append_nil, List.foldl_nil]
        exact ⟨id, .inl⟩

/-- C250: with a film to make by ffmpeg, that one command is run first, on the frames of the prefix, and without `keep` exactly the files of
the form `prefix_*.png` are gone after it. -/
theorem C250_film (works : Bool) (files : List (List Char)) (pfx : List Char) (c : Char) (m : List Char) (framerate qscale : Nat) (yes : Bool)
    (fmt : List Char) :
    commands (some (c :: m)) (some pfx) framerate qscale true none fmt "ffmpeg".toList yes =
      [.film yes "ffmpeg".toList framerate qscale (pfx ++ fmt ++ ".png".toList) (c :: m)] ∧
    ∀ n, n ∈ makeAnimation works files (some (c :: m)) (some pfx) framerate qscale false none fmt "ffmpeg".toList yes ↔
      (n ∈ files ∨ (works = true ∧ n = c :: m)) ∧ ¬ ∃ mid, n = pfx ++ ['_'] ++ mid ++ ".png".toList ∧ '/' ∉ mid := by
  constructor
  · simp only [commands, if_true, text, ite_self, List.append_nil]
  · intro n
    have e : (commands (some (c :: m)) (some pfx) framerate qscale false none fmt "ffmpeg".toList yes) =
        [.film yes "ffmpeg".toList framerate qscale (pfx ++ fmt ++ ".png".toList) (c :: m), .remove (pfx ++ ['_']) ".png".toList] := by
      simp only [commands, if_true, text, reduceCtorEq, false_and, if_false, Bool.false_eq_true]; rfl
    rw [makeAnimation, e]
    simp only [List.foldl_cons, List.foldl_nil, run, List.mem_filter, Bool.not_eq_true', ← Bool.not_eq_true, ET.glob_iff]
    refine and_congr_left fun _ => ?_
    cases works with
    | false => simp
    | true =>
      by_cases hm : (c :: m) ∈ files
      · simp only [if_true, if_pos hm, true_and]
        exact ⟨.inl, fun h => h.elim id fun e => e ▸ hm⟩
      · simp only [if_true, if_neg hm, List.mem_cons, true_and]
        exact or_comm

/-- C250: so every frame of the prefix is removed then, and the film and frames in other directories stay. -/
theorem C250_frames (works : Bool) (files : List (List Char)) (pfx : List Char) (c : Char) (m : List Char) (framerate qscale : Nat) (yes : Bool)
    (fmt : List Char) (k : Nat) :
    frame pfx k ∉ makeAnimation works files (some (c :: m)) (some pfx) framerate qscale false none fmt "ffmpeg".toList yes ∧
    (works = true → (∀ mid, c :: m ≠ pfx ++ ['_'] ++ mid ++ ".png".toList) →
      c :: m ∈ makeAnimation works files (some (c :: m)) (some pfx) framerate qscale false none fmt "ffmpeg".toList yes) := by
  constructor
  · rw [(C250_film works files pfx c m framerate qscale yes fmt).2]
    refine fun h => h.2 ⟨List.replicate (6 - (Nat.toDigits 10 k).length) '0' ++ Nat.toDigits 10 k, ?_, ?_⟩
    · simp only [frame, List.append_assoc, List.cons_append, List.nil_append]
    · rw [List.mem_append]
      rintro (h | h)
      · rw [List.mem_replicate] at h; exact absurd h.2 (by decide)
      · exact ET.digits_slash k h
  · intro hw hne
    rw [(C250_film works files pfx c m framerate qscale yes fmt).2]
    exact ⟨.inr ⟨hw, rfl⟩, fun ⟨mid, h, _⟩ => hne mid h⟩

/-- C250: options given as a namespace take the place of all those given one by one. -/
theorem C250_args (works : Bool) (files : List (List Char)) (movie pfx movie' pfx' : Option (List Char)) (r q r' q' : Nat) (keep keep' yes : Bool)
    (fmt program : List Char) :
    makeAnimation works files movie' pfx' r' q' keep' (some ⟨pfx, r, q, movie, keep⟩) fmt program yes =
    makeAnimation works files movie pfx r q keep none fmt program yes := rfl

/-- C250 is violated: frames of another prefix that begins with this one and an underscore are removed too. -/
theorem C250_others_violated (works : Bool) (files : List (List Char)) (pfx other : List Char) (ho : '/' ∉ other) (c : Char) (m : List Char)
    (framerate qscale : Nat) (yes : Bool) (fmt : List Char) (k : Nat) :
    frame (pfx ++ '_' :: other) k ∉ makeAnimation works files (some (c :: m)) (some pfx) framerate qscale false none fmt "ffmpeg".toList yes := by
  rw [(C250_film works files pfx c m framerate qscale yes fmt).2]
  refine fun h => h.2 ⟨other ++ '_' :: (List.replicate (6 - (Nat.toDigits 10 k).length) '0' ++ Nat.toDigits 10 k), ?_, ?_⟩
  · simp only [frame, List.append_assoc, List.cons_append, List.nil_append]
  · rw [List.mem_append, List.mem_cons, List.mem_append]
    rintro (h | h | h | h)
    · exact ho h
    · exact absurd h (by decide)
    · rw [List.mem_replicate] at h; exact absurd h.2 (by decide)
    · exact ET.digits_slash k h

/-- C250 is violated: frames are lost without a film, if the program fails, if it is any other than ffmpeg, or if the name of the film is empty. -/
theorem C250_lost_violated (works : Bool) (files : List (List Char)) (pfx : List Char) (movie : List Char) (framerate qscale : Nat) (yes : Bool)
    (fmt program : List Char) (k : Nat) (h : (works = false ∧ program = "ffmpeg".toList) ∨ program ≠ "ffmpeg".toList ∨ movie = []) :
    frame pfx k ∉ makeAnimation works files (some movie) (some pfx) framerate qscale false none fmt program yes ∧
    (movie ∈ makeAnimation works files (some movie) (some pfx) framerate qscale false none fmt program yes → movie ∈ files) := by
  have hg : glob (pfx ++ ['_']) ".png".toList (frame pfx k) = true := by
    rw [ET.glob_iff]
    refine ⟨List.replicate (6 - (Nat.toDigits 10 k).length) '0' ++ Nat.toDigits 10 k, ?_, ?_⟩
    · simp only [frame, List.append_assoc, List.cons_append, List.nil_append]
    · rw [List.mem_append]
      rintro (h | h)
      · rw [List.mem_replicate] at h; exact absurd h.2 (by decide)
      · exact ET.digits_slash k h
  have key : makeAnimation works files (some movie) (some pfx) framerate qscale false none fmt program yes =
      files.filter fun n => !glob (pfx ++ ['_']) ".png".toList n := by
    cases movie with
    | nil => simp only [makeAnimation, commands, text, List.nil_append, reduceCtorEq, false_and, if_false, Bool.false_eq_true, List.foldl_cons, List.foldl_nil, run]
    | cons c m =>
      rcases h with ⟨h, hp⟩ | h | h
      · subst h
        simp only [makeAnimation, commands, if_pos hp, text, reduceCtorEq, false_and, if_false, Bool.false_eq_true, List.cons_append, List.nil_append, List.foldl_cons, List.foldl_nil, run]
      · simp only [makeAnimation, commands, if_neg h, text, reduceCtorEq, false_and, if_false, Bool.false_eq_true, List.nil_append, List.foldl_cons, List.foldl_nil, run]
      · cases h
  rw [key]
  refine ⟨fun hm => ?_, fun hm => (List.mem_filter.1 hm).1⟩
  have := (List.mem_filter.1 hm).2
  rw [hg] at this
  cases this

/-- C250 is violated: with neither a film nor a prefix, files whose name begins with `None_` are removed. -/
theorem C250_none_violated (works : Bool) (files : List (List Char)) (framerate qscale : Nat) (yes : Bool) (fmt program : List Char) (k : Nat) :
    frame "None".toList k ∉ makeAnimation works files none none framerate qscale false none fmt program yes := by
  have h := (C250_lost_violated works files "None".toList [] framerate qscale yes fmt program k (.inr (.inr rfl))).1
  have e : makeAnimation works files none none framerate qscale false none fmt program yes =
      makeAnimation works files (some []) (some "None".toList) framerate qscale false none fmt program yes := rfl
  rw [e]
  exact h

/-- C250: a mesh is converted to a file of the same name, with the format (without blanks around it) as its extension. -/
theorem C250_mesh_partial (stem ext fmt : List Char) (he : '.' ∉ ext) (b1 b2 : List Char) (hb : ∀ c ∈ b1 ++ b2, c.isWhitespace = true)
    (h1 : ∀ c, fmt.head? = some c → c.isWhitespace = false) (h2 : ∀ c, fmt.getLast? = some c → c.isWhitespace = false) (hf : fmt ≠ []) :
    outName (stem ++ '.' :: ext) (b1 ++ fmt ++ b2) = stem ++ '.' :: fmt := by
  have hs : strip (b1 ++ fmt ++ b2) = fmt := by
    have d1 : ∀ (b l : List Char), (∀ c ∈ b, c.isWhitespace = true) → (∀ c, l.head? = some c → c.isWhitespace = false) →
        (b ++ l).dropWhile Char.isWhitespace = l := by
      intro b l hb hl
      induction b with
      | nil =>
        cases l with
        | nil => rfl
        | cons c l =>
          have := hl c rfl
          simp [List.dropWhile_cons, this]
      | cons c b ih =>
        rw [List.cons_append, List.dropWhile_cons, if_pos (hb c (by simp))]
        exact ih (fun c hc => hb c (by simp [hc]))
    unfold strip
    rw [List.append_assoc, d1 b1 (fmt ++ b2) (fun c hc => hb c (by simp [hc]))
      (fun c hc => h1 c (by cases fmt with
        | nil => exact absurd rfl hf
        | cons d l => simpa using hc)),
      List.reverse_append, d1 b2.reverse fmt.reverse (fun c hc => hb c (by simp at hc; simp [hc])) (fun c hc => h2 c (by simpa using hc)),
      List.reverse_reverse]
  rw [outName, hs, ET.split_append stem ext he, List.dropLast_concat, ET.join_split]

/-- C250 is violated: the mesh of a name without an extension is converted to a file without a name, and if a directory of the path has
a dot in its name, to a file outside of that directory. -/
theorem C250_mesh_violated (fname fmt : List Char) (h : '.' ∉ fname) :
    outName fname fmt = '.' :: strip fmt ∧ ∀ dir, outName (dir ++ '.' :: '/' :: fname) fmt = dir ++ '.' :: strip fmt := by
  constructor
  · rw [outName, ET.split_none fname h]; rfl
  · intro dir
    rw [outName, ET.split_append dir ('/' :: fname) (by simp [h]), List.dropLast_concat, ET.join_split]

example : frame "plot".toList 12 = "plot_000012.png".toList := by decide +kernel

example : makeAnimation true ["plot_000001.png".toList, "plot_b_000001.png".toList, "x.png".toList] (some "m.mp4".toList) (some "plot".toList) 5 2 false none
    "_%06d".toList "ffmpeg".toList false = ["m.mp4".toList, "x.png".toList] := by decide +kernel

example : outName "a.b/mesh.ply".toList " dae ".toList = "a.b/mesh.dae".toList ∧ outName "a.b/mesh".toList "dae".toList = "a.dae".toList := by decide +kernel

end Viscid.Props
