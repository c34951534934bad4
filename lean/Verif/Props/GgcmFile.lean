import Verif.Lemmas.GgcmFile
/-!
# C112 – C117: the files of an OpenGGCM run
-/
namespace Viscid.Props
open Viscid.NpTime (U Time)
open Viscid.GgcmFile Viscid.Spec.GgcmFile
open Viscid.TimeDelta (ofNumber)

/-! ### C112: the times in the headers of files -/

/-- C112: for a header "time= t x date", the second result is the date. The first, the base time of the run, is the date minus
`t`, but only within 0.05 s and 0.01 % of `t`. -/
theorem C112_base_partial (float date : List Char → Option ℚ) (s w0 w1 w2 : List Char) (h : Header s w0 w1 w2)
    (t ut : ℚ) (ht : float w0 = some t) (hut : date w2 = some ut) (b u : ℚ) (hp : parseTimestring float date s = .ok (b, u)) :
    u = ut ∧ |b + t - ut| ≤ 1 / 20 + |t| / 9999 + 1 / 10 ^ 17 := by
  obtain ⟨hpre, l, hw⟩ := header_words h
  unfold parseTimestring at hp
  rw [if_neg (by simpa using hpre)] at hp
  simp only [hw, List.getElem?_cons_zero, List.getElem?_cons_succ, ht, hut] at hp
  cases hn : ofNumber t .s with
  | error e => rw [hn] at hp; simp at hp
  | ok td =>
    rw [hn] at hp
    simp only [Except.ok.injEq, Prod.mk.injEq] at hp
    obtain ⟨hb, hu⟩ := hp
    refine ⟨hu.symm, ?_⟩
    obtain ⟨n, hd, hv, hidx, -, hclose, -⟩ := (C106_close_partial t .s (by decide)).1 td hn
    have hsize : ((td.unit.size : Int) : ℚ) ≤ 10 ^ 18 := by
      have : td.unit.size ≤ 10 ^ 18 := by
        revert hidx
        cases td.unit <;> decide
      exact_mod_cast this
    have hsec : seconds td = Viscid.Spec.TimeDelta.atto n td.unit / 10 ^ 18 := by
      unfold seconds Viscid.Spec.TimeDelta.atto
      rw [hv]
      simp only [Option.getD_some]
      norm_num [U.size]
    unfold Viscid.Spec.TimeDelta.Close at hclose
    have hX : Viscid.Spec.TimeDelta.atto n td.unit = seconds td * 10 ^ 18 := by rw [hsec]; norm_num
    have ha : Viscid.Spec.TimeDelta.atto t .s = t * 10 ^ 18 := by
      unfold Viscid.Spec.TimeDelta.atto
      norm_num [U.size]
    have hsmall : Viscid.Spec.TimeDelta.atto (1 / 10 ^ 18) td.unit ≤ 1 := by
      unfold Viscid.Spec.TimeDelta.atto
      rw [div_mul_eq_mul_div, one_mul, div_le_one (by norm_num)]
      exact hsize
    rw [hX, ha, ← sub_mul, abs_mul, abs_mul, abs_of_pos (by norm_num : (0 : ℚ) < 10 ^ 18)] at hclose
    have hd : |t - seconds td| ≤ |t| / 9999 + 1 / 10 ^ 17 := by
      have h1 : |seconds td| ≤ |t| + |t - seconds td| := by
        have := abs_sub_abs_le_abs_sub (seconds td) t
        rw [abs_sub_comm] at this
        linarith
      have h0 := abs_nonneg t
      linarith
    have hr := roundTo_near (ut - seconds td - ⌊ut - seconds td⌋)
    rw [← hb]
    rw [abs_le] at hr hd ⊢
    constructor <;> linarith [hr.1, hr.2, hd.1, hd.2]

/-- C112 for times of whole seconds: the base time is the date minus `t`, within 0.05 s; exactly, if the date has no more than one
decimal -/
theorem C112_whole (float date : List Char → Option ℚ) (s w0 w1 w2 : List Char) (h : Header s w0 w1 w2)
    (t : Int) (ut : ℚ) (ht : float w0 = some (t : ℚ)) (hut : date w2 = some ut) (h1 : -2 ^ 63 < t) (h2 : t < 2 ^ 63) :
    ∃ b, parseTimestring float date s = .ok (b, ut) ∧ |b + t - ut| ≤ 1 / 20 ∧
      ∀ k : Int, ut = k / 10 → b + t = ut := by
  obtain ⟨hpre, l, hw⟩ := header_words h
  have hsec : seconds ⟨true, .s, some t⟩ = t := by
    unfold seconds
    norm_num [U.size]
  refine ⟨⌊ut - t⌋ + Viscid.TimeDelta.roundTo (ut - t - ⌊ut - t⌋) 1, ?_, ?_, ?_⟩
  · unfold parseTimestring
    rw [if_neg (by simpa using hpre)]
    simp only [hw, List.getElem?_cons_zero, List.getElem?_cons_succ, ht, hut,
      C106_integers t .s (by decide) h1 h2, hsec]
  · have hr := roundTo_near (ut - t - ⌊ut - t⌋)
    rw [abs_le] at hr ⊢
    constructor <;> linarith [hr.1, hr.2]
  · intro k hk
    have : ut - t - ⌊ut - (t : ℚ)⌋ = ((k - 10 * t - 10 * ⌊ut - (t : ℚ)⌋ : Int) : ℚ) / 10 := by
      push_cast
      rw [hk]
      ring
    rw [this, roundTo_tenth]
    push_cast
    rw [hk]
    ring

/-- C112: anything that does not start with "time=" raises ValueError, and so does a number or a date that cannot be read;
IndexError if there are fewer than three words -/
theorem C112_refused (float date : List Char → Option ℚ) (s : List Char) :
    (¬ "time=".toList <+: s → parseTimestring float date s = .error .value) ∧
    (∀ w0 w1 w2, Header s w0 w1 w2 → float w0 = none ∨ date w2 = none → parseTimestring float date s = .error .value) ∧
    (Blank s → parseTimestring float date ("time=".toList ++ s) = .error .index) := by
  refine ⟨fun h => ?_, fun w0 w1 w2 h hn => ?_, fun h => ?_⟩
  · unfold parseTimestring
    rw [if_pos (by simpa using h)]
  · obtain ⟨hpre, l, hw⟩ := header_words h
    unfold parseTimestring
    rw [if_neg (by simpa using hpre)]
    simp only [hw, List.getElem?_cons_zero, List.getElem?_cons_succ]
    rcases hn with hn | hn
    · rw [hn]
    · cases float w0 with
      | none => rfl
      | some t => simp only [hn]
  · unfold parseTimestring
    have hpre : "time=".toList.isPrefixOf ("time=".toList ++ s) = true := by
      rw [List.isPrefixOf_iff_prefix]
      exact List.prefix_append _ _
    have hdrop : ("time=".toList ++ s).drop 5 = s := rfl
    rw [if_neg (by simp), hdrop]
    have := splitWords_blank s [] h
    rw [List.append_nil] at this
    rw [this]
    rfl

/-- C112 fails: the blank in front of a header is not stripped, so no header with one can be read -/
theorem C112_blank_violated (float date : List Char → Option ℚ) (c : Char) (hc : c.isWhitespace = true) (s : List Char) :
    parseTimestring float date (c :: s) = .error .value := by
  apply (C112_refused float date (c :: s)).1
  intro h
  have h2 : ("time=".toList).head? = some c := by
    obtain ⟨r, hr⟩ := h
    have := congrArg List.head? hr
    simpa using this
  have h3 : c = 't' := by
    have : some 't' = some c := h2
    injection this with this
    exact this.symm
  subst h3
  exact absurd hc (by decide)

/-- ... and two files of a run that started at 0, written at 6000.4 s and 6001 s, have base times 0.4 s apart -/
theorem C112_drift_violated (float date : List Char → Option ℚ) (s s' w0 w1 w2 v0 v1 v2 : List Char)
    (h : Header s w0 w1 w2) (h' : Header s' v0 v1 v2) (f1 : float w0 = some (6000 + 2 / 5)) (f2 : date w2 = some (6000 + 2 / 5))
    (f3 : float v0 = some 6001) (f4 : date v2 = some 6001) :
    parseTimestring float date s = .ok (2 / 5, 6000 + 2 / 5) ∧ parseTimestring float date s' = .ok (0, 6001) := by
  constructor
  · obtain ⟨hpre, l, hw⟩ := header_words h
    unfold parseTimestring
    rw [if_neg (by simpa using hpre)]
    simp only [hw, List.getElem?_cons_zero, List.getElem?_cons_succ, f1, f2]
    decide +kernel
  · obtain ⟨hpre, l, hw⟩ := header_words h'
    unfold parseTimestring
    rw [if_neg (by simpa using hpre)]
    simp only [hw, List.getElem?_cons_zero, List.getElem?_cons_succ, f3, f4]
    decide +kernel

/-- a header -/
theorem exHeader : Header "time=  3600.0 3.6e3 1967:01:01:01:00:00.000\n".toList "3600.0".toList "3.6e3".toList
    "1967:01:01:01:00:00.000".toList :=
  ⟨⟨by decide, by decide⟩, ⟨by decide, by decide⟩, ⟨by decide, by decide⟩, "  ".toList, " ".toList, " ".toList, "\n".toList,
    by unfold Blank; decide, by unfold Blank; decide, by unfold Blank; decide, by decide, by decide,
    by intro c hc; injection hc with hc; subst hc; decide, by decide⟩

example : parseTimestring (fun _ => some 3600) (fun _ => some 123456.7)
    "time=  3600.0 3.6e3 1967:01:01:01:00:00.000\n".toList = .ok (119856.7, 123456.7) := by decide +kernel

/-! ### C113: grouping -/

open Classical in
/-- C113: the names of files that match are put into groups: one for every run and type, sorted by run and type; the files of a
group are sorted by the number in the name. Every name is in exactly one group, as often as it was given; except for names that belong to a whole
run, if there are time slices of the same run and type. -/
theorem C113_groups (re : N → Option Match) (m : N → Match) (names : List N) (h : ∀ n ∈ names, re n = some (m n))
    (hne : names ≠ []) :
    ∃ gs, groupFiles re names = .ok gs ∧ gs.flatten.Perm (names.filter fun n => decide (Kept m names n)) ∧
      (∀ g ∈ gs, g ≠ [] ∧ (∀ a ∈ g, ∀ b ∈ g, SameRun (m a) (m b)) ∧ g.Pairwise fun a b => NotAfter (m a) (m b)) ∧
      gs.Pairwise fun g g' => ∀ a ∈ g, ∀ b ∈ g', Before (m a) (m b) := by
  have hm := matchAll_ok re m names h
  obtain ⟨h1, h2, h3, h4, h5⟩ := groups_spec (names.map fun n => (n, m n)) _ rfl
  generalize hgs : groupRuns (fun a b : N × Match => decide (a.2.run = b.2.run ∧ a.2.ftype = b.2.ftype))
    (sorted (names.map fun n => (n, m n))) = gs at h1 h2 h3 h4 h5
  have hmem : ∀ g ∈ gs, ∀ x ∈ g, x.2 = m x.1 := by
    intro g hg x hx
    have := h1.mem_iff.mp (List.mem_flatten.mpr ⟨g, hg, hx⟩)
    rw [List.mem_map] at this
    obtain ⟨n, -, rfl⟩ := this
    rfl
  have hmem' : ∀ g ∈ gs, ∀ n ∈ (dropRunLevel g).map (·.1), ∃ x ∈ g, x.1 = n ∧ x.2 = m n := by
    intro g hg n hn
    obtain ⟨x, hx, rfl⟩ := List.mem_map.mp hn
    have hx' := (dropRunLevel_sublist g).subset hx
    exact ⟨x, hx', rfl, hmem g hg x hx'⟩
  refine ⟨gs.map fun g => (dropRunLevel g).map (·.1), ?_, ?_, ?_, ?_⟩
  · unfold groupFiles
    rw [hm]
    cases names with
    | nil => exact absurd rfl hne
    | cons n ns =>
      simp only [List.map_cons]
      rw [← hgs]
      rfl
  · have hk := dropRunLevel_kept m names gs h1 h3 h4
    have e : (gs.map fun g => (dropRunLevel g).map (·.1)).flatten =
        (gs.flatten.filter fun x => decide (Kept m names x.1)).map (·.1) := by
      clear h1 h2 h3 h4 h5 hgs hmem hmem'
      induction gs with
      | nil => rfl
      | cons g gs ih =>
        rw [List.map_cons, List.flatten_cons, List.flatten_cons, List.filter_append, List.map_append,
          ← ih fun g hg => hk g (by simp [hg]), hk g (by simp)]
    rw [e]
    refine ((h1.filter _).map _).trans (.of_eq ?_)
    rw [List.filter_map, List.map_map]
    simp [Function.comp_def]
  · intro g' hg'
    obtain ⟨g, hg, rfl⟩ := List.mem_map.mp hg'
    refine ⟨?_, ?_, ?_⟩
    · simpa using dropRunLevel_ne g (h2 g hg)
    · intro a ha b hb
      obtain ⟨x, hx, -, hxa⟩ := hmem' g hg a ha
      obtain ⟨y, hy, -, hyb⟩ := hmem' g hg b hb
      rw [← hxa, ← hyb]
      exact h3 g hg x hx y hy
    · rw [List.pairwise_map]
      refine ((h5 g hg).sublist (dropRunLevel_sublist g)).imp_of_mem fun {a b} ha hb h => ?_
      rw [← hmem g hg a ((dropRunLevel_sublist g).subset ha), ← hmem g hg b ((dropRunLevel_sublist g).subset hb)]
      intro s t hs ht
      simpa [Match.time, hs, ht] using h
  · rw [List.pairwise_map]
    refine h4.imp_of_mem fun {g g'} hg hg' h a ha b hb => ?_
    obtain ⟨x, hx, -, hxa⟩ := hmem' g hg a ha
    obtain ⟨y, hy, -, hyb⟩ := hmem' g' hg' b hb
    rw [← hxa, ← hyb]
    exact h x hx y hy

/-- C113: no names raise IndexError, and a name that does not match AttributeError -/
theorem C113_refused (re : N → Option Match) (names : List N) :
    groupFiles re ([] : List N) = .error .index ∧ ((∃ n ∈ names, re n = none) → groupFiles re names = .error .attribute) := by
  refine ⟨rfl, fun ⟨n, hn, h⟩ => ?_⟩
  unfold groupFiles
  rw [matchAll_err re names n hn h]

/-- names of files, by number -/
def exRe : Nat → Option Match
  | 0 => some ⟨"run", "3d", none⟩
  | 1 => some ⟨"run", "3d", some (some 20)⟩
  | 2 => some ⟨"run", "3d", some (some 3)⟩
  | 3 => some ⟨"run", "p", none⟩
  | 4 => some ⟨"abc", "p", some (some 7)⟩
  | _ => none

example : groupFiles exRe [0, 1, 2, 3, 4] = .ok [[4], [2, 1], [3]] := by decide +kernel

/-! ### C114: looking for a file -/

theorem findUptree_spec (isfile : List String → Bool) (k : Nat) (d : List String) (depth : Nat) (hd : depth ≤ 6) :
    (∀ p, findUptree isfile k depth d = some p ↔ ∃ i, depth + i ≤ 6 ∧ i ≤ d.length ∧ p = d.drop i ∧ isfile p = true ∧
      ∀ j, j < i → isfile (d.drop j) = false) := by
  induction d generalizing depth with
  | nil =>
    intro p
    rw [findUptree]
    constructor
    · intro h
      split at h
      · rename_i hf
        injection h with h
        subst h
        exact ⟨0, by omega, by simp, rfl, hf, by simp⟩
      · simp at h
    · rintro ⟨i, -, hi, rfl, hf, -⟩
      simp only [List.drop_nil] at hf ⊢
      rw [if_pos hf]
  | cons c d ih =>
    intro p
    rw [findUptree]
    split
    · rename_i hf
      constructor
      · intro h
        injection h with h
        subst h
        exact ⟨0, by omega, by simp, rfl, hf, by simp⟩
      · rintro ⟨i, -, hi, rfl, hf', hall⟩
        cases i with
        | zero => rfl
        | succ i => exact absurd hf (by simpa using hall 0 (by omega))
    · rename_i hf
      have hf0 : isfile (c :: d) = false := by simpa using hf
      split
      · rename_i h5
        constructor
        · intro h; simp at h
        · rintro ⟨i, hi, -, rfl, hf', -⟩
          have : i = 0 := by omega
          subst this
          simp [hf0] at hf'
      · rename_i h5
        rw [ih (depth + 1) (by omega) p]
        constructor
        · rintro ⟨i, hi, hl, hp, hf', hall⟩
          refine ⟨i + 1, by omega, by simpa using hl, hp, hf', fun j hj => ?_⟩
          cases j with
          | zero => exact hf0
          | succ j => exact hall j (by omega)
        · rintro ⟨i, hi, hl, hp, hf', hall⟩
          cases i with
          | zero =>
            subst hp
            simp [hf0] at hf'
          | succ i => exact ⟨i, by omega, by simpa using hl, hp, hf', fun j hj => hall (j + 1) (by omega)⟩

/-- C114: the file found is the one in the nearest directory: the one given, its parent, and so on; seven directories are searched,
or as many as there are. (A directory is the list of its components, innermost first.) -/
theorem C114_nearest_partial (isfile : List String → Bool) (maxDepth : Nat) (d p : List String) :
    findUptree isfile maxDepth 0 d = some p ↔
      ∃ i, i < 7 ∧ i ≤ d.length ∧ p = d.drop i ∧ isfile p = true ∧ ∀ j, j < i → isfile (d.drop j) = false := by
  rw [findUptree_spec isfile maxDepth d 0 (by omega)]
  constructor
  · rintro ⟨i, h, r⟩
    exact ⟨i, by omega, r⟩
  · rintro ⟨i, h, r⟩
    exact ⟨i, by omega, r⟩

/-- C114 fails: `max_depth` is ignored. With one directory to search, the file is found six directories up; with eight, as by
default, it is not found seven directories up. -/
theorem C114_depth_violated :
    findUptree (fun d => d.length = 1) 1 0 ["g", "f", "e", "d", "c", "b", "a"] = some ["a"] ∧
    findUptree (fun d => d.length = 1) 8 0 ["h", "g", "f", "e", "d", "c", "b", "a"] = none := by
  decide +kernel

example : findUptree (fun d => d = ["home"] ∨ d = ["run", "home"]) 8 0 ["target", "run", "home"] = some ["run", "home"] := by
  decide +kernel

/-! ### C115: which coordinate system -/

theorem intuit_aux (P : Prop) [Decidable P] (xl xh : ℚ) (c : String)
    (h : (if P ∧ xl < 0 ∧ xh > 0 ∧ -2 * xl < xh then "mhd" else if P ∧ xl < 0 ∧ xh > 0 ∧ -2 * xh > xl then "gse"
      else "other") = c) :
    (c = "mhd" ↔ ∃ a b, (P ∧ a = xl ∧ b = xh ∧ xl < 0 ∧ 0 < xh) ∧ 2 * |a| < b) ∧
    (c = "gse" ↔ ∃ a b, (P ∧ a = xl ∧ b = xh ∧ xl < 0 ∧ 0 < xh) ∧ 2 * b < |a|) := by
  by_cases hP : P ∧ xl < 0 ∧ xh > 0
  · obtain ⟨p, q, r⟩ := hP
    have habs : |xl| = -xl := abs_of_neg q
    by_cases h1 : -2 * xl < xh
    · rw [if_pos ⟨p, q, r, h1⟩] at h
      subst h
      refine ⟨⟨fun _ => ⟨xl, xh, ⟨p, rfl, rfl, q, r⟩, by rw [habs]; linarith⟩, fun _ => rfl⟩,
        ⟨fun h => absurd h (by decide), ?_⟩⟩
      rintro ⟨a, b, ⟨-, rfl, rfl, -, -⟩, h2⟩
      rw [habs] at h2
      linarith
    · have n1 : ¬ (P ∧ xl < 0 ∧ xh > 0 ∧ -2 * xl < xh) := fun h => h1 h.2.2.2
      rw [if_neg n1] at h
      have m1 : ¬ ∃ a b, (P ∧ a = xl ∧ b = xh ∧ xl < 0 ∧ 0 < xh) ∧ 2 * |a| < b := by
        rintro ⟨a, b, ⟨-, rfl, rfl, -, -⟩, h2⟩
        rw [habs] at h2
        exact h1 (by linarith)
      by_cases h2 : -2 * xh > xl
      · rw [if_pos ⟨p, q, r, h2⟩] at h
        subst h
        refine ⟨⟨fun h => absurd h (by decide), fun h => absurd h m1⟩,
          ⟨fun _ => ⟨xl, xh, ⟨p, rfl, rfl, q, r⟩, by rw [habs]; linarith⟩, fun _ => rfl⟩⟩
      · rw [if_neg fun h => h2 h.2.2.2] at h
        subst h
        refine ⟨⟨fun h => absurd h (by decide), fun h => absurd h m1⟩, ⟨fun h => absurd h (by decide), ?_⟩⟩
        rintro ⟨a, b, ⟨-, rfl, rfl, -, -⟩, h3⟩
        rw [habs] at h3
        exact absurd (by linarith) h2
  · rw [if_neg fun h => hP ⟨h.1, h.2.1, h.2.2.1⟩, if_neg fun h => hP ⟨h.1, h.2.1, h.2.2.1⟩] at h
    subst h
    refine ⟨⟨fun h => absurd h (by decide), ?_⟩, ⟨fun h => absurd h (by decide), ?_⟩⟩
    · rintro ⟨a, b, ⟨p, -, -, q, r⟩, -⟩
      exact absurd ⟨p, q, r⟩ hP
    · rintro ⟨a, b, ⟨p, -, -, q, r⟩, -⟩
      exact absurd ⟨p, q, r⟩ hP

theorem crdSystem_mhd (i : Info) (c : String) (h : crdSystem i = .ok c) : (c = "mhd" ↔ IsMhd i) ∧ (c = "gse" ↔ IsGse i) := by
  unfold crdSystem at h
  unfold IsMhd IsGse
  cases hc : i.crdSystem with
  | some d =>
    rw [hc] at h
    injection h with h
    subst h
    simp
  | none =>
    rw [hc] at h
    simp only at h
    cases ha : i.assumeMhd with
    | true =>
      rw [ha] at h
      simp only [if_true, Except.ok.injEq] at h
      subst h
      simp
    | false =>
      rw [ha] at h
      simp only [Bool.false_eq_true, if_false] at h
      cases hl : i.log with
      | missing => rw [hl] at h; simp at h
      | notFound =>
        rw [hl] at h
        simp only [Except.ok.injEq] at h
        subst h
        simp [Box, hl]
      | off =>
        rw [hl] at h
        simp only [Except.ok.injEq] at h
        subst h
        simp [Box, hl]
      | file =>
        rw [hl] at h
        simp only [Except.ok.injEq] at h
        unfold intuit at h
        cases hm : i.mhdType with
        | none =>
          rw [hm] at h
          simp only [Option.getD_none] at h
          subst h
          simp [Box, hm]
        | some ty =>
          cases hxl : i.xl with
          | none =>
            rw [hm, hxl] at h
            simp only [Option.getD_none] at h
            subst h
            simp [Box, hxl]
          | some xl =>
            cases hxh : i.xh with
            | none =>
              rw [hm, hxl, hxh] at h
              simp only [Option.getD_none] at h
              subst h
              simp [Box, hxh]
            | some xh =>
              rw [hm, hxl, hxh] at h
              simp only [Option.getD_some] at h
              have hg : (ty = "ggcm" ∨ "mirdip".toList.isPrefixOf (i.icType.getD "").toList = true) ↔
                  (i.mhdType = some "ggcm" ∨ ∃ c, i.icType = some c ∧ "mirdip".toList <+: c.toList) := by
                rw [hm, List.isPrefixOf_iff_prefix]
                cases i.icType with
                | none =>
                  simp only [Option.some.injEq, Option.getD_none, reduceCtorEq, false_and, exists_false, or_false]
                  constructor
                  · rintro (h | h)
                    · exact h
                    · exact absurd (List.prefix_nil.mp h) (by decide)
                  · exact .inl
                | some c => simp
              have hbox : ∀ a b, Box i a b ↔
                  (i.mhdType = some "ggcm" ∨ ∃ c, i.icType = some c ∧ "mirdip".toList <+: c.toList) ∧
                    a = xl ∧ b = xh ∧ xl < 0 ∧ 0 < xh := by
                intro a b
                unfold Box
                rw [hl, hxl, hxh, hm]
                simp only [Option.some.injEq, ne_eq, reduceCtorEq, not_false_iff, true_and]
                constructor
                · rintro ⟨h1, rfl, rfl, h2, h3⟩
                  exact ⟨h1, rfl, rfl, h2, h3⟩
                · rintro ⟨h1, rfl, rfl, h2, h3⟩
                  exact ⟨h1, rfl, rfl, h2, h3⟩
              simp only [reduceCtorEq, false_or, true_and, Bool.false_eq_true]
              simp only [hbox, ← hg]
              exact intuit_aux _ xl xh c h

/-- C115: with "auto", a grid is turned exactly if it is known, assumed or found out to be in MHD coordinates; with "auto_true", unless
it is in GSE coordinates; "true" and "force" always do, "false" never does. If the grid has been asked about its log file, that
is, as for every grid of a file of a run. -/
theorem C115_request_partial (i : Info) (hk : i.known = none) (hl : i.log ≠ .missing) :
    (∃ j, doFlip i "true" = .ok (true, j)) ∧ (∃ j, doFlip i "force" = .ok (true, j)) ∧
    (∃ j, doFlip i "false" = .ok (false, j)) ∧
    (∃ b j, doFlip i "auto" = .ok (b, j) ∧ (b = true ↔ IsMhd i)) ∧
    (∃ b j, doFlip i "auto_true" = .ok (b, j) ∧ (b = false ↔ IsGse i)) ∧
    (¬ (IsMhd i ∧ IsGse i)) := by
  have hc : ∃ c, crdSystem i = .ok c := by
    unfold crdSystem
    cases i.crdSystem with
    | some c => exact ⟨c, rfl⟩
    | none =>
      simp only
      split
      · exact ⟨_, rfl⟩
      · cases h : i.log with
        | missing => exact absurd h hl
        | notFound => exact ⟨_, rfl⟩
        | off => exact ⟨_, rfl⟩
        | file => exact ⟨_, rfl⟩
  obtain ⟨c, hc⟩ := hc
  obtain ⟨hm, hg⟩ := crdSystem_mhd i c hc
  unfold doFlip
  rw [hk]
  simp only [hc]
  have hauto : ∀ d, decideFlip i c d = (if d = "true" then .ok true else if d = "force" then .ok true else
      if d = "false" then .ok false else if "auto".toList.isPrefixOf d.toList then
        (if c = "mhd" then .ok true else if c = "gse" then .ok false else .ok ("true".toList.isSuffixOf d.toList))
      else .error .value) := by
    intro d
    unfold decideFlip
    simp only [hl, if_false]
  refine ⟨⟨_, rfl⟩, ⟨_, rfl⟩, ⟨_, rfl⟩, ?_, ?_, ?_⟩
  · rw [← hm, hauto]
    by_cases h1 : c = "mhd"
    · exact ⟨true, _, by rw [if_neg (by decide), if_neg (by decide), if_neg (by decide), if_pos (by decide), if_pos h1],
        by simp [h1]⟩
    · refine ⟨false, { i with known := some false, crdSystem := some c }, ?_, by simp [h1]⟩
      rw [if_neg (by decide), if_neg (by decide), if_neg (by decide), if_pos (by decide), if_neg h1]
      have : "true".toList.isSuffixOf "auto".toList = false := by decide
      rw [this]
      by_cases h2 : c = "gse"
      · rw [if_pos h2]
      · rw [if_neg h2]
  · rw [← hg, hauto]
    by_cases h1 : c = "gse"
    · refine ⟨false, { i with known := some false, crdSystem := some c }, ?_, by simp [h1]⟩
      rw [if_neg (by decide), if_neg (by decide), if_neg (by decide), if_pos (by decide),
        if_neg (by rw [h1]; decide), if_pos h1]
    · refine ⟨true, { i with known := some true, crdSystem := some c }, ?_, by simp [h1]⟩
      rw [if_neg (by decide), if_neg (by decide), if_neg (by decide), if_pos (by decide)]
      have : "true".toList.isSuffixOf "auto_true".toList = true := by decide
      rw [this]
      by_cases h2 : c = "mhd"
      · rw [if_pos h2]
      · rw [if_neg h2, if_neg h1]
  · rintro ⟨h1, h2⟩
    rw [← hm] at h1
    rw [← hg] at h2
    exact absurd (h1.symm.trans h2) (by decide)

/-- C115: once a grid has decided it keeps its answer, so all its fields and coordinates are turned or none is; changing the
request afterwards has no effect -/
theorem C115_once (i j : Info) (r : String) (b : Bool) (h : doFlip i r = .ok (b, j)) (r' : String) :
    doFlip j r' = .ok (b, j) := by
  unfold doFlip at h
  cases hk : i.known with
  | some d =>
    rw [hk] at h
    simp only [Except.ok.injEq, Prod.mk.injEq] at h
    obtain ⟨rfl, rfl⟩ := h
    unfold doFlip
    rw [hk]
  | none =>
    rw [hk] at h
    simp only at h
    split at h
    · simp at h
    · split at h
      · simp at h
      · simp only [Except.ok.injEq, Prod.mk.injEq] at h
        obtain ⟨rfl, rfl⟩ := h
        rfl

/-- a grid of an OpenGGCM run -/
def exGrid : Info := ⟨none, none, false, .file, some "ggcm", some "mirdip3", some (-30), some 300⟩

example : doFlip exGrid "auto" = .ok (true, { exGrid with known := some true, crdSystem := some "mhd" }) ∧ IsMhd exGrid :=
  ⟨by decide +kernel, .inr ⟨rfl, .inr ⟨-30, 300, ⟨rfl, by decide, .inl rfl, rfl, rfl, by norm_num, by norm_num⟩, by norm_num⟩⟩⟩

/-- C115 fails: a grid that was never asked about a log file raises KeyError, even if nothing is to be turned -/
theorem C115_nolog_violated (i : Info) (hk : i.known = none) (hc : i.crdSystem = none) (ha : i.assumeMhd = false)
    (hl : i.log = .missing) (r : String) : doFlip i r = .error .key := by
  unfold doFlip crdSystem
  rw [hk, hc, ha, hl]
  rfl

/-- ... and requests that are not valid, such as "auto_false" and "autotrue", are not refused -/
theorem C115_invalid_violated :
    doFlip { exGrid with mhdType := none } "autotrue" = .ok (true, { exGrid with mhdType := none, known := some true, crdSystem := some "unknown" }) ∧
    doFlip { exGrid with mhdType := none } "auto, please" = .ok (false, { exGrid with mhdType := none, known := some false, crdSystem := some "unknown" }) := by
  decide +kernel

/-! ### C116: coordinates from a grid2 file -/

/-- C116: a grid2 file with the centres of two or more cells gives one node more. If the centres increase, every centre is inside
its cell, and so the nodes increase. The middle of the first and of the last cell are their centres; that of another cell is, exactly
if its neighbours are equally far. -/
theorem C116_nodes_partial (cc : List ℚ) (h : 2 ≤ cc.length) :
    ∃ nc, nodes cc = .ok nc ∧ nc.length = cc.length + 1 ∧
      ((∀ i, i + 1 < cc.length → cc.getD i 0 < cc.getD (i + 1) 0) →
        ∀ i, i < cc.length → nc.getD i 0 < cc.getD i 0 ∧ cc.getD i 0 < nc.getD (i + 1) 0) ∧
      mid nc 0 = cc.getD 0 0 ∧ mid nc (cc.length - 1) = cc.getD (cc.length - 1) 0 ∧
      ∀ i, i + 2 < cc.length → (mid nc (i + 1) = cc.getD (i + 1) 0 ↔
        cc.getD (i + 1) 0 - cc.getD i 0 = cc.getD (i + 2) 0 - cc.getD (i + 1) 0) := by
  obtain ⟨nc, h1, h2, h3, h4, h5⟩ := nodes_spec cc h
  have hlast : nc.getD (cc.length - 1) 0 = (cc.getD (cc.length - 2) 0 + cc.getD (cc.length - 1) 0) / 2 := by
    have := h4 (cc.length - 2) (by omega)
    rwa [show cc.length - 2 + 1 = cc.length - 1 by omega] at this
  refine ⟨nc, h1, h2, ?_, ?_, ?_, ?_⟩
  · intro hinc i hi
    constructor
    · cases i with
      | zero =>
        rw [h3]
        have := hinc 0 (by omega)
        simp only [Nat.zero_add] at this
        linarith
      | succ i =>
        rw [h4 i hi]
        have := hinc i hi
        linarith
    · by_cases hi' : i + 1 < cc.length
      · rw [h4 i hi']
        have := hinc i hi'
        linarith
      · have e : i = cc.length - 1 := by omega
        subst e
        rw [show cc.length - 1 + 1 = cc.length by omega, h5]
        have := hinc (cc.length - 2) (by omega)
        rw [show cc.length - 2 + 1 = cc.length - 1 by omega] at this
        linarith
  · unfold mid
    rw [h3, h4 0 (by omega)]
    simp only [Nat.zero_add]
    ring
  · unfold mid
    rw [show cc.length - 1 + 1 = cc.length by omega, h5, hlast]
    ring
  · intro i hi
    unfold mid
    rw [h4 i (by omega), h4 (i + 1) (by omega)]
    constructor <;> intro h <;> linarith

/-- C116 for evenly spaced centres: the middles of the cells are the centres in the file -/
theorem C116_even (cc : List ℚ) (h : 2 ≤ cc.length) (d : ℚ)
    (he : ∀ i, i + 1 < cc.length → cc.getD (i + 1) 0 = cc.getD i 0 + d) :
    ∃ nc, nodes cc = .ok nc ∧ ∀ i, i < cc.length → mid nc i = cc.getD i 0 := by
  obtain ⟨nc, h1, -, -, h4, h5, h6⟩ := C116_nodes_partial cc h
  refine ⟨nc, h1, fun i hi => ?_⟩
  cases i with
  | zero => exact h4
  | succ i =>
    by_cases hi' : i + 2 < cc.length
    · rw [h6 i hi']
      have e1 := he i (by omega)
      have e2 := he (i + 1) (by omega)
      rw [show i + 1 + 1 = i + 2 by omega] at e2
      linarith
    · rw [show i + 1 = cc.length - 1 by omega]
      exact h5

/-- C116 fails: OpenGGCM's grids are stretched; then the coordinates of the cells are not those in the file -/
theorem C116_stretched_violated :
    nodes [0, 1, 3] = .ok [-1 / 2, 1 / 2, 2, 4] ∧ mid [-1 / 2, 1 / 2, 2, 4] 1 = 5 / 4 := by
  constructor
  · decide +kernel
  · norm_num [mid]

/-- ... and grids with one cell in some direction raise IndexError -/
theorem C116_one_violated (c : ℚ) : nodes [c] = .error .index := rfl

example : nodes [1, 3, 5] = .ok [0, 2, 4, 6] := by decide +kernel

/-! ### C117: planes -/

/-- C117: for True and False, the location of a plane changes its sign exactly if the grid of the file is turned -/
theorem C117_sign_partial (b : Bool) (i : Info) (hk : i.known = none) (f : Bool) (j : Info)
    (h : doFlip i (if b then "true" else "false") = .ok (f, j)) (dim : Char) (tenths : ℚ) :
    planeLoc (.inr b) dim tenths = if f = true ∧ (dim = 'x' ∨ dim = 'y') then -(tenths / 10) else tenths / 10 := by
  have hf : f = b := by
    unfold doFlip at h
    rw [hk] at h
    simp only at h
    split at h
    · simp at h
    · cases b <;> simp [decideFlip] at h <;> exact h.1.symm ▸ rfl
  subst hf
  rfl

/-- C117: the cell is the first one of those nearest to the location -/
theorem C117_nearest (cc : List ℚ) (loc : ℚ) (h : cc ≠ []) :
    ∃ k c, planeCell cc loc = .ok k ∧ cc[k]? = some c ∧
      ∀ (j : Nat) (x : ℚ), cc[j]? = some x → |c - loc| ≤ |x - loc| ∧ (j < k → |c - loc| < |x - loc|) := by
  cases cc with
  | nil => exact absurd rfl h
  | cons c0 cs =>
    obtain ⟨b, hb, hall⟩ := argminFrom_spec (cs.map fun c => |c - loc|) ((c0 :: cs).map fun c => |c - loc|) 1 |c0 - loc| 0
      (by omega) rfl (fun j x hj hx => by
        have : j = 0 := by omega
        subst this
        simp only [List.map_cons, List.getElem?_cons_zero, Option.some.injEq] at hx
        subst hx
        exact ⟨le_refl _, fun h => by omega⟩) rfl (by simp)
    rw [List.getElem?_map, Option.map_eq_some_iff] at hb
    obtain ⟨c, hc, rfl⟩ := hb
    refine ⟨_, c, rfl, hc, fun j x hx => hall j _ ?_⟩
    rw [List.getElem?_map, hx]
    rfl

/-- C117 fails: with "auto", a grid in GSE coordinates is not turned, but the sign of its planes' locations is changed. So is it
with "false", if that is a string. -/
theorem C117_auto_violated :
    doFlip { exGrid with crdSystem := some "gse" } "auto" =
      .ok (false, { exGrid with known := some false, crdSystem := some "gse" }) ∧
    planeLoc (.inl "auto") 'x' 100 = -10 ∧ planeLoc (.inl "false") 'x' 100 = -10 := by
  decide +kernel

example : planeLoc (.inr true) 'y' 25 = -5 / 2 ∧ planeLoc (.inr true) 'z' 25 = 5 / 2 ∧ planeCell [-3, -1, 1, 3] 2 = .ok 2 ∧
    doFlip exGrid "true" = .ok (true, { exGrid with known := some true, crdSystem := some "mhd" }) := by
  decide +kernel

end Viscid.Props
