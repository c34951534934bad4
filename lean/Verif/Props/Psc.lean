import Verif.Model.Psc
import Verif.Spec.Psc
import Mathlib.Tactic.Linarith
import Mathlib.Tactic.FieldSimp
/-!
# C235: PSC runs
-/
namespace Viscid.Props
open Viscid.Psc Viscid.Spec.Psc

namespace PS

/-- what may follow a name that is taken -/
def Begins (s : List Char) : Prop := ∃ n rest, FieldFile n ∧ s = n ++ rest

theorem ext_iff (s : List Char) : ext s = true ↔ ∃ r, s = ".xdmf".toList ++ r := by
  show ['.', 'x', 'd', 'm', 'f'].isPrefixOf s = true ↔ ∃ r, s = ['.', 'x', 'd', 'm', 'f'] ++ r
  rw [List.isPrefixOf_iff_prefix]
  exact ⟨fun ⟨r, h⟩ => ⟨r, h.symm⟩, fun ⟨r, h⟩ => ⟨r, h.symm⟩⟩

/-- what `tail` looks for -/
def Tail (s : List Char) : Prop := ∃ rest, s = "fd.xdmf".toList ++ rest ∨
  ∃ n, n.length = 6 ∧ (∀ c ∈ n, c.isDigit = true) ∧ s = "fd.".toList ++ n ++ ".xdmf".toList ++ rest

theorem tail_iff (s : List Char) : tail s = true ↔ Tail s := by
  constructor
  · intro h
    unfold tail at h
    split at h
    · rename_i r
      rw [Bool.or_eq_true] at h
      rcases h with h | h
      · split at h
        · rename_i r'
          simp only [Bool.and_eq_true, beq_iff_eq, List.all_eq_true] at h
          obtain ⟨⟨h1, h2⟩, h3⟩ := h
          obtain ⟨q, hq⟩ := (ext_iff _).1 h3
          refine ⟨q, .inr ⟨r'.take 6, h1, h2, ?_⟩⟩
          have := List.take_append_drop 6 r'
          rw [hq] at this
          show 'f' :: 'd' :: '.' :: r' = 'f' :: 'd' :: '.' :: (r'.take 6 ++ ".xdmf".toList) ++ q
          simp only [List.cons_append, List.append_assoc]
          rw [this]
        · cases h
      · obtain ⟨q, rfl⟩ := (ext_iff _).1 h
        exact ⟨q, .inl rfl⟩
    · cases h
  · rintro ⟨rest, rfl | ⟨n, h1, h2, rfl⟩⟩
    · show (_ || ext (".xdmf".toList ++ rest)) = true
      rw [(ext_iff _).2 ⟨rest, rfl⟩, Bool.or_true]
    · show (((List.take 6 (n ++ ".xdmf".toList ++ rest)).length == 6 && (List.take 6 (n ++ ".xdmf".toList ++ rest)).all Char.isDigit &&
        ext (List.drop 6 (n ++ ".xdmf".toList ++ rest))) || _) = true
      rw [List.append_assoc, List.take_left' h1, List.drop_left' h1, (ext_iff _).2 ⟨rest, rfl⟩]
      simp [h1]
      exact .inl h2

theorem line_iff (s : List Char) : line s = true ↔ ∃ pre r, '\n' ∉ pre ∧ s = pre ++ r ∧ Tail r := by
  induction s with
  | nil =>
    unfold line
    rw [tail_iff]
    constructor
    · intro h; exact ⟨[], [], by simp, rfl, h⟩
    · rintro ⟨pre, r, -, h, ht⟩
      obtain ⟨-, rfl⟩ := List.append_eq_nil_iff.1 h.symm
      exact ht
  | cons c s ih =>
    unfold line
    rw [Bool.or_eq_true, Bool.and_eq_true, tail_iff, ih]
    constructor
    · rintro (h | ⟨hc, pre, r, hp, rfl, ht⟩)
      · exact ⟨[], _, by simp, rfl, h⟩
      · refine ⟨c :: pre, r, ?_, rfl, ht⟩
        intro h
        rcases List.mem_cons.1 h with h | h
        · subst h; simp at hc
        · exact hp h
    · rintro ⟨pre, r, hp, e, ht⟩
      cases pre with
      | nil => left; rw [List.nil_append] at e; rw [e]; exact ht
      | cons d pre =>
        right
        simp only [List.cons_append, List.cons.injEq] at e
        obtain ⟨rfl, rfl⟩ := e
        refine ⟨?_, pre, r, fun h => hp (List.mem_cons_of_mem _ h), rfl, ht⟩
        have : c ≠ '\n' := fun h => hp (by rw [h]; exact List.mem_cons_self)
        simpa using this

theorem begins_iff (s : List Char) : Begins s ↔ ∃ pre r, '\n' ∉ pre ∧ s = pre ++ r ∧ Tail r := by
  constructor
  · rintro ⟨n, rest, ⟨pre, hp, rfl | ⟨d, h1, h2, rfl⟩⟩, rfl⟩
    · exact ⟨pre, "fd.xdmf".toList ++ rest, hp, by rw [List.append_assoc], rest, .inl rfl⟩
    · exact ⟨pre, "fd.".toList ++ d ++ ".xdmf".toList ++ rest, hp, by simp only [List.append_assoc], rest, .inr ⟨d, h1, h2, rfl⟩⟩
  · rintro ⟨pre, r, hp, rfl, rest, rfl | ⟨d, h1, h2, rfl⟩⟩
    · exact ⟨pre ++ "fd.xdmf".toList, rest, ⟨pre, hp, .inl rfl⟩, by rw [List.append_assoc]⟩
    · exact ⟨pre ++ "fd.".toList ++ d ++ ".xdmf".toList, rest, ⟨pre, hp, .inr ⟨d, h1, h2, rfl⟩⟩, by simp only [List.append_assoc]⟩

theorem detected_iff (s : List Char) : detected s = true ↔ ∃ sp r, (∀ c ∈ sp, isSpace c = true) ∧ s = sp ++ r ∧ Begins r := by
  induction s with
  | nil =>
    unfold detected
    rw [line_iff, ← begins_iff]
    constructor
    · intro h; exact ⟨[], [], by simp, rfl, h⟩
    · rintro ⟨sp, r, -, h, hb⟩
      obtain ⟨-, rfl⟩ := List.append_eq_nil_iff.1 h.symm
      exact hb
  | cons c s ih =>
    unfold detected
    rw [Bool.or_eq_true, Bool.and_eq_true, line_iff, ← begins_iff, ih]
    constructor
    · rintro (h | ⟨hc, sp, r, hs, rfl, hb⟩)
      · exact ⟨[], _, by simp, rfl, h⟩
      · exact ⟨c :: sp, r, by simpa using ⟨hc, hs⟩, rfl, hb⟩
    · rintro ⟨sp, r, hs, e, hb⟩
      cases sp with
      | nil => left; rw [List.nil_append] at e; rw [e]; exact hb
      | cons d sp =>
        right
        simp only [List.cons_append, List.cons.injEq] at e
        obtain ⟨rfl, rfl⟩ := e
        exact ⟨hs _ List.mem_cons_self, sp, r, fun x hx => hs x (List.mem_cons_of_mem _ hx), rfl, hb⟩

end PS

/-- C235: every name of a field file is taken, and, without line breaks, what is taken begins with the name of a field file. Missing: that
nothing follows, see `C235_names_violated`. -/
theorem C235_names_partial (s : List Char) :
    (FieldFile s → detected s = true) ∧
    ('\n' ∉ s → detected s = true → ∃ n rest, FieldFile n ∧ s = n ++ rest) := by
  constructor
  · intro h
    exact (PS.detected_iff s).2 ⟨[], s, by simp, rfl, s, [], h, by simp⟩
  · intro hs h
    obtain ⟨sp, r, hsp, rfl, n, rest, ⟨pre, hp, hn⟩, rfl⟩ := (PS.detected_iff s).1 h
    have hsp' : '\n' ∉ sp := fun h => hs (List.mem_append_left _ h)
    refine ⟨sp ++ n, rest, ⟨sp ++ pre, ?_, ?_⟩, by rw [List.append_assoc]⟩
    · rw [List.mem_append]; rintro (h | h)
      · exact hsp' h
      · exact hp h
    · rcases hn with rfl | ⟨d, h1, h2, rfl⟩
      · exact .inl (by rw [List.append_assoc])
      · exact .inr ⟨d, h1, h2, by simp only [List.append_assoc]⟩

/-- C235 is violated: whatever follows the name of a field file, it is taken for one too, such as copies of files and files in a
directory named like a field file. -/
theorem C235_names_violated (n rest : List Char) (h : FieldFile n) : detected (n ++ rest) = true :=
  (PS.detected_iff _).2 ⟨[], _, by simp, rfl, n, rest, h, rfl⟩

/-- C235 is violated: `open_psc_file` and `make_fname` raise an exception for every path, step and prefix. -/
theorem C235_open_violated {α : Type} (openFile : List Char → α) (path pfx : List Char) (step : Step) :
    ∃ e, openPscFile openFile path step pfx = .error e ∧ makeFname path step pfx = .error e ∧
      (∀ n, step = .int n → e = .value) := by
  cases step with
  | int n => exact ⟨.value, rfl, rfl, fun _ _ => rfl⟩
  | float => exact ⟨.value, rfl, rfl, fun _ _ => rfl⟩
  | text => exact ⟨.value, rfl, rfl, fun _ _ => rfl⟩
  | other => exact ⟨.type, rfl, rfl, fun _ h => by cases h⟩

/-- C235: h, e and j are made of their components of the file; so is b, where the file has them. -/
theorem C235_vectors {α : Type} (file : List Char → Option α) (base : Char) (x y z : α) (hx : file [base, 'x'] = some x)
    (hy : file [base, 'y'] = some y) (hz : file [base, 'z'] = some z) : vector file base = some (x, y, z) := by
  simp [vector, comp, Names.char, hx, hy, hz]

/-- C235: in a file without b, b is h. -/
theorem C235_b {α : Type} (file : List Char → Option α) (hb : ∀ c ∈ ['x', 'y', 'z'], file ['b', c] = none) :
    vector file 'b' = vector file 'h' := by
  simp only [List.mem_cons, List.not_mem_nil, or_false, forall_eq_or_imp, forall_eq] at hb
  have e : ∀ c : Names, comp file 'b' c = comp file 'h' c := by
    intro c
    cases c <;> simp only [comp, Names.char, hb, if_true] <;> simp only [show ('h' : Char) ≠ 'b' by decide, if_false] <;> split <;> simp_all
  simp only [vector, e]

/-- C235: a vector is found only if all of its components are. -/
theorem C235_missing {α : Type} (file : List Char → Option α) (base : Char) (hb : base ≠ 'b') (c : Char) (hc : c ∈ ['x', 'y', 'z'])
    (h : file [base, c] = none) : vector file base = none := by
  simp only [List.mem_cons, List.not_mem_nil, or_false] at hc
  rcases hc with rfl | rfl | rfl <;> simp only [vector, comp, Names.char, h, hb, if_false] <;> split <;> simp_all

namespace PS

theorem sq_pos {h : Fin 3 → ℝ} (hh : h ≠ 0) : 0 < inner h h := by
  by_contra hn
  apply hh
  have h0 := mul_self_nonneg (h 0); have h1 := mul_self_nonneg (h 1); have h2 := mul_self_nonneg (h 2)
  unfold inner at hn
  funext i
  match i with
  | 0 => exact mul_self_eq_zero.1 (by linarith)
  | 1 => exact mul_self_eq_zero.1 (by linarith)
  | 2 => exact mul_self_eq_zero.1 (by linarith)

theorem epar_eq (e h : Fin 3 → ℝ) (hh : h ≠ 0) :
    epar (e 0) (e 1) (e 2) (h 0) (h 1) (h 2) = some (inner e h / length h) := by
  have hp := sq_pos hh
  have e1 : h 0 ^ 2 + h 1 ^ 2 + h 2 ^ 2 = inner h h := by unfold inner; ring
  unfold epar invRoot
  rw [e1, if_neg (not_le.2 hp), Option.map_some, Real.rpow_neg hp.le, ← Real.sqrt_eq_rpow]
  rfl

end PS

/-- C235: where there is a magnetic field, epar is the component of the electric field along it. -/
theorem C235_epar (e h : Fin 3 → ℝ) (hh : h ≠ 0) :
    ∃ t, epar (e 0) (e 1) (e 2) (h 0) (h 1) (h 2) = some t ∧ Along e h t ∧ |t| ≤ length e := by
  have hp := PS.sq_pos hh
  have hl : 0 < length h := Real.sqrt_pos.2 hp
  have hl2 : length h * length h = inner h h := Real.mul_self_sqrt hp.le
  refine ⟨_, PS.epar_eq e h hh, ⟨fun i => e i - inner e h / length h * (h i / length h), ?_, fun i => by ring⟩, ?_⟩
  · have : inner (fun i => e i - inner e h / length h * (h i / length h)) h
        = inner e h - inner e h / (length h * length h) * inner h h := by
      unfold inner; field_simp; ring
    rw [this, hl2]; field_simp; ring
  · unfold length at hl ⊢
    apply Real.abs_le_sqrt
    rw [div_pow, Real.sq_sqrt hp.le, div_le_iff₀ hp]
    unfold inner
    nlinarith [sq_nonneg (e 0 * h 1 - e 1 * h 0), sq_nonneg (e 0 * h 2 - e 2 * h 0), sq_nonneg (e 1 * h 2 - e 2 * h 1)]

/-- C235: there is only one such component, so `C235_epar` says which number it is. -/
theorem C235_unique (e h : Fin 3 → ℝ) (hh : h ≠ 0) (t t' : ℝ) (h1 : Along e h t) (h2 : Along e h t') : t = t' := by
  have hp := PS.sq_pos hh
  have hl : 0 < length h := Real.sqrt_pos.2 hp
  have hl2 : length h * length h = inner h h := Real.mul_self_sqrt hp.le
  have key : ∀ t, Along e h t → t = inner e h / length h := by
    rintro t ⟨r, hr, he⟩
    have : inner e h = t * (inner h h / length h) + inner r h := by
      unfold inner; rw [he 0, he 1, he 2]; ring
    rw [this, hr, ← hl2]; field_simp; ring
  rw [key t h1, key t' h2]

/-- C235: where there is no magnetic field, there is no component along it. -/
theorem C235_none (e : Fin 3 → ℝ) : epar (e 0) (e 1) (e 2) 0 0 0 = none := by
  simp [epar, invRoot]

/-- The hypotheses of C235 are met. -/
example : FieldFile "/data/run 1/pfd.000100.xdmf".toList :=
  ⟨"/data/run 1/p".toList, by decide, .inr ⟨"000100".toList, by decide, by decide, by decide⟩⟩
example : detected "/data/pfd.xdmf/readme.txt".toList = true :=
  C235_names_violated "/data/pfd.xdmf".toList "/readme.txt".toList ⟨"/data/p".toList, by decide, .inl (by decide)⟩
example : vector (fun n => if n = ['h', 'x'] then some 1 else if n = ['h', 'y'] then some 2 else if n = ['h', 'z'] then some 3 else none) 'b'
    = some (1, 2, 3) := by decide
example : (![3, 0, 4] : Fin 3 → ℝ) ≠ 0 := fun h => by have := congrFun h 0; simp at this

end Viscid.Props
