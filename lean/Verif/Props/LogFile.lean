import Verif.Spec.LogFile
/-!
# C120, C121: log files
-/
namespace Viscid.Props
open Viscid.LogFile Viscid.Spec.LogFile

theorem watched_iff (c : String) : c ∈ watchedClasses ↔ Watched c := by
  simp only [watchedClasses, Watched, List.mem_cons, List.not_mem_nil, or_false]
  grind

theorem loop_body (x : Syntax V) (c : String) (body rest : List String) (info : Info V)
    (hb : ∀ l ∈ body, l ≠ "") (hp : x.param "" = none) (ht : x.typ "" = none) :
    loop x (body ++ "" :: rest) (some c) 0 info = loop x rest none 0 (info ++ body.filterMap (says x c)) := by
  induction body generalizing info with
  | nil =>
    rw [List.nil_append, loop, hp]
    simp [ht]
  | cons l body ih =>
    have hb' : ∀ l ∈ body, l ≠ "" := fun m hm => hb m (by simp [hm])
    rw [List.cons_append, loop, List.filterMap_cons]
    unfold says
    cases h1 : x.param l with
    | some kv =>
      obtain ⟨k, v⟩ := kv
      simp only
      rw [ih _ hb', List.append_assoc]
      rfl
    | none =>
      cases h2 : x.typ l with
      | some t =>
        simp only [Option.map_some]
        rw [ih _ hb', List.append_assoc]
        rfl
      | none =>
        simp only [Option.map_none]
        rw [if_neg (hb l (by simp)), ih _ hb']
        rfl

theorem loop_parts (x : Syntax V) (parts : List Part) (h : ∀ p ∈ parts, p.Ok x) (info : Info V) :
    loop x (parts.flatMap Part.lines) none 0 info = .ok (info ++ parts.flatMap (Part.says x)) := by
  induction parts generalizing info with
  | nil => simp [loop]
  | cons p parts ih =>
    have hp := h p (by simp)
    have ih' := ih fun q hq => h q (by simp [hq])
    cases p with
    | line l =>
      show loop x (l :: parts.flatMap Part.lines) none 0 info = _
      rw [loop]
      have hs : (Part.line l :: parts).flatMap (Part.says x) = parts.flatMap (Part.says x) := by simp [Part.says]
      rw [hs]
      cases hc : x.cls l with
      | none => exact ih' info
      | some c =>
        simp only
        rw [if_neg (fun h => hp c hc ((watched_iff c).mp h))]
        exact ih' info
    | view head h1 h2 c body =>
      obtain ⟨a1, a2, a3, a4, a5⟩ := hp
      have hl : (Part.view head h1 h2 c body :: parts).flatMap Part.lines =
          head :: h1 :: h2 :: (body ++ "" :: parts.flatMap Part.lines) := by simp [Part.lines]
      rw [hl, loop, a1]
      simp only
      rw [if_pos ((watched_iff c).mpr a2), loop, loop, loop_body x c body _ info a3 a4 a5, ih', List.append_assoc]
      rfl

/-- `view_parts`: the loop records what the views say -/
theorem view_parts (x : Syntax V) (parts : List Part) (h : ∀ p ∈ parts, p.Ok x)
    (hs : ∀ p ∈ parts, ∀ l ∈ p.lines, x.step l = false) (rest : List String) (hr : ∀ l, rest.head? = some l → x.step l = true) :
    parseView x (parts.flatMap Part.lines ++ rest) = .ok (parts.flatMap (Part.says x)) := by
  unfold parseView
  have : (parts.flatMap Part.lines ++ rest).takeWhile (fun l => !x.step l) = parts.flatMap Part.lines := by
    rw [List.takeWhile_append_of_pos]
    · cases rest with
      | nil => simp
      | cons l rest => simp [hr l rfl]
    · intro l hl
      obtain ⟨p, hp, hl⟩ := List.mem_flatMap.mp hl
      simp [hs p hp l hl]
  rw [this, loop_parts x parts h []]
  rfl

/-- C120: of a log file whose views end with a blank line, exactly the parameters and types in the views of the watched classes
are recorded, in order, and then the name of the MHD type; nothing after the first line of a time step is. -/
theorem C120_views_partial (x : Syntax V) (int : V → Option Int) (parts : List Part) (h : ∀ p ∈ parts, p.Ok x)
    (hs : ∀ p ∈ parts, ∀ l ∈ p.lines, x.step l = false) (rest : List String) (hr : ∀ l, rest.head? = some l → x.step l = true)
    (hi : ∀ v, ("ggcm_mhd_fld_mhd_type", v) ∈ parts.flatMap (Part.says x) → int v ≠ none) :
    ∃ s, parse x int (parts.flatMap Part.lines ++ rest) =
      .ok (parts.flatMap (Part.says x) ++ [("ggcm_mhd_fld_mhd_type_str", x.str s)]) := by
  unfold parse
  rw [view_parts x parts h hs rest hr]
  simp only
  generalize parts.flatMap (Part.says x) = info at hi
  have : ∃ s, mhdTypeStr int (Info.get info "ggcm_mhd_fld_mhd_type") = .ok s := by
    unfold mhdTypeStr
    cases hg : Info.get info "ggcm_mhd_fld_mhd_type" with
    | none => exact ⟨_, rfl⟩
    | some v =>
      unfold Info.get at hg
      obtain ⟨q, hq, rfl⟩ := Option.map_eq_some_iff.mp hg
      have hk := List.find?_some hq
      have hm := List.mem_reverse.mp (List.mem_of_find?_eq_some hq)
      have hne := hi q.2 (by have e : q.1 = "ggcm_mhd_fld_mhd_type" := by simpa using hk
                             rw [← e]; exact hm)
      cases hv : int q.2 with
      | none => exact absurd hv hne
      | some i =>
        simp only [hv]
        split
        · exact ⟨_, rfl⟩
        · split <;> exact ⟨_, rfl⟩
  obtain ⟨s, e⟩ := this
  exact ⟨s, by rw [e]⟩

/-- C120: the value of a parameter is the last one recorded under that name -/
theorem C120_last (i : Info V) (k : String) (v : V) (i' : Info V) (h : ∀ p ∈ i', p.1 ≠ k) :
    Info.get (i ++ (k, v) :: i') k = some v := by
  unfold Info.get
  rw [List.reverse_append, List.reverse_cons, List.append_assoc, List.find?_append]
  have : i'.reverse.find? (fun p => decide (p.1 = k)) = none := by
    rw [List.find?_eq_none]
    intro p hp
    simpa using h p (List.mem_reverse.mp hp)
  rw [this]
  simp

/-- a syntax of few lines, for examples -/
def exSyntax : Syntax String where
  param l := if l = "dt | 3" then some ("dt", "3") else if l = "n | 7" then some ("n", "7") else none
  typ l := if l = "---+--- type -- ggcm" then some "ggcm" else none
  cls l := if l = "=== class == ggcm_mhd" then some "ggcm_mhd" else if l = "=== class == mrc_crds" then some "mrc_crds" else
    if l = "=== class == foo" then some "foo" else none
  step l := l = "cp=1"
  str := id

example : parseView exSyntax ["hello", "=== class == ggcm_mhd", "p | v", "--|--", "dt | 3", "---+--- type -- ggcm", "n | 7", "",
    "=== class == foo", "n | 7", "", "cp=1", "n | 7"] =
      .ok [("ggcm_mhd_dt", "3"), ("ggcm_mhd_type", "ggcm"), ("ggcm_mhd_n", "7")] := by decide +kernel

example : (Part.view "=== class == ggcm_mhd" "p | v" "--|--" "ggcm_mhd" ["dt | 3", "---+--- type -- ggcm", "n | 7"]).Ok exSyntax ∧
    (Part.line "=== class == foo").Ok exSyntax := by
  refine ⟨⟨by decide, .inl rfl, by decide, by decide, by decide⟩, ?_⟩
  intro c hc
  have : some "foo" = some c := hc
  injection this with this
  subst this
  unfold Watched
  decide

/-- C120 fails: without a blank line in between, parameters of one class are recorded as those of another; and a file that ends within the
heading of a view raises StopIteration -/
theorem C120_views_violated :
    parseView exSyntax ["=== class == ggcm_mhd", "p | v", "--|--", "dt | 3", "=== class == mrc_crds", "p | v", "--|--", "n | 7"] =
      .ok [("ggcm_mhd_dt", "3"), ("ggcm_mhd_n", "7")] ∧
    parseView exSyntax ["=== class == ggcm_mhd", "p | v"] = .error .stop ∧
    parseView exSyntax ["=== class == ggcm_mhd", "p | v", "cp=1", "--|--", ""] = .error .stop := by
  decide +kernel

/-- C121: types 0 to 5 have names; a log without a type, or with 6 or more, gives "UNKNOWN" -/
theorem C121_names_partial (int : V → Option Int) (v : V) (i : Nat) (h : int v = some (i : Int)) :
    mhdTypeStr int (some v) = .ok (typeName i) ∧ mhdTypeStr int (none : Option V) = .ok "UNKNOWN" := by
  refine ⟨?_, rfl⟩
  unfold mhdTypeStr
  simp only [h]
  match i with
  | 0 | 1 | 2 | 3 | 4 | 5 => rfl
  | i + 6 => rw [if_neg (by omega), if_neg (by omega)]; rfl

/-- C121 fails: -1 has the name of 5, and a type that is no integer raises TypeError -/
theorem C121_negative_violated (int : V → Option Int) (v : V) :
    (int v = some (-1) → mhdTypeStr int (some v) = .ok "MT_GKEYLL") ∧ (int v = none → mhdTypeStr int (some v) = .error .type) := by
  constructor <;> intro h <;> unfold mhdTypeStr <;> simp only [h]
  rw [if_neg (by decide), if_pos (by decide)]
  rfl

/-- C121: the name recorded is that of the type recorded last in the views -/
theorem C121_recorded (x : Syntax V) (int : V → Option Int) (lines : List String) (info : Info V) (h : parse x int lines = .ok info) :
    ∃ info' s, parseView x lines = .ok info' ∧ mhdTypeStr int (info'.get "ggcm_mhd_fld_mhd_type") = .ok s ∧
      info.get "ggcm_mhd_fld_mhd_type_str" = some (x.str s) ∧ info.get "ggcm_mhd_fld_mhd_type" = info'.get "ggcm_mhd_fld_mhd_type" := by
  unfold parse at h
  cases h1 : parseView x lines with
  | error e => simp [h1] at h
  | ok i' =>
    cases h2 : mhdTypeStr int (i'.get "ggcm_mhd_fld_mhd_type") with
    | error e => simp [h1, h2] at h
    | ok s =>
      simp only [h1, h2, Except.ok.injEq] at h
      subst h
      refine ⟨i', s, rfl, h2, ?_, ?_⟩ <;> simp [Info.get]

/-- lines of a log with an MHD type -/
def exTyped (t : String) : List String := ["=== class == ggcm_mhd_fld", "p | v", "--|--", t, "", "cp=1"]

/-- a syntax that reads types; values are integers, or text -/
def exTypes : Syntax (Int ⊕ String) where
  param l := if l = "mhd_type | 1" then some ("mhd_type", .inl 1) else if l = "mhd_type | -1" then some ("mhd_type", .inl (-1)) else
    if l = "mhd_type | cc" then some ("mhd_type", .inr "cc") else none
  typ _ := none
  cls l := if l = "=== class == ggcm_mhd_fld" then some "ggcm_mhd_fld" else none
  step l := l = "cp=1"
  str := .inr

/-- C121 fails for whole files: a type of -1 is given the name of 5, and a type that is text cannot be read at all -/
theorem C121_file_violated :
    parse exTypes Sum.getLeft? (exTyped "mhd_type | -1") =
      .ok [("ggcm_mhd_fld_mhd_type", .inl (-1)), ("ggcm_mhd_fld_mhd_type_str", .inr "MT_GKEYLL")] ∧
    parse exTypes Sum.getLeft? (exTyped "mhd_type | cc") = .error .type := by
  decide +kernel

example : parse exTypes Sum.getLeft? (exTyped "mhd_type | 1") =
    .ok [("ggcm_mhd_fld_mhd_type", .inl 1), ("ggcm_mhd_fld_mhd_type_str", .inr "MT_SEMI_CONSERVATIVE_GGCM")] := by decide +kernel

example : mhdTypeStr (fun v : Int => some v) (some 1) = .ok "MT_SEMI_CONSERVATIVE_GGCM" := by decide +kernel

end Viscid.Props
