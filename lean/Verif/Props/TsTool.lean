import Verif.Model.TsTool
import Verif.Props.LogValue
import Mathlib.Tactic.Linarith
import Mathlib.Algebra.Order.Field.Rat
/-!
# C256: the tool viscid_ts
-/
namespace Viscid.Spec.TsTool
open Viscid.TsTool (Text Opt Grid Exc)

/-- The last `-o` of a command line before its first `-p`, if there is one -/
def Before : List Opt → Option Text → Prop
  | os, r => ∃ a b, os = a ++ b ∧ (∀ o ∈ a, ∃ t, o = .popts t) ∧ (b = [] ∨ ∃ t c, b = .var t :: c) ∧
      (match a.getLast? with | some (.popts t) => r = some t | _ => r = none)

/-- how many `-p` there are -/
def count (os : List Opt) : Nat := (os.filter fun o => match o with | .var _ => true | _ => false).length

/-- A variable as written on the command line: a name, an equation for it or none, and a slice or none -/
structure Written where
  name : Text
  eqn : Option Text
  slc : Option Text

def Written.text (w : Written) : Text :=
  w.name ++ (match w.eqn with | none => [] | some e => '=' :: e) ++ (match w.slc with | none => [] | some s => ',' :: s)

/-- what is asked of the grid -/
def Written.asked (w : Written) : Text := w.name ++ (match w.eqn with | none => [] | some e => '=' :: e)

/-- names have neither comma nor equals sign, equations no comma, and slices are not empty -/
structure Written.Good (w : Written) : Prop where
  name : ',' ∉ w.name ∧ '=' ∉ w.name
  eqn : ∀ e, w.eqn = some e → ',' ∉ e
  slc : ∀ s, w.slc = some s → s ≠ []

/-- the slice of all variables, then the one of the variable -/
def both : Option Text → Option Text → Option Text
  | some a, some s => some (a ++ ',' :: s)
  | none, s => s
  | a, none => a

end Viscid.Spec.TsTool

namespace Viscid.Props
open Viscid.TsTool Viscid.Spec.TsTool

namespace TS

theorem before_nil : Before [] none := ⟨[], [], rfl, by simp, .inl rfl, rfl⟩
theorem before_var (t : Text) (os : List Opt) : Before (.var t :: os) none :=
  ⟨[], .var t :: os, rfl, by simp, .inr ⟨t, os, rfl⟩, rfl⟩

theorem before_popts {os : List Opt} {r : Option Text} (t : Text) (h : Before os r) : Before (.popts t :: os) (some (r.getD t)) := by
  obtain ⟨a, b, e, ha, hb, hr⟩ := h
  refine ⟨.popts t :: a, b, by rw [e]; rfl, ?_, hb, ?_⟩
  · intro o ho
    rcases List.mem_cons.1 ho with rfl | ho
    · exact ⟨t, rfl⟩
    · exact ha o ho
  · cases a with
    | nil =>
      have : r = none := hr
      subst this
      simp
    | cons x a =>
      rw [List.getLast?_cons_cons]
      obtain ⟨u, hu⟩ : ∃ u, (x :: a).getLast? = some (.popts u) := by
        have hl := List.getLast?_eq_some_getLast (List.cons_ne_nil x a)
        obtain ⟨u, hu⟩ := ha _ (List.getLast_mem (List.cons_ne_nil x a))
        exact ⟨u, by rw [hl, hu]⟩
      rw [hu] at hr ⊢
      have : r = some u := hr
      subst this
      rfl

theorem parse_append (a : Args) (x y : List Opt) : parse a (x ++ y) = (parse a x).bind fun a => parse a y := by
  induction x generalizing a with
  | nil => rfl
  | cons o x ih =>
    simp only [List.cons_append, parse]
    cases act a o with
    | none => rfl
    | some b => exact ih b

/-- after the first `-p` -/
theorem parse_some : ∀ (os : List Opt) (a : Args) (l : List Var) (v : Var), a.plotVars = some (l ++ [v]) →
    ∃ (m : List Var) (r : Option Text), Before os r ∧ m.length = count os ∧
      parse a os = some { a with plotVars := some (l ++ { v with opts := r.getD v.opts } :: m) } ∧
      ∀ (pre post : List Opt) (t : Text), os = pre ++ .var t :: post → ∃ q, Before post q ∧ m[count pre]? = some ⟨t, q.getD []⟩
  | [], a, l, v, h => ⟨[], none, before_nil, rfl, by cases a; cases h; rfl, by
      intro pre post t e
      cases pre <;> cases e⟩
  | .var t :: os, a, l, v, h => by
    have e : act a (.var t) = some { a with plotVars := some ((l ++ [v]) ++ [⟨t, []⟩]) } := by simp [act, h]
    obtain ⟨m, r, hr, hm, hp, hq⟩ := parse_some os { a with plotVars := some ((l ++ [v]) ++ [⟨t, []⟩]) } (l ++ [v]) ⟨t, []⟩ rfl
    refine ⟨⟨t, r.getD []⟩ :: m, none, before_var t os, ?_, ?_, ?_⟩
    · simp [count, List.length_cons] at hm ⊢; exact hm
    · simp only [parse, e, Option.bind_some]
      rw [hp]
      simp
    · intro pre post u eu
      cases pre with
      | nil =>
        cases eu
        exact ⟨r, hr, rfl⟩
      | cons p pre =>
        cases eu
        obtain ⟨q, h1, h2⟩ := hq pre post u rfl
        exact ⟨q, h1, by simpa [count] using h2⟩
  | .popts t :: os, a, l, v, h => by
    have e : act a (.popts t) = some { a with plotVars := some (l ++ [{ v with opts := t }]) } := by simp [act, h]
    obtain ⟨m, r, hr, hm, hp, hq⟩ := parse_some os { a with plotVars := some (l ++ [{ v with opts := t }]) } l { v with opts := t } rfl
    refine ⟨m, some (r.getD t), before_popts t hr, ?_, ?_, ?_⟩
    · simpa [count] using hm
    · simp only [parse, e, Option.bind_some]
      rw [hp]
      simp
    · intro pre post u eu
      cases pre with
      | nil => cases eu
      | cons p pre =>
        cases eu
        obtain ⟨q, h1, h2⟩ := hq pre post u rfl
        exact ⟨q, h1, by simpa [count] using h2⟩

end TS
open TS

/-- **C256, options.** Every command line is read: the variables are those of `-p`, in order, each with the last `-o`
    between it and the next `-p` (or no options), and the last `-o` before the first `-p` is for all of them. With no
    `-p` two default variables are plotted. -/
theorem C256_options (os : List Opt) : ∃ a, parse {} os = some a ∧ Before os a.globalPopts ∧
    (∀ (pre post : List Opt) (t : Text), os = pre ++ .var t :: post →
      (vars a).length = count os ∧ ∃ q, Before post q ∧ (vars a)[count pre]? = some ⟨t, q.getD []⟩) ∧
    (count os = 0 → vars a = [⟨"pp,x=8.0f,y=0.0f,z=0.0f".toList, []⟩, ⟨"by,x=8.0f,y=0.0f,z=0.0f".toList, []⟩]) := by
  suffices h : ∀ (os : List Opt) (g : Option Text), ∃ a r, parse ⟨none, g⟩ os = some a ∧ Before os r ∧ a.globalPopts = (r.orElse fun _ => g) ∧
      (∀ (pre post : List Opt) (t : Text), os = pre ++ .var t :: post →
        (vars a).length = count os ∧ ∃ q, Before post q ∧ (vars a)[count pre]? = some ⟨t, q.getD []⟩) ∧
      (count os = 0 → a.plotVars = none) by
    obtain ⟨a, r, h1, h2, h3, h4, h5⟩ := h os none
    refine ⟨a, h1, by cases r <;> simp at h3 <;> rw [h3] <;> exact h2, h4, fun h0 => ?_⟩
    simp only [vars, h5 h0]
  intro os
  induction os with
  | nil =>
    intro g
    refine ⟨⟨none, g⟩, none, rfl, before_nil, rfl, ?_, fun _ => rfl⟩
    intro pre post t e
    cases pre <;> cases e
  | cons o os ih =>
    intro g
    cases o with
    | popts t =>
      obtain ⟨a, r, h1, h2, h3, h4, h5⟩ := ih (some t)
      refine ⟨a, some (r.getD t), h1, before_popts t h2, ?_, ?_, ?_⟩
      · rw [h3]; cases r <;> rfl
      · intro pre post u e
        cases pre with
        | nil => cases e
        | cons p pre =>
          cases e
          simpa [count] using h4 pre post u rfl
      · intro h0
        exact h5 (by simpa [count] using h0)
    | var t =>
      obtain ⟨m, r, hr, hm, hp, hq⟩ := parse_some os ⟨some ([] ++ [⟨t, []⟩]), g⟩ [] ⟨t, []⟩ rfl
      refine ⟨_, none, hp, before_var t os, rfl, ?_, ?_⟩
      · intro pre post u e
        refine ⟨by simp [vars, count] at hm ⊢; exact hm, ?_⟩
        cases pre with
        | nil =>
          cases e
          exact ⟨r, hr, rfl⟩
        | cons p pre =>
          cases e
          obtain ⟨q, h1, h2⟩ := hq pre post u rfl
          exact ⟨q, h1, by simpa [vars, count] using h2⟩
      · intro h0
        simp [count] at h0

example : parse {} [.popts "a".toList, .var "pp".toList, .popts "b".toList, .popts "c".toList, .var "by".toList] =
    some ⟨some [⟨"pp".toList, "c".toList⟩, ⟨"by".toList, []⟩], some "a".toList⟩ := by decide

/-- **C256 fails** for two `-o` in a row, which do not add up: the first is forgotten, wherever they are. -/
theorem C256_popts_violated (pre post : List Opt) (s t : Text) :
    parse {} (pre ++ .popts s :: .popts t :: post) = parse {} (pre ++ .popts t :: post) := by
  rw [parse_append, parse_append]
  congr 1
  funext a
  simp only [parse]
  cases h : a.plotVars with
  | none => simp [act, h]
  | some l =>
    cases hl : l.getLast? with
    | none => simp [act, h, hl]
    | some v => simp [act, h, hl]

namespace TS

theorem join_split (sep : Char) (t : Text) : join sep (LogValue.split sep t) = t := by
  have h := LV.split_joined sep t
  generalize LogValue.split sep t = l at h
  induction h with
  | one _ => rfl
  | @more p s l _ hj ih =>
    cases l with
    | nil => cases hj
    | cons q l => rw [join, ih]; simp

theorem parts_comma {a b : Text} (h : ',' ∉ a) : parts (a ++ ',' :: b) = ((parts a).1, b, (parts a).2.2) := by
  unfold parts
  rw [LV.split_append _ _ _ h]
  have hm : ',' ∈ a ++ ',' :: b := by simp
  simp only [if_pos hm, List.headD_cons, List.drop_succ_cons, List.drop_zero, join_split, if_neg h]
  split <;> rfl

theorem parts_eq {a b : Text} (h : ',' ∉ a ++ '=' :: b) (h' : '=' ∉ a) : parts (a ++ '=' :: b) = (a, [], '=' :: b) := by
  unfold parts
  have hm : '=' ∈ a ++ '=' :: b := by simp
  simp only [if_neg h, if_pos hm, LV.split_append _ _ _ h', List.headD_cons, List.drop_succ_cons, List.drop_zero, join_split]

theorem parts_plain {a : Text} (h : ',' ∉ a) (h' : '=' ∉ a) : parts a = (a, [], []) := by
  unfold parts
  simp only [if_neg h, if_neg h']

theorem asked_comma {w : Written} (h : w.Good) : ',' ∉ w.asked := by
  obtain ⟨h1, h2, -⟩ := h
  unfold Written.asked
  cases he : w.eqn with
  | none => simpa using h1.1
  | some e => simpa using ⟨h1.1, h2 e he⟩

theorem parts_asked {w : Written} (h : w.Good) : parts w.asked = (w.name, [], match w.eqn with | none => [] | some e => '=' :: e) := by
  have hc := asked_comma h
  obtain ⟨h1, h2, -⟩ := h
  unfold Written.asked at *
  cases he : w.eqn with
  | none =>
    simp only [he, List.append_nil] at hc ⊢
    exact parts_plain hc h1.2
  | some e =>
    simp only [he] at hc ⊢
    exact parts_eq hc h1.2

theorem parts_written {w : Written} (h : w.Good) :
    parts w.text = (w.name, w.slc.getD [], match w.eqn with | none => [] | some e => '=' :: e) := by
  have hc := asked_comma h
  have hp := parts_asked h
  have ht : w.text = w.asked ++ (match w.slc with | none => [] | some s => ',' :: s) := rfl
  rw [ht]
  cases hs : w.slc with
  | none => simp only [List.append_nil]; rw [hp]; rfl
  | some s => rw [parts_comma hc, hp]; rfl

end TS

/-- **C256, variables.** The name, slice and equation of a variable are those written, if the equation has no comma: an
    equals sign in the slice starts no equation. -/
theorem C256_parts (w : Written) (h : w.Good) :
    (parts w.text).1 = w.name ∧ (parts w.text).2.1 = w.slc.getD [] ∧ (parts w.text).1 ++ (parts w.text).2.2 = w.asked := by
  rw [parts_written h]
  exact ⟨rfl, rfl, rfl⟩

example : Written.Good ⟨"b2".toList, some "bx**2==by**2".toList, some "x=8.0f,y=0".toList⟩ :=
  ⟨by decide, fun e h => by cases h; decide, fun e h => by cases h; decide⟩

/-- **C256 fails** for equations with a comma (a call with two arguments): the equation is cut off there, and the rest is
    taken for the slice. -/
theorem C256_comma_violated (name e rest : Text) (h : ',' ∉ name) (h' : '=' ∉ name) (he : ',' ∉ e) :
    (parts (name ++ '=' :: (e ++ ',' :: rest))).1 ++ (parts (name ++ '=' :: (e ++ ',' :: rest))).2.2 = name ++ '=' :: e ∧
    (parts (name ++ '=' :: (e ++ ',' :: rest))).2.1 = rest := by
  have hc : ',' ∉ name ++ '=' :: e := by simp [h, he]
  have e1 : name ++ '=' :: (e ++ ',' :: rest) = (name ++ '=' :: e) ++ ',' :: rest := by simp
  rw [e1, parts_comma hc, parts_eq hc h']
  exact ⟨rfl, rfl⟩

namespace TS

theorem value_written (g : Grid E) (all : Option Text) (ha : ∀ a, all = some a → a ≠ []) (kind : Kind) {w : Written} (h : w.Good) :
    value g all kind w.text = match g.get w.asked (both all w.slc) with
      | .error e => .error e
      | .ok [x] => .ok (put kind x)
      | .ok _ => .error .runtime := by
  have hw : whole all (w.slc.getD []) = both all w.slc := by
    unfold whole both
    cases hs : w.slc with
    | none => cases all <;> simp
    | some s =>
      have := h.slc s hs
      cases hall : all with
      | none => simp [this]
      | some a =>
        have := ha a hall
        simp [*]
  unfold value
  rw [parts_written h]
  simp only [hw]
  rfl

theorem row_eq (g : Grid E) (all : Option Text) (kind : Kind) (val : Text → ℚ) (vs : List Text)
    (h : ∀ v ∈ vs, value g all kind v = .ok (val v)) : row g all kind vs = .ok (vs.map val) := by
  induction vs with
  | nil => rfl
  | cons v vs ih =>
    simp only [row, h v (by simp), ih fun u hu => h u (by simp [hu])]
    rfl

theorem firstRow_eq (g : Grid E) (all : Option Text) (kind : Kind) (lab : Text → Text) (val : Text → ℚ) (vs : List Text)
    (hl : ∀ v ∈ vs, label g v = .ok (lab v)) (h : ∀ v ∈ vs, value g all kind v = .ok (val v)) :
    firstRow g all kind vs = .ok (vs.map fun v => (lab v, val v)) := by
  induction vs with
  | nil => rfl
  | cons v vs ih =>
    simp only [firstRow, hl v (by simp), h v (by simp), ih (fun u hu => hl u (by simp [hu])) fun u hu => h u (by simp [hu])]
    rfl

theorem rows_eq (all : Option Text) (kind : Kind) (val : Grid E → Text → ℚ) (vs : List Text) (gs : List (Grid E))
    (h : ∀ g ∈ gs, ∀ v ∈ vs, value g all kind v = .ok (val g v)) : rows all kind vs gs = .ok (gs.map fun g => vs.map (val g)) := by
  induction gs with
  | nil => rfl
  | cons g gs ih =>
    simp only [rows, row_eq g all kind (val g) vs (h g (by simp)), ih fun u hu => h u (by simp [hu])]
    rfl

theorem series_eq (g : Grid E) (gs : List (Grid E)) (all : Option Text) (kind : Kind) (lab : Text → Text) (val : Grid E → Text → ℚ)
    (vs : List Text) (hl : ∀ v ∈ vs, label g v = .ok (lab v)) (h : ∀ h ∈ g :: gs, ∀ v ∈ vs, value h all kind v = .ok (val h v)) :
    series (g :: gs) kind all vs = .ok (vs.map fun v => (lab v, (g :: gs).map fun h => val h v)) := by
  simp only [series, firstRow_eq g all kind lab (val g) vs hl (h g (by simp)), rows_eq all kind val vs gs fun u hu => h u (by simp [hu])]
  refine congrArg Except.ok ?_
  apply List.ext_getElem?
  intro i
  simp only [List.getElem?_map, List.getElem?_zipIdx, Nat.zero_add, Option.map_map, List.map_map]
  cases hv : vs[i]? with
  | none => rfl
  | some v =>
    simp only [Option.map_some, Function.comp, List.map_cons, Option.some.injEq, Prod.mk.injEq, List.cons.injEq, true_and]
    apply List.map_congr_left
    intro u _
    simp [List.getD_eq_getElem?_getD, hv]

theorem label_written (g : Grid E) (l : Text) {w : Written} (h : w.Good) (h1 : ∀ e, w.eqn = some e → l = w.name)
    (h2 : w.eqn = none → g.pretty w.name = .ok l ∨ (g.pretty w.name = .error .attribute ∧ l = w.name)) : label g w.text = .ok l := by
  unfold label
  rw [parts_written h]
  cases he : w.eqn with
  | some e => simp [h1 e he]
  | none =>
    rcases h2 he with h3 | ⟨h3, h4⟩
    · simp [h3]
    · simp [h3, h4]

theorem wtext_inj_map (ws : List Written) (F : Written → β) (G : Text → β) (h : ∀ w ∈ ws, G w.text = F w) :
    (ws.map Written.text).map G = ws.map F := by
  rw [List.map_map]
  exact List.map_congr_left h

end TS

/-- The series and labels for any kind of times. -/
theorem TS.series_written (g : Grid E) (gs : List (Grid E)) (all : Option Text) (ha : ∀ a, all = some a → a ≠ []) (kind : Kind)
    (ws : List Written) (hw : ∀ w ∈ ws, w.Good) (l : Text → Text) (x : Grid E → Text → Option Text → ℚ)
    (hl : ∀ w ∈ ws, w.eqn = none → g.pretty w.name = .ok (l w.name) ∨ (g.pretty w.name = .error .attribute ∧ l w.name = w.name))
    (hx : ∀ h ∈ g :: gs, ∀ w ∈ ws, h.get w.asked (both all w.slc) = .ok [x h w.asked (both all w.slc)]) :
    series (g :: gs) kind all (ws.map Written.text) = .ok (ws.map fun w =>
      (if w.eqn = none then l w.name else w.name, (g :: gs).map fun h => put kind (x h w.asked (both all w.slc)))) := by
  have key := series_eq g gs all kind (fun v => if (parts v).2.2 = [] then l (parts v).1 else (parts v).1)
    (fun h v => put kind (x h ((parts v).1 ++ (parts v).2.2) (whole all (parts v).2.1))) (ws.map Written.text) ?_ ?_
  · rw [key]
    refine congrArg Except.ok ?_
    apply wtext_inj_map
    intro w hm
    have hwh : whole all (w.slc.getD []) = both all w.slc := by
      unfold whole both
      cases hs : w.slc with
      | none => cases all <;> simp
      | some s =>
        have := (hw w hm).slc s hs
        cases hall : all with
        | none => simp [this]
        | some a =>
          have := ha a hall
          simp [*]
    have has : w.name ++ (match w.eqn with | none => [] | some e => '=' :: e) = w.asked := rfl
    simp only [parts_written (hw w hm), hwh, has]
    cases he : w.eqn <;> simp
  · intro v hv
    obtain ⟨w, hm, rfl⟩ := List.mem_map.1 hv
    apply label_written g _ (hw w hm)
    · intro e he
      simp [parts_written (hw w hm), he]
    · intro he
      simpa [parts_written (hw w hm), he] using hl w hm he
  · intro h hh v hv
    obtain ⟨w, hm, rfl⟩ := List.mem_map.1 hv
    have e := value_written h all ha kind (hw w hm)
    have := hx h hh w hm
    have hwh : whole all (parts w.text).2.1 = both all w.slc := by
      rw [parts_written (hw w hm)]
      unfold whole both
      cases hs : w.slc with
      | none => cases all <;> simp
      | some s =>
        have := (hw w hm).slc s hs
        cases hall : all with
        | none => simp [this]
        | some a =>
          have := ha a hall
          simp [*]
    rw [e, this, hwh, (C256_parts w (hw w hm)).2.2]

/-- **C256, series.** With times that are not integers: one series per variable, in order, of its values in every grid, in
    order, each with the slice of all variables followed by its own; labelled by the long name of the field, or by the name
    if it is an equation or has no long name. -/
theorem C256_series_partial (g : Grid E) (gs : List (Grid E)) (all : Option Text) (ha : ∀ a, all = some a → a ≠ [])
    (ws : List Written) (hw : ∀ w ∈ ws, w.Good) (l : Text → Text) (x : Grid E → Text → Option Text → ℚ)
    (hl : ∀ w ∈ ws, w.eqn = none → g.pretty w.name = .ok (l w.name) ∨ (g.pretty w.name = .error .attribute ∧ l w.name = w.name))
    (hx : ∀ h ∈ g :: gs, ∀ w ∈ ws, h.get w.asked (both all w.slc) = .ok [x h w.asked (both all w.slc)]) :
    series (g :: gs) .float all (ws.map Written.text) = .ok (ws.map fun w =>
      (if w.eqn = none then l w.name else w.name, (g :: gs).map fun h => x h w.asked (both all w.slc))) :=
  series_written g gs all ha .float ws hw l x hl hx

/-- **C256 fails** for times that are integers: every value is cut to an integer before it is plotted; those that are not
    integers are not plotted. -/
theorem C256_integer_violated (g : Grid E) (gs : List (Grid E)) (all : Option Text) (ha : ∀ a, all = some a → a ≠ [])
    (ws : List Written) (hw : ∀ w ∈ ws, w.Good) (l : Text → Text) (x : Grid E → Text → Option Text → ℚ)
    (hl : ∀ w ∈ ws, w.eqn = none → g.pretty w.name = .ok (l w.name) ∨ (g.pretty w.name = .error .attribute ∧ l w.name = w.name))
    (hx : ∀ h ∈ g :: gs, ∀ w ∈ ws, h.get w.asked (both all w.slc) = .ok [x h w.asked (both all w.slc)]) :
    ∃ c : ℚ → ℤ, (∀ q, |q - c q| < 1 ∧ |(c q : ℚ)| ≤ |q| ∧ ((∀ n : ℤ, q ≠ n) → (c q : ℚ) ≠ q)) ∧
    series (g :: gs) .int all (ws.map Written.text) = .ok (ws.map fun w =>
      (if w.eqn = none then l w.name else w.name, (g :: gs).map fun h => (c (x h w.asked (both all w.slc)) : ℚ))) := by
  refine ⟨fun q => if 0 ≤ q then ⌊q⌋ else ⌈q⌉, fun q => ⟨?_, ?_, fun h e => h _ e.symm⟩, ?_⟩
  · dsimp only
    split
    · rw [abs_lt]
      have := Int.floor_le q
      have := Int.lt_floor_add_one q
      constructor <;> linarith
    · rw [abs_lt]
      have := Int.le_ceil q
      have := Int.ceil_lt_add_one q
      constructor <;> linarith
  · dsimp only
    split
    · rename_i h
      have h0 : (0 : ℚ) ≤ ⌊q⌋ := by exact_mod_cast Int.floor_nonneg.2 h
      rw [abs_of_nonneg h0, abs_of_nonneg h]
      exact Int.floor_le q
    · rename_i h
      have h' : q ≤ 0 := le_of_lt (not_le.1 h)
      have h0 : (⌈q⌉ : ℚ) ≤ 0 := by exact_mod_cast Int.ceil_le.2 (by simpa using h')
      rw [abs_of_nonpos h0, abs_of_nonpos h']
      have := Int.le_ceil q
      linarith
  · rw [series_written g gs all ha .int ws hw l x hl hx]
    refine congrArg Except.ok (List.map_congr_left fun w _ => ?_)
    refine Prod.ext rfl ?_
    dsimp only
    refine List.map_congr_left fun h _ => ?_
    simp only [put]
    split <;> rfl

/-- Two grids, of which two variables are plotted. -/
example : series (E := Empty) [⟨fun _ => .ok "P".toList, fun _ _ => .ok [3 / 2]⟩, ⟨fun _ => .ok "P".toList, fun _ _ => .ok [-5 / 2]⟩] .int none
    (List.map Written.text [⟨"pp".toList, none, some "x=0".toList⟩, ⟨"q".toList, some "pp*2".toList, none⟩]) =
    .ok [("P".toList, [1, -2]), ("q".toList, [1, -2])] := by decide +kernel

namespace TS

theorem row_err (g : Grid E) (all : Option Text) (kind : Kind) (vs : List Text) (v : Text) (hv : v ∈ vs)
    (h : ∀ x, value g all kind v ≠ .ok x) (xs : List ℚ) : row g all kind vs ≠ .ok xs := by
  induction vs generalizing xs with
  | nil => cases hv
  | cons u us ih =>
    intro e
    simp only [row] at e
    cases h1 : value g all kind u with
    | error _ => rw [h1] at e; cases e
    | ok x =>
      rw [h1] at e
      rcases List.mem_cons.1 hv with rfl | hv
      · exact h x h1
      · cases h2 : row g all kind us with
        | error _ => rw [h2] at e; cases e
        | ok r => exact ih hv r h2

theorem firstRow_err (g : Grid E) (all : Option Text) (kind : Kind) (vs : List Text) (v : Text) (hv : v ∈ vs)
    (h : ∀ x, value g all kind v ≠ .ok x) (xs : List (Text × ℚ)) : firstRow g all kind vs ≠ .ok xs := by
  induction vs generalizing xs with
  | nil => cases hv
  | cons u us ih =>
    intro e
    simp only [firstRow] at e
    cases h0 : label g u with
    | error _ => rw [h0] at e; cases e
    | ok l =>
    rw [h0] at e
    cases h1 : value g all kind u with
    | error _ => rw [h1] at e; cases e
    | ok x =>
      rw [h1] at e
      rcases List.mem_cons.1 hv with rfl | hv
      · exact h x h1
      · cases h2 : firstRow g all kind us with
        | error _ => rw [h2] at e; cases e
        | ok r => exact ih hv r h2

theorem rows_err (all : Option Text) (kind : Kind) (vs : List Text) (v : Text) (hv : v ∈ vs) (gs : List (Grid E)) (g : Grid E) (hg : g ∈ gs)
    (h : ∀ x, value g all kind v ≠ .ok x) (xs : List (List ℚ)) : rows all kind vs gs ≠ .ok xs := by
  induction gs generalizing xs with
  | nil => cases hg
  | cons u us ih =>
    intro e
    simp only [rows] at e
    cases h1 : row u all kind vs with
    | error _ => rw [h1] at e; cases e
    | ok x =>
      rw [h1] at e
      rcases List.mem_cons.1 hg with rfl | hg
      · exact row_err g all kind vs v hv h x h1
      · cases h2 : rows all kind vs us with
        | error _ => rw [h2] at e; cases e
        | ok r => exact ih hg r h2

end TS

/-- **C256, errors.** Nothing is plotted if there are no times (ValueError), or if any variable is not one number in any
    grid. -/
theorem C256_errors (all : Option Text) (kind : Kind) :
    (∀ vs, series (E := E) [] kind all vs = .error .value) ∧
    ∀ (gs : List (Grid E)) (ws : List Written) (g : Grid E) (w : Written), (∀ a, all = some a → a ≠ []) → w.Good → g ∈ gs → w ∈ ws →
      (∀ x, g.get w.asked (both all w.slc) ≠ .ok [x]) → ∃ e, series gs kind all (ws.map Written.text) = .error e := by
  refine ⟨fun _ => rfl, fun gs ws g w ha hw hg hm hx => ?_⟩
  have hv : ∀ x, value g all kind w.text ≠ .ok x := by
    intro x e
    rw [value_written g all ha kind hw] at e
    cases hget : g.get w.asked (both all w.slc) with
    | error _ => rw [hget] at e; cases e
    | ok l =>
      match l, hget with
      | [], hget => rw [hget] at e; cases e
      | [y], hget => exact hx y hget
      | _ :: _ :: _, hget => rw [hget] at e; cases e
  have hm' : w.text ∈ ws.map Written.text := List.mem_map_of_mem hm
  cases hs : series gs kind all (ws.map Written.text) with
  | error e => exact ⟨e, rfl⟩
  | ok r =>
    exfalso
    cases gs with
    | nil => cases hg
    | cons k ks =>
      simp only [series] at hs
      cases h1 : firstRow k all kind (ws.map Written.text) with
      | error _ => rw [h1] at hs; cases hs
      | ok a =>
        rw [h1] at hs
        rcases List.mem_cons.1 hg with rfl | hg
        · exact firstRow_err g all kind _ _ hm' hv a h1
        · cases h2 : rows all kind (ws.map Written.text) ks with
          | error _ => rw [h2] at hs; cases hs
          | ok b => exact rows_err all kind _ _ hm' ks g hg hv b h2

/-- **C256, output.** The plot is saved, under the prefix and format, if a prefix is given without `-w`; else it is shown,
    and not saved. -/
theorem C256_output (pre : Option Text) (format : Text) (sh : Bool) :
    (output pre format sh = .shown ↔ pre = none ∨ sh = true) ∧
    ∀ file, output pre format sh = .saved file ↔ sh = false ∧ ∃ p, pre = some p ∧ file = p ++ '.' :: format := by
  cases pre <;> cases sh <;> simp [output, eq_comm]

/-- **C256, verbosity.** Without `--log`, a message of level `n` is logged if and only if it is at least a warning (30), ten
    less for each `-v` and ten more for each `-q`; with `--log` the level is that one. -/
theorem C256_verbosity (levels : Text → Option Int) (log : Option Text) (verb v q : Nat) :
    (log = none → ∃ m, level levels log verb v q = some m ∧ ∀ n : Int, m ≤ n ↔ 30 + 10 * q ≤ n + 10 * (verb + v)) ∧
    ∀ l, log = some l → level levels log verb v q = levels l := by
  refine ⟨?_, ?_⟩
  · rintro rfl
    refine ⟨_, rfl, fun n => ?_⟩
    push_cast
    omega
  · rintro l rfl
    rfl

end Viscid.Props
