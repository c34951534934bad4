import Verif.Model.Colorbar
import Mathlib.Tactic.Tauto
import Mathlib.Algebra.Order.Field.Rat
/-!
# C258: colorbars and labels of 2-D plots
-/
namespace Viscid.Spec.Colorbar
open Viscid.Colorbar (Val Kw)

def vertical (p : Val) : Prop := p = .text "left" ∨ p = .text "right"
def horizontal (p : Val) : Prop := p = .text "top" ∨ p = .text "bottom"

/-- the orientation is that of the side of the axes -/
def Agree (position orientation : Val) : Prop :=
  (vertical position ∧ orientation = .text "vertical") ∨ (horizontal position ∧ orientation = .text "horizontal")

/-- positions and orientations that are documented, or not given -/
def GoodPosition (p : Val) : Prop := p = .none ∨ vertical p ∨ horizontal p
def GoodOrientation (o : Val) : Prop := o = .none ∨ o = .text "vertical" ∨ o = .text "horizontal"

/-- the value of an option, if it is given and not None -/
def opt (m : Kw) (k : String) : Val := (m k).getD .none

/-- options without axes of their own for the colorbar -/
structure Plain (m : Kw) : Prop where
  cax : m "cax" = none
  use : m "use_grid1" = none ∨ m "use_grid1" = some (.bool true)
  position : GoodPosition (opt m "position")
  orientation : GoodOrientation (opt m "orientation")

end Viscid.Spec.Colorbar

namespace Viscid.Props
open Viscid.Colorbar Viscid.Spec.Colorbar

namespace CB

theorem place_good {p o : Val} (hp : GoodPosition p) (ho : GoodOrientation o) :
    Agree (place p o).position (place p o).orientation ∧
    (p ≠ .none → (place p o).position = p) ∧ (p = .none → o ≠ .none → (place p o).orientation = o) ∧
    (p = .none → (place p o).position = if o = .text "horizontal" then .text "bottom" else .text "right") ∧
    ((place p o).warned = 0 ↔ p = .none ∨ o = .none ∨ Agree p o) := by
  rcases hp with rfl | (rfl | rfl) | (rfl | rfl) <;> rcases ho with rfl | rfl | rfl <;>
    simp [place, place0, place1, place2, place3, place4, Agree, vertical, horizontal]

theorem make_ok {known : Bool} {g : Grid1} (h : Agree g.position g.orientation) : makeCax known g = .ok known := by
  unfold makeCax
  rcases h with ⟨h1 | h1, h2⟩ | ⟨h1 | h1, h2⟩ <;> simp [h1, h2]

end CB
open CB

/-- **C258, position.** The colorbar is on the side asked for, or on the right if neither a side nor an orientation is, or at
    the bottom if it is to be horizontal; its orientation is that of the side; the user is warned if and only if they ask
    for both, and these do not agree. -/
theorem C258_position (p o : Val) (hp : GoodPosition p) (ho : GoodOrientation o) :
    Agree (place p o).position (place p o).orientation ∧
    (p ≠ .none → (place p o).position = p) ∧ (p = .none → o ≠ .none → (place p o).orientation = o) ∧
    (p = .none → (place p o).position = if o = .text "horizontal" then .text "bottom" else .text "right") ∧
    ((place p o).warned = 0 ↔ p = .none ∨ o = .none ∨ Agree p o) :=
  place_good hp ho

/-- **C258, other positions.** A position that is none of the four sides is replaced, with a warning, if there is an
    orientation; else ValueError is raised. -/
theorem C258_unknown (p : Val) (hp : ¬ GoodPosition p) :
    place p (.text "vertical") = ⟨.text "right", .text "vertical", 1⟩ ∧
    place p (.text "horizontal") = ⟨.text "bottom", .text "horizontal", 1⟩ ∧
    ∀ (env : Env) (l s : Bool) (rc : Val) (m : Kw), env.grid1 = true → m "position" = some p → m "orientation" = none → m "cax" = none →
      m "use_grid1" = none → colorbar env l s rc .none m = .error .value := by
  simp only [GoodPosition, vertical, horizontal, not_or] at hp
  obtain ⟨h0, ⟨h1, h2⟩, h3, h4⟩ := hp
  refine ⟨?_, ?_, ?_⟩
  · simp [place, place0, place1, place2, place3, place4, h0, h1, h2, h3, h4]
  · simp [place, place0, place1, place2, place3, place4, h0, h1, h2, h3, h4]
  · intro env l s rc m he hm ho hc hu
    simp [colorbar, makeAxes, Kw.pop, Kw.get, hm, ho, hc, hu, he, Val.truthy, makeCax, place, place0, place1, place2, place3, place4, h0, h1, h2, h3, h4]

example : ¬ GoodPosition (.text "middle") := by
  simp [GoodPosition, vertical, horizontal]

namespace CB

/-- the dictionary after `makeAxes` when axes are made -/
theorem makeAxes_ok {env : Env} {m : Kw} (h : Plain m) :
    ∃ made, makeAxes env true m = .ok made ∧
      made.cax = (env.grid1 && env.known) ∧ made.same = (env.grid1 && env.known) ∧
      made.grid1 = ⟨(place (opt m "position") (opt m "orientation")).position, (place (opt m "position") (opt m "orientation")).orientation,
        m.get "aspect" (.num 20),
        m.get "pad" (if (place (opt m "position") (opt m "orientation")).orientation = .text "vertical" then .num (5 / 100) else .num (15 / 100)),
        m.get "fraction" (.num (5 / 100)), m.get "shrink" (.num 1)⟩ ∧
      (made.kw "orientation" = some made.grid1.orientation) ∧ (made.kw "position" = none) ∧
      (∀ k, k ∉ ["use_grid1", "position", "orientation", "aspect", "pad", "fraction", "shrink"] → made.kw k = m k) ∧
      ((env.grid1 && env.known) = false → ∀ k ∈ ["aspect", "pad", "fraction", "shrink"], made.kw k = m k) ∧
      ((env.grid1 && env.known) = true → made.user = made.kw ∧ ∀ k ∈ ["use_grid1", "aspect", "pad", "fraction", "shrink"], made.kw k = none) := by
  have hu : m.get "use_grid1" (.bool true) = .bool true := by
    rcases h.use with e | e <;> simp [Kw.get, e]
  obtain ⟨hg, -⟩ := place_good h.position h.orientation
  have e1 : ((m.pop "use_grid1").get "position" .none) = opt m "position" := by simp [Kw.get, Kw.pop, opt]
  have e2 : (((m.pop "use_grid1").pop "position").get "orientation" .none) = opt m "orientation" := by simp [Kw.get, Kw.pop, opt]
  unfold makeAxes
  simp only [hu, ne_eq, not_true_eq_false, if_false, e1, e2, Bool.true_and]
  generalize place (opt m "position") (opt m "orientation") = p at hg ⊢
  cases h1 : env.grid1 with
  | false =>
    simp only [Bool.false_eq_true, if_false, Bool.false_and]
    refine ⟨_, rfl, rfl, rfl, ?_, ?_, ?_, ?_, ?_, ?_⟩
    · simp [Kw.get, Kw.pop, Kw.set]
    · simp [Kw.set]
    · simp [Kw.set, Kw.pop]
    · intro k hk
      simp only [List.mem_cons, not_or] at hk
      simp [Kw.set, Kw.pop, hk]
    · intro _ k hk
      simp only [List.mem_cons, List.not_mem_nil, or_false] at hk
      rcases hk with rfl | rfl | rfl | rfl <;> simp [Kw.set, Kw.pop]
    · intro h; cases h
  | true =>
    simp only [if_true, Bool.true_and]
    rw [make_ok hg]
    cases h2 : env.known with
    | false =>
      refine ⟨_, rfl, rfl, rfl, ?_, ?_, ?_, ?_, ?_, ?_⟩
      · simp [Kw.get, Kw.pop, Kw.set]
      · simp [Kw.set]
      · simp [Kw.set, Kw.pop]
      · intro k hk
        simp only [List.mem_cons, not_or] at hk
        simp [Kw.set, Kw.pop, hk]
      · intro _ k hk
        simp only [List.mem_cons, List.not_mem_nil, or_false] at hk
        rcases hk with rfl | rfl | rfl | rfl <;> simp [Kw.set, Kw.pop]
      · intro h; cases h
    | true =>
      refine ⟨_, rfl, rfl, rfl, ?_, ?_, ?_, ?_, ?_, ?_⟩
      · simp [Kw.get, Kw.pop, Kw.set]
      · simp [Kw.set, Kw.pop]
      · simp [Kw.set, Kw.pop]
      · intro k hk
        simp only [List.mem_cons, not_or] at hk
        simp [Kw.set, Kw.pop, hk]
      · intro h; cases h
      · intro _
        refine ⟨rfl, fun k hk => ?_⟩
        simp only [List.mem_cons, List.not_mem_nil, or_false] at hk
        rcases hk with rfl | rfl | rfl | rfl | rfl <;> simp [Kw.set, Kw.pop]

/-- ticks that are chosen if none are given -/
def chosen (logScale symmetric : Bool) : Val :=
  if logScale then .logLocator else if symmetric then .maxNLocator else .linearLocator

theorem set_if {c : Prop} [Decidable c] {f : Kw} {x : Val} {k k' : String} (h : k ≠ k') : (if c then f.set k' x else f) k = f k := by
  by_cases hc : c <;> simp [hc, Kw.set, h]

theorem finish_other (l s : Bool) (rc : Val) (kw : Kw) (k : String) (h1 : k ≠ "ticks") (h2 : k ≠ "format") :
    finish l s rc kw k = kw k := by
  simp only [finish]
  rw [set_if h2]
  simp only [Kw.pop, h2, if_false]
  rw [set_if h1]

theorem finish_ticks (l s : Bool) (rc : Val) (kw : Kw) : finish l s rc kw "ticks" = some ((kw "ticks").getD (chosen l s)) := by
  simp only [finish]
  rw [set_if (by decide)]
  cases h : kw "ticks" with
  | none => simp [Kw.pop, Kw.set, chosen]
  | some v => simp [Kw.pop, h]

theorem finish_format (l s : Bool) (rc : Val) (kw : Kw) (v : Val) (h : (kw "format").getD rc = v) (hs : v ≠ .text "steve") :
    finish l s rc kw "format" = if v.truthy then some v else none := by
  have e : (if (kw "ticks").isNone = true then
      kw.set "ticks" (if l = true then Val.logLocator else if s = true then .maxNLocator else .linearLocator) else kw).get "format" rc = v := by
    split <;> simpa [Kw.get, Kw.set] using h
  simp only [finish, e, hs, if_false]
  cases v.truthy <;> simp [Kw.pop, Kw.set]

theorem plain_pop {m : Kw} (h : Plain m) : Plain (m.pop "ax") :=
  ⟨by simp [Kw.pop, h.cax], by simpa [Kw.pop] using h.use, by simpa [Kw.pop, opt] using h.position, by simpa [Kw.pop, opt] using h.orientation⟩

theorem colorbar_ok {env : Env} (l s : Bool) (rc : Val) {m : Kw} (h : Plain m) :
    ∃ d, colorbar env l s rc .none m = .ok d ∧
      d.cax = (if env.grid1 && env.known then .made else .default) ∧
      d.grid1 = ⟨(place (opt m "position") (opt m "orientation")).position, (place (opt m "position") (opt m "orientation")).orientation,
        m.get "aspect" (.num 20),
        m.get "pad" (if (place (opt m "position") (opt m "orientation")).orientation = .text "vertical" then .num (5 / 100) else .num (15 / 100)),
        m.get "fraction" (.num (5 / 100)), m.get "shrink" (.num 1)⟩ ∧
      (d.kw "orientation" = some d.grid1.orientation) ∧ (d.kw "position" = none) ∧
      (∀ k, k ∉ ["ax", "use_grid1", "position", "orientation", "aspect", "pad", "fraction", "shrink", "ticks", "format"] → d.kw k = m k) ∧
      (d.kw "ticks" = some ((m "ticks").getD (chosen l s))) ∧
      (∀ v, (m "format").getD rc = v → v ≠ .text "steve" → d.kw "format" = if v.truthy then some v else none) ∧
      ((env.grid1 && env.known) = false → ∀ k ∈ ["aspect", "pad", "fraction", "shrink"], d.kw k = m k) ∧
      ((env.grid1 && env.known) = true → d.user = d.kw ∧ ∀ k ∈ ["ax", "use_grid1", "aspect", "pad", "fraction", "shrink"], d.kw k = none) ∧
      (d.topTicks = true ↔ (env.grid1 && env.known) = true ∧ d.grid1.position = .text "top") := by
  have hpl := plain_pop h
  obtain ⟨made, h1, h2, h3, h4, h5, h6, h7, h8, h9⟩ := makeAxes_ok (env := env) hpl
  have hown : (((m.pop "ax") "cax").isSome || !((m.pop "ax").get "use_grid1" (.bool true)).truthy) = false := by
    have hc := hpl.cax
    rcases hpl.use with e | e <;> simp [hc, Kw.get, e, Val.truthy]
  unfold colorbar
  simp only [ne_eq, not_true_eq_false, if_false, hown, Bool.not_false, h1, Bool.false_eq_true]
  have hax : ∀ k, k ≠ "ax" → (m.pop "ax") k = m k := fun k hk => by simp [Kw.pop, hk]
  refine ⟨_, rfl, ?_, ?_, ?_, ?_, ?_, ?_, ?_, ?_, ?_, ?_⟩
  · simp [h2]
  · simp only
    rw [h4]
    simp [Kw.get, opt, Kw.pop]
    congr
  · exact (finish_other _ _ _ _ _ (by decide) (by decide)).trans h5
  · exact (finish_other _ _ _ _ _ (by decide) (by decide)).trans h6
  · intro k hk
    simp only [List.mem_cons, not_or] at hk
    refine (finish_other _ _ _ _ _ (by tauto) (by tauto)).trans ?_
    rw [h7 k (by simp only [List.mem_cons, not_or]; tauto), hax k hk.1]
  · refine (finish_ticks _ _ _ _).trans ?_
    rw [h7 "ticks" (by decide), hax _ (by decide)]
  · intro v hv hs
    refine finish_format _ _ _ _ v ?_ hs
    rw [h7 "format" (by decide), hax _ (by decide)]
    exact hv
  · intro hf k hk
    have e := h8 hf k hk
    simp only [List.mem_cons, List.not_mem_nil, or_false] at hk
    refine (finish_other _ _ _ _ _ ?_ ?_).trans (e.trans (hax k ?_)) <;> rintro rfl <;> simp at hk
  · intro ht
    obtain ⟨-, e2⟩ := h9 ht
    rw [ht] at h3
    simp only [h3, if_true]
    refine ⟨trivial, fun k hk => ?_⟩
    have e : made.kw k = none := by
      rcases List.mem_cons.1 hk with rfl | hk
      · rw [h7 "ax" (by decide)]; simp [Kw.pop]
      · exact e2 k hk
    simp only [List.mem_cons, List.not_mem_nil, or_false] at hk
    refine (finish_other _ _ _ _ _ ?_ ?_).trans e <;> rintro rfl <;> simp at hk
  · simp only [h2]
    cases (env.grid1 && env.known) <;> simp

end CB

/-- **C258, options.** A colorbar beside plain or polar axes: its axes are made with the position, aspect, pad, fraction and
    shrink of the options, or the defaults; all other options go to matplotlib, with the ticks of the options, or with
    logarithmic ones for a logarithmic scale, nice ones for a symmetric and linear ones for any other. For other axes
    matplotlib gets all options, without the position. -/
theorem C258_options (env : Env) (logScale symmetric : Bool) (rcfmt : Val) (m : Kw) (h : Plain m) :
    ∃ d, colorbar env logScale symmetric rcfmt .none m = .ok d ∧
      d.cax = (if env.grid1 && env.known then .made else .default) ∧
      Agree d.grid1.position d.grid1.orientation ∧ (opt m "position" ≠ .none → d.grid1.position = opt m "position") ∧
      d.grid1.aspect = (m "aspect").getD (.num 20) ∧ d.grid1.fraction = (m "fraction").getD (.num (5 / 100)) ∧ d.grid1.shrink = (m "shrink").getD (.num 1) ∧
      d.grid1.pad = (m "pad").getD (.num (if d.grid1.orientation = .text "vertical" then 5 / 100 else 15 / 100)) ∧
      (d.kw "orientation" = some d.grid1.orientation) ∧ (d.kw "position" = none) ∧
      (∀ k, k ∉ ["ax", "use_grid1", "position", "orientation", "aspect", "pad", "fraction", "shrink", "ticks", "format"] → d.kw k = m k) ∧
      (d.kw "ticks" = some ((m "ticks").getD (if logScale then .logLocator else if symmetric then .maxNLocator else .linearLocator))) ∧
      (∀ v, (m "format").getD rcfmt = v → v ≠ .text "steve" → d.kw "format" = if v.truthy then some v else none) ∧
      (∀ k ∈ ["aspect", "pad", "fraction", "shrink"], d.kw k = if env.grid1 && env.known then none else m k) ∧
      (d.topTicks = true ↔ (env.grid1 && env.known) = true ∧ d.grid1.position = .text "top") := by
  obtain ⟨d, h1, h2, h3, h4, h5, h6, h7, hf, h8, h9, h10⟩ := colorbar_ok (env := env) logScale symmetric rcfmt h
  obtain ⟨g1, g2, -⟩ := place_good h.position h.orientation
  refine ⟨d, h1, h2, ?_, ?_, ?_, ?_, ?_, ?_, h4, h5, h6, h7, hf, ?_, h10⟩
  · rw [h3]; exact g1
  · rw [h3]; exact g2
  · rw [h3]; rfl
  · rw [h3]; rfl
  · rw [h3]; rfl
  · rw [h3]
    simp only [Kw.get]
    split <;> rfl
  · intro k hk
    cases hb : (env.grid1 && env.known) with
    | false => simpa using h8 hb k hk
    | true => simpa using (h9 hb).2 k (by simp only [List.mem_cons] at hk ⊢; tauto)

/-- Options that meet the conditions. -/
def CB.sample : Kw := fun k => if k = "position" then some (.text "top") else if k = "pad" then some (.num 1) else none

theorem CB.sample_plain : Plain CB.sample := by
  refine ⟨rfl, .inl rfl, .inr (.inr (.inl rfl)), .inl rfl⟩

example : Plain CB.sample := CB.sample_plain

/-- **C258 fails** if one dictionary of options is used for two plots: options that were used are gone from it. A colorbar on
    top, or on the left, in the first plot is at the bottom, or on the right, in the second; and the pad, aspect, fraction
    and shrink are not those of the options. -/
theorem C258_reuse_violated (l s l' s' : Bool) (rc : Val) (m : Kw) (h : Plain m)
    (hp : m "position" = some (.text "top") ∨ m "position" = some (.text "left")) :
    ∃ d e, colorbar ⟨true, true⟩ l s rc .none m = .ok d ∧ colorbar ⟨true, true⟩ l' s' rc .none d.user = .ok e ∧
      some d.grid1.position = m "position" ∧
      e.grid1.position = (if m "position" = some (.text "top") then .text "bottom" else .text "right") ∧
      e.grid1.aspect = .num 20 ∧ e.grid1.shrink = .num 1 := by
  obtain ⟨d, h1, h2, h3, h4, h5, h6, h7, hf, h8, h9, h10⟩ := colorbar_ok (env := ⟨true, true⟩) l s rc h
  obtain ⟨hu, hn⟩ := h9 rfl
  obtain ⟨g1, g2, -⟩ := place_good h.position h.orientation
  have hpos : d.grid1.position = opt m "position" := by
    rw [h3]; exact g2 (by rcases hp with e | e <;> simp [opt, e])
  have hag : Agree d.grid1.position d.grid1.orientation := by rw [h3]; exact g1
  have q1 : opt d.user "position" = .none := by rw [hu]; simp [opt, h5]
  have q2 : opt d.user "orientation" = d.grid1.orientation := by rw [hu]; simp [opt, h4]
  have hpl : Plain d.user := by
    refine ⟨by rw [hu, h6 _ (by decide)]; exact h.cax, .inl (by rw [hu]; exact hn _ (by decide)), .inl q1, ?_⟩
    rw [q2]
    rcases hag with ⟨-, e⟩ | ⟨-, e⟩
    · exact .inr (.inl e)
    · exact .inr (.inr e)
  obtain ⟨e, k1, k2, k3, -⟩ := colorbar_ok (env := ⟨true, true⟩) l' s' rc hpl
  obtain ⟨-, -, -, f4, -⟩ := place_good hpl.position hpl.orientation
  refine ⟨d, e, h1, k1, ?_, ?_, ?_, ?_⟩
  · rw [hpos]; rcases hp with e | e <;> simp [opt, e]
  · rw [k3]
    simp only
    rw [f4 q1, q2]
    rcases hp with e | e
    · have : d.grid1.position = .text "top" := by rw [hpos]; simp [opt, e]
      rw [this] at hag
      simp [Agree, vertical, horizontal] at hag
      simp [e, hag]
    · have : d.grid1.position = .text "left" := by rw [hpos]; simp [opt, e]
      rw [this] at hag
      simp [Agree, vertical, horizontal] at hag
      simp [e, hag]
  · rw [k3]; simp only [Kw.get, hu, hn "aspect" (by decide)]; rfl
  · rw [k3]; simp only [Kw.get, hu, hn "shrink" (by decide)]; rfl

/-- **C258 fails**, too, for the ticks of the second plot, which are those chosen for the scale of the first. -/
theorem C258_ticks_violated (l s l' s' : Bool) (rc : Val) (m : Kw) (h : Plain m) (ht : m "ticks" = none) :
    ∃ d e, colorbar ⟨true, true⟩ l s rc .none m = .ok d ∧ colorbar ⟨true, true⟩ l' s' rc .none d.user = .ok e ∧
      e.kw "ticks" = some (if l then .logLocator else if s then .maxNLocator else .linearLocator) := by
  obtain ⟨d, h1, h2, h3, h4, h5, h6, h7, hf, h8, h9, h10⟩ := colorbar_ok (env := ⟨true, true⟩) l s rc h
  obtain ⟨hu, hn⟩ := h9 rfl
  obtain ⟨g1, -⟩ := place_good h.position h.orientation
  have hag : Agree d.grid1.position d.grid1.orientation := by rw [h3]; exact g1
  have hpl : Plain d.user := by
    refine ⟨by rw [hu, h6 _ (by decide)]; exact h.cax, .inl (by rw [hu]; exact hn _ (by decide)), .inl (by rw [hu]; simp [opt, h5]), ?_⟩
    rw [hu]
    simp only [opt, h4, Option.getD_some]
    rcases hag with ⟨-, e⟩ | ⟨-, e⟩
    · exact .inr (.inl e)
    · exact .inr (.inr e)
  obtain ⟨e, k1, -, -, -, -, -, k7, -⟩ := colorbar_ok (env := ⟨true, true⟩) l' s' rc hpl
  refine ⟨d, e, h1, k1, ?_⟩
  rw [k7, hu, h7, ht]
  rfl

/-- **C258, axes given.** A colorbar with axes of its own is drawn in them. -/
theorem C258_cax_partial (env : Env) (l s : Bool) (rc c : Val) (hc : c ≠ .none) (m : Kw) (hu : m "use_grid1" = none ∨ m "use_grid1" = some (.bool false)) :
    ∃ d, colorbar env l s rc c m = .ok d ∧ d.cax = .given c ∧ d.kw "cax" = none ∧
      ∀ k, k ∉ ["ax", "cax", "use_grid1", "position", "orientation", "ticks", "format"] → d.kw k = m k := by
  have hg : (((m.pop "ax").set "cax" c).get "use_grid1" (.bool false)) = .bool false := by
    rcases hu with e | e <;> simp [Kw.get, Kw.set, Kw.pop, e]
  have hown : ((((m.pop "ax").set "cax" c) "cax").isSome || !(((m.pop "ax").set "cax" c).get "use_grid1" (.bool true)).truthy) = true := by
    simp [Kw.set]
  unfold colorbar
  simp only [ne_eq, hc, not_false_eq_true, if_true, hown, Bool.not_true]
  unfold makeAxes
  simp only [hg, ne_eq, not_true_eq_false, if_false, Bool.false_and, Bool.false_eq_true, Bool.true_eq_false]
  refine ⟨_, rfl, ?_, ?_, ?_⟩
  · simp only [Kw.set, Kw.pop]
    cases c <;> simp_all
  · refine (finish_other _ _ _ _ _ (by decide) (by decide)).trans ?_
    simp [Kw.pop]
  · intro k hk
    simp only [List.mem_cons, not_or] at hk
    refine (finish_other _ _ _ _ _ (by tauto) (by tauto)).trans ?_
    simp [Kw.pop, Kw.set, hk]

/-- **C258 fails** for axes given together with `use_grid1=True`: AssertionError. -/
theorem C258_cax_violated (env : Env) (l s : Bool) (rc c : Val) (hc : c ≠ .none) (m : Kw) (hu : m "use_grid1" = some (.bool true)) :
    colorbar env l s rc c m = .error .assertion := by
  simp [colorbar, hc, makeAxes, Kw.get, Kw.set, Kw.pop, hu]

/-- **C258, label of the colorbar.** There is none without labels, or if there is a title that is made from the field; else it
    is the one given, or the name of the field. -/
theorem C258_cbarlabel (title : Val) (label name : String) (hl : label ≠ "") :
    cbarLabel true title (.text label) name = none ∧
    cbarLabel false title (.text label) name = some (.text label) ∧
    cbarLabel false (.bool true) .none name = none ∧
    (∀ t, cbarLabel false (.text t) .none name = some (.text name)) ∧ cbarLabel false .none .none name = some (.text name) := by
  simp [cbarLabel, Val.truthy, hl]

/-- **C258, labels of the axes.** Without labels given they are the names of the axes, swapped if the plot is. -/
theorem C258_labels_partial (namex namey : String) :
    axisLabels true false namex namey .none .none = none ∧
    axisLabels false false namex namey .none .none = some (.text namex, .text namey) ∧
    axisLabels false true namex namey .none .none = some (.text namey, .text namex) := ⟨rfl, rfl, rfl⟩

/-- **C258 fails** for labels that are given: they are not used. -/
theorem C258_labels_violated (flip : Bool) (namex namey : String) (xlabel ylabel : Val) :
    axisLabels false flip namex namey xlabel ylabel = axisLabels false flip namex namey .none .none := rfl

end Viscid.Props
