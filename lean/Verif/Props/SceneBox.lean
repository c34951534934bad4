import Verif.Model.SceneBox
import Mathlib.Tactic.Linarith
import Mathlib.Tactic.Ring
import Mathlib.Tactic.FieldSimp
import Mathlib.Algebra.Order.Field.Rat
/-!
# C257: axes around a scene, fitting and clearing figures
-/
namespace Viscid.Spec.SceneBox
open Viscid.SceneBox (Box Labels Src Engine Figs)

/-- axis `i` of the box has `n` points from `a` to `b`, evenly spaced -/
def Axis (box : Box) (i : Nat) (n : Int) (a b : ℚ) : Prop :=
  box.dims[i]? = some n ∧ box.origin[i]? = some a ∧ ∃ d, box.spacing[i]? = some (some d) ∧ a + (n - 1) * d = b

/-- Which axis is seen, if VTK takes y for z and z for y. -/
def seen (l : Labels) (i : Nat) : Bool :=
  match i with
  | 0 => l.visible.1
  | 1 => l.visible.2.2
  | _ => l.visible.2.1

/-- the source was stopped and removed, and if it has data, that is released (or marked for it) and its names are cleared;
without data nothing else changes -/
def Freed (s t : Src) : Prop :=
  t.id = s.id ∧ t.removed = true ∧ t.started = false ∧
    (s.data ≠ .missing → (t.released = true ∨ t.flag = true) ∧ ∀ n ∈ t.names, n = "") ∧
    (s.data = .missing → t.released = s.released ∧ t.flag = s.flag ∧ t.names = s.names)

/-- The numbers of the figures that the argument of `clear_data` stands for, of `n` figures: the current one, all, or those given -/
def Means (gcf n : Nat) : Figs → List Nat → Prop
  | .current, l => l = [gcf]
  | .all, l => l = List.range n
  | .many m, l => m = l.map some

end Viscid.Spec.SceneBox

namespace Viscid.Props
open Viscid.SceneBox Viscid.Spec.SceneBox

namespace SB

theorem axis_of {m : Int} (h : m - 1 ≠ 0) (a b : ℚ) : a + ((m : ℚ) - 1) * ((b - a) / ((m - 1 : Int) : ℚ)) = b := by
  have h' : ((m - 1 : Int) : ℚ) ≠ 0 := by exact_mod_cast h
  push_cast at h' ⊢
  field_simp
  ring

end SB
open SB

/-- **C257, box.** With limits given as floats, tight axes go from the lower corner to the upper, both moved out by the
    padding, with as many points as there are labels. -/
theorem C257_box_partial (ticks : ℚ → ℚ → List ℚ) (bounds : List ℚ) (x0 x1 x2 y0 y1 y2 : ℚ) (n0 n1 n2 : Int) (padInt : Bool) (p : ℚ)
    (h0 : 2 ≤ n0) (h1 : 2 ≤ n1) (h2 : 2 ≤ n2) :
    ∃ box, fancyBox ticks bounds (some ⟨false, [x0, x1, x2]⟩) (some ⟨false, [y0, y1, y2]⟩) [n0, n1, n2] true false padInt p = .ok box ∧
      Axis box 0 n0 (x0 - p * (y0 - x0)) (y0 + p * (y0 - x0)) ∧ Axis box 1 n1 (x1 - p * (y1 - x1)) (y1 + p * (y1 - x1)) ∧
      Axis box 2 n2 (x2 - p * (y2 - x2)) (y2 + p * (y2 - x2)) := by
  have e0 : n0 - 1 ≠ 0 := by omega
  have e1 : n1 - 1 ≠ 0 := by omega
  have e2 : n2 - 1 ≠ 0 := by omega
  refine ⟨_, rfl, ⟨rfl, rfl, _, ?_, axis_of e0 _ _⟩, ⟨rfl, rfl, _, ?_, axis_of e1 _ _⟩, ⟨rfl, rfl, _, ?_, axis_of e2 _ _⟩⟩
  · simp [e0]
  · simp [e1]
  · simp [e2]

/-- **C257, nice limits.** If the ticks of the locator reach around its interval, axes that are not tight contain the target
    (with padding), and go from tick to tick. -/
theorem C257_nice (ticks : ℚ → ℚ → List ℚ) (ht : ∀ a b, a ≤ b → ∃ l m u, ticks a b = l :: m ∧ (l :: m).getLast? = some u ∧ l ≤ a ∧ b ≤ u)
    (x0 x1 x2 y0 y1 y2 : ℚ) (n0 n1 n2 : Int) (padInt symmetric : Bool) (p : ℚ) (hp : 0 ≤ p)
    (hx0 : x0 ≤ y0) (hx1 : x1 ≤ y1) (hx2 : x2 ≤ y2) (h0 : 2 ≤ n0) (h1 : 2 ≤ n1) (h2 : 2 ≤ n2) :
    ∃ box a0 a1 a2 b0 b1 b2, fancyBox ticks [x0, y0, x1, y1, x2, y2] none none [n0, n1, n2] false symmetric padInt p = .ok box ∧
      Axis box 0 n0 a0 b0 ∧ Axis box 1 n1 a1 b1 ∧ Axis box 2 n2 a2 b2 ∧
      (a0 ≤ x0 ∧ y0 ≤ b0) ∧ (a1 ≤ x1 ∧ y1 ≤ b1) ∧ (a2 ≤ x2 ∧ y2 ≤ b2) ∧
      a0 ∈ ticks (x0 - p * (y0 - x0)) (y0 + p * (y0 - x0)) ∧ b0 ∈ ticks (x0 - p * (y0 - x0)) (y0 + p * (y0 - x0)) := by
  have e0 : n0 - 1 ≠ 0 := by omega
  have e1 : n1 - 1 ≠ 0 := by omega
  have e2 : n2 - 1 ≠ 0 := by omega
  have q0 : 0 ≤ p * (y0 - x0) := mul_nonneg hp (by linarith)
  have q1 : 0 ≤ p * (y1 - x1) := mul_nonneg hp (by linarith)
  have q2 : 0 ≤ p * (y2 - x2) := mul_nonneg hp (by linarith)
  obtain ⟨l0, m0, u0, t0, g0, le0, ge0⟩ := ht (x0 - p * (y0 - x0)) (y0 + p * (y0 - x0)) (by linarith)
  obtain ⟨l1, m1, u1, t1, g1, le1, ge1⟩ := ht (x1 - p * (y1 - x1)) (y1 + p * (y1 - x1)) (by linarith)
  obtain ⟨l2, m2, u2, t2, g2, le2, ge2⟩ := ht (x2 - p * (y2 - x2)) (y2 + p * (y2 - x2)) (by linarith)
  have key : fancyBox ticks [x0, y0, x1, y1, x2, y2] none none [n0, n1, n2] false symmetric padInt p = .ok ⟨[n0, n1, n2], [l0, l1, l2],
      [some ((u0 - l0) / ((n0 - 1 : Int) : ℚ)), some ((u1 - l1) / ((n1 - 1 : Int) : ℚ)), some ((u2 - l2) / ((n2 - 1 : Int) : ℚ))]⟩ := by
    cases symmetric <;>
    simp [fancyBox, broadcast3, subFrom, addTo, niceAll, nice, put, t0, t1, t2, g0, g1, g2, e0, e1, e2, bind, Except.bind]
  refine ⟨_, l0, l1, l2, u0, u1, u2, key, ⟨rfl, rfl, _, rfl, axis_of e0 _ _⟩, ⟨rfl, rfl, _, rfl, axis_of e1 _ _⟩,
    ⟨rfl, rfl, _, rfl, axis_of e2 _ _⟩, ⟨by linarith, by linarith⟩, ⟨by linarith, by linarith⟩, ⟨by linarith, by linarith⟩, ?_, ?_⟩
  · rw [t0]; simp
  · rw [t0]; exact List.mem_of_getLast? g0

/-- such ticks exist: the ends of the interval -/
example : ∀ a b : ℚ, a ≤ b → ∃ l m u, (fun a b : ℚ => [a, b]) a b = l :: m ∧ (l :: m).getLast? = some u ∧ l ≤ a ∧ b ≤ u :=
  fun a b _ => ⟨a, [b], b, rfl, rfl, le_refl _, le_refl _⟩

/-- **C257 fails** for symmetric axes, which are the same as those that are neither symmetric nor tight: limits do not add
    up to zero unless they do by themselves. -/
theorem C257_symmetric_violated :
    (∀ ticks bounds xl xh nb tight padInt p,
      fancyBox ticks bounds xl xh nb tight true padInt p = fancyBox ticks bounds xl xh nb false false padInt p) ∧
    ∀ x y : ℚ, ∃ box, fancyBox (fun a b => [a, b]) [x, y, x, y, x, y] none none [5] false true false 0 = .ok box ∧ Axis box 0 5 x y := by
  refine ⟨fun _ _ _ _ _ _ _ _ => rfl, fun x y => ⟨_, rfl, ?_⟩⟩
  refine ⟨rfl, by simp [put], (y - x) / ((5 - 1 : Int) : ℚ), by simp [put]; norm_num, axis_of (by decide) x y⟩

/-- **C257 fails** for limits that are integers, with the padding as a fraction: TypeError, whatever they are. -/
theorem C257_integer_violated (ticks : ℚ → ℚ → List ℚ) (bounds : List ℚ) (a b : Arr) (n : Int) (tight symmetric : Bool) (p : ℚ)
    (ha : a.v.length = 1 ∨ a.v.length = 3) (hb : b.v.length = 1 ∨ b.v.length = 3) (h : a.int = true ∨ b.int = true) :
    fancyBox ticks bounds (some a) (some b) [n] tight symmetric false p = .error .type := by
  have key : ∀ c : Arr, (c.v.length = 1 ∨ c.v.length = 3) → ∃ v, broadcast3 c = .ok ⟨c.int, v⟩ := by
    rintro ⟨k, v⟩ hv
    match v, hv with
    | [x], _ => exact ⟨_, rfl⟩
    | [x, y, z], _ => exact ⟨_, rfl⟩
    | [], hv => simp at hv
    | [_, _], hv => simp at hv
    | _ :: _ :: _ :: _ :: _, hv => simp at hv
  obtain ⟨v, e1⟩ := key a ha
  obtain ⟨w, e2⟩ := key b hb
  simp only [fancyBox, Option.getD_some, e1, e2, bind, Except.bind, subFrom, addTo, Bool.false_and, Bool.not_false, Bool.and_true]
  cases h1 : a.int with
  | true => simp
  | false =>
    have h2 : b.int = true := by simpa [h1] using h
    simp [h2]

example : (⟨true, [-10]⟩ : Arr).v.length = 1 ∧ (⟨false, [1, 2, 3 / 2]⟩ : Arr).v.length = 3 := ⟨rfl, rfl⟩

/-- **C257 fails** for one label along an axis: the spacing is not a number. -/
theorem C257_one_violated (ticks : ℚ → ℚ → List ℚ) (bounds : List ℚ) (x0 x1 x2 y0 y1 y2 : ℚ) (n1 n2 : Int) (padInt : Bool) (p : ℚ) :
    ∃ box, fancyBox ticks bounds (some ⟨false, [x0, x1, x2]⟩) (some ⟨false, [y0, y1, y2]⟩) [1, n1, n2] true false padInt p = .ok box ∧
      box.spacing[0]? = some none :=
  ⟨_, rfl, by simp⟩

/-- **C257, labels.** Without labels there are none. Equal numbers, if consolidated, are one set of labels of all axes with
    that number; else there are three sets: the i-th is seen along axis i only, and has the number of that axis. -/
theorem C257_labels (labels consolidate : Bool) (n0 n1 n2 : Int) :
    (labels = false → fancyLabels labels consolidate [n0, n1, n2] = []) ∧
    (labels = true → consolidate = true → n1 = n0 → n2 = n0 →
      ∃ l, fancyLabels labels consolidate [n0, n1, n2] = [l] ∧ l.number = n0 ∧ ∀ i, seen l i = true) ∧
    (labels = true → (consolidate = false ∨ n1 ≠ n0 ∨ n2 ≠ n0) →
      (fancyLabels labels consolidate [n0, n1, n2]).length = 3 ∧
      ∀ (i : Nat) (n : Int), [n0, n1, n2][i]? = some n → ∃ l, (fancyLabels labels consolidate [n0, n1, n2])[i]? = some l ∧ l.number = n ∧
        ∀ j, j < 3 → (seen l j = true ↔ j = i)) := by
  refine ⟨fun h => by simp [fancyLabels, h], fun h1 h2 h3 h4 => ?_, fun h1 h2 => ?_⟩
  · subst h1 h2 h3 h4
    exact ⟨⟨"axes-labels", (true, true, true), n2⟩, by simp [fancyLabels], rfl, fun i => by unfold seen; split <;> rfl⟩
  · have e : fancyLabels labels consolidate [n0, n1, n2] = [labelsOf [n0, n1, n2] 0, labelsOf [n0, n1, n2] 1, labelsOf [n0, n1, n2] 2] := by
      subst h1
      unfold fancyLabels
      rw [if_pos rfl, if_neg]
      rcases h2 with h | h | h <;> simp [h]
    rw [e]
    refine ⟨rfl, fun i n hi => ?_⟩
    match i, hi with
    | 0, hi =>
      cases hi
      exact ⟨_, rfl, rfl, fun j hj => by (have : j = 0 ∨ j = 1 ∨ j = 2 := by omega); rcases this with rfl | rfl | rfl <;> simp [seen, labelsOf]⟩
    | 1, hi =>
      cases hi
      exact ⟨_, rfl, rfl, fun j hj => by (have : j = 0 ∨ j = 1 ∨ j = 2 := by omega); rcases this with rfl | rfl | rfl <;> simp [seen, labelsOf]⟩
    | 2, hi =>
      cases hi
      exact ⟨_, rfl, rfl, fun j hj => by (have : j = 0 ∨ j = 1 ∨ j = 2 := by omega); rcases this with rfl | rfl | rfl <;> simp [seen, labelsOf]⟩
    | n + 3, hi => simp at hi

/-- **C257, fit.** A figure is fitted if that is asked for and not if it is asked not to. -/
theorem C257_fit_partial (hasAx fit : Bool) (fignums : List Nat) : fits hasAx (some fit) fignums = fit := by
  cases hasAx <;> cases fit <;> rfl

/-- **C257 fails** for `fit=None`, which should fit if there is no figure yet: it never fits, also without figures. -/
theorem C257_fit_violated (hasAx : Bool) (fignums : List Nat) : fits hasAx none fignums = false := by
  cases hasAx <;> rfl

/-! ## clearing -/

namespace SB

theorem freed (s : Src) : Freed s (removeSource s) := by
  unfold removeSource Freed
  cases h : s.data <;> simp

theorem fold_gone (i : Nat) (l : List Src) : ∀ e : Engine, (l.foldl (removeFrom i) e).gone = e.gone ++ l.map removeSource := by
  induction l with
  | nil => intro e; simp
  | cons s l ih => intro e; rw [List.foldl_cons, ih]; simp [removeFrom]

theorem fold_scene (i j : Nat) (l : List Src) : ∀ e : Engine, (l.foldl (removeFrom i) e).scenes[j]? =
    if j = i then (e.scenes[j]?).map (fun c => c.filter fun s => ∀ t ∈ l, s.id ≠ t.id) else e.scenes[j]? := by
  induction l with
  | nil =>
    intro e
    split
    · rw [List.foldl_nil]
      cases h : e.scenes[j]? <;> simp
    · rfl
  | cons s l ih =>
    intro e
    rw [List.foldl_cons, ih]
    by_cases h : j = i
    · subst h
      simp only [if_true, removeFrom, List.getElem?_modify]
      cases e.scenes[j]? with
      | none => rfl
      | some c =>
        rw [Option.map_eq_map, Option.map_some, Option.map_some, Option.map_some, List.filter_filter]
        refine congrArg some ?_
        apply List.filter_congr
        intro t _
        rw [← Bool.decide_and]
        apply decide_eq_decide.2
        simp only [List.forall_mem_cons]
        exact and_comm
    · simp only [if_neg h, removeFrom, List.getElem?_modify]
      have h' : ¬ i = j := fun k => h k.symm
      simp only [if_neg h']
      cases e.scenes[j]? <;> rfl

theorem clearFig_scene (i j : Nat) (e : Engine) : (clearFig i e).scenes[j]? = if j = i then (e.scenes[j]?).map fun _ => [] else e.scenes[j]? := by
  unfold clearFig
  rw [fold_scene]
  by_cases h : j = i
  · subst h
    simp only [if_true]
    cases hs : e.scenes[j]? with
    | none => rfl
    | some c =>
      simp only [Option.map_some, Option.some.injEq, List.getD_eq_getElem?_getD, hs, Option.getD_some]
      rw [List.filter_eq_nil_iff]
      intro s hc hf
      simp only [decide_eq_true_eq] at hf
      exact hf s hc rfl
  · simp [if_neg h]

theorem clearFig_gone (i : Nat) (e : Engine) : (clearFig i e).gone = e.gone ++ (e.scenes.getD i []).map removeSource := fold_gone i _ e

theorem clearList_spec : ∀ (l : List Nat) (e : Engine), ∃ e', clearList (l.map some) e = (.ok (), e') ∧
    (∀ j : Nat, e'.scenes[j]? = if j ∈ l then (e.scenes[j]?).map fun _ => [] else e.scenes[j]?) ∧
    (∀ s ∈ e.gone, s ∈ e'.gone) ∧
    (∀ j ∈ l, ∀ s ∈ e.scenes.getD j [], removeSource s ∈ e'.gone) ∧
    (∀ t ∈ e'.gone, t ∈ e.gone ∨ ∃ j ∈ l, ∃ s ∈ e.scenes.getD j [], t = removeSource s)
  | [], e => ⟨e, rfl, by simp, by simp, by simp, by simp⟩
  | i :: l, e => by
    obtain ⟨e', h1, h2, h3, h4, h5⟩ := clearList_spec l (clearFig i e)
    refine ⟨e', h1, ?_, ?_, ?_, ?_⟩
    · intro j
      rw [h2, clearFig_scene]
      by_cases hji : j = i
      · subst hji
        by_cases hjl : j ∈ l <;> cases e.scenes[j]? <;> simp [hjl]
      · by_cases hjl : j ∈ l <;> simp [hjl, hji]
    · intro s hs
      exact h3 s (by rw [clearFig_gone]; simp [hs])
    · intro j hj s hs
      rcases List.mem_cons.1 hj with rfl | hj
      · exact h3 _ (by rw [clearFig_gone]; exact List.mem_append_right _ (List.mem_map_of_mem hs))
      · by_cases hji : j = i
        · subst hji
          exact h3 _ (by rw [clearFig_gone]; exact List.mem_append_right _ (List.mem_map_of_mem hs))
        · apply h4 j hj
          simp only [List.getD_eq_getElem?_getD, clearFig_scene, if_neg hji]
          simpa [List.getD_eq_getElem?_getD] using hs
    · intro t ht
      rcases h5 t ht with h | ⟨j, hj, s, hs, rfl⟩
      · rw [clearFig_gone] at h
        rcases List.mem_append.1 h with h | h
        · exact .inl h
        · obtain ⟨s, hs, rfl⟩ := List.mem_map.1 h
          exact .inr ⟨i, by simp, s, hs, rfl⟩
      · by_cases hji : j = i
        · subst hji
          simp only [List.getD_eq_getElem?_getD, clearFig_scene, if_true] at hs
          cases hc : e.scenes[j]? <;> rw [hc] at hs <;> simp at hs
        · simp only [List.getD_eq_getElem?_getD, clearFig_scene, if_neg hji] at hs
          exact .inr ⟨j, by simp [hj], s, by simpa [List.getD_eq_getElem?_getD] using hs, rfl⟩

end SB

/-- **C257, clear.** `clear_data` of figures: every source of them is removed, once stopped and with its data released, and
    none of any other figure is; the figures are then empty. With "all" they are all figures, with None the current one. -/
theorem C257_clear (gcf : Nat) (figs : Figs) (e : Engine) (l : List Nat)
    (hl : Means gcf e.scenes.length figs l) :
    ∃ e', clearData (some gcf) figs e = (.ok (), e') ∧
      (∀ j : Nat, e'.scenes[j]? = if j ∈ l then (e.scenes[j]?).map fun _ => [] else e.scenes[j]?) ∧
      (∀ j ∈ l, ∀ s ∈ e.scenes.getD j [], ∃ t ∈ e'.gone, Freed s t) ∧
      (∀ t ∈ e'.gone, t ∈ e.gone ∨ ∃ j ∈ l, ∃ s ∈ e.scenes.getD j [], Freed s t) := by
  obtain ⟨e', h1, h2, h3, h4, h5⟩ := clearList_spec l e
  have hfin : (∀ j ∈ l, ∀ s ∈ e.scenes.getD j [], ∃ t ∈ e'.gone, Freed s t) ∧
      (∀ t ∈ e'.gone, t ∈ e.gone ∨ ∃ j ∈ l, ∃ s ∈ e.scenes.getD j [], Freed s t) := by
    refine ⟨fun j hj s hs => ⟨_, h4 j hj s hs, freed s⟩, fun t ht => ?_⟩
    rcases h5 t ht with h | ⟨j, hj, s, hs, rfl⟩
    · exact .inl h
    · exact .inr ⟨j, hj, s, hs, freed s⟩
  refine ⟨e', ?_, h2, hfin⟩
  have key : (if (l.map some).all (·.isNone) then (Except.ok (), e) else clearList (l.map some) e) = (Except.ok (), e') := by
    by_cases hn : l = []
    · subst hn
      simpa [clearList] using h1
    · rw [if_neg, h1]
      cases l with
      | nil => exact absurd rfl hn
      | cons a l => simp
  cases figs with
  | current =>
    have : l = [gcf] := hl
    subst this
    exact key
  | all =>
    have : l = List.range e.scenes.length := hl
    subst this
    exact key
  | many m =>
    have : m = l.map some := hl
    subst this
    exact key

/-- Two scenes, one of which is cleared. -/
example : clearData (some 0) (.many [some 1]) ⟨[[⟨0, .releases, false, false, ["b"], true, false⟩], [⟨1, .trait, false, false, ["v"], true, false⟩]], []⟩ =
    (.ok (), ⟨[[⟨0, .releases, false, false, ["b"], true, false⟩], []], [⟨1, .trait, false, true, [""], false, true⟩]⟩) := by decide

/-- **C257, no figure.** With no figure at all nothing happens; None among figures is an error, after those before it. -/
theorem C257_clear_none (gcf : Option Nat) (e : Engine) :
    (∀ n, clearData gcf (.many (List.replicate n none)) e = (.ok (), e)) ∧
    (clearData none .current e = (.ok (), e)) ∧
    ∀ (a : Nat) (l : List Nat) (m : List (Option Nat)), clearData gcf (.many ((a :: l).map some ++ none :: m)) e =
      (.error .attribute, (clearData gcf (.many ((a :: l).map some)) e).2) := by
  refine ⟨fun n => ?_, rfl, fun a l m => ?_⟩
  · unfold clearData
    simp
  · unfold clearData
    simp only [List.map_cons, List.cons_append, List.all_cons, Option.isNone_some, Bool.false_and, Bool.false_eq_true, if_false, clearList]
    generalize clearFig a e = e
    induction l generalizing e with
    | nil => rfl
    | cons b l ih => simp only [List.map_cons, List.cons_append, clearList]; exact ih _

end Viscid.Props
