import Verif.Model.Polar
import Verif.Props.MapField
import Mathlib.Analysis.Real.Pi.Bounds
/-!
# C142 points and C143 fields for polar plots
-/
namespace Viscid.Props
open Viscid.MapField Viscid.Spec.MapField Viscid.Polar

variable {α : Type}

theorem takeWhile_get (p : ℝ → Bool) (l : List ℝ) (h : l.Pairwise fun a b => p b = true → p a = true) (j : Nat) (y : ℝ) :
    (l.takeWhile p)[j]? = some y ↔ p y = true ∧ l[j]? = some y := by
  induction l generalizing j with
  | nil => simp
  | cons a r ih =>
    rw [List.pairwise_cons] at h
    by_cases ha : p a = true
    · rw [List.takeWhile_cons_of_pos ha]
      cases j with
      | zero =>
        simp only [List.getElem?_cons_zero, Option.some.injEq]
        exact ⟨fun e => ⟨e ▸ ha, e⟩, fun e => e.2⟩
      | succ j => simp only [List.getElem?_cons_succ]; exact ih h.2 j
    · rw [List.takeWhile_cons_of_neg ha]
      simp only [List.getElem?_nil, reduceCtorEq, false_iff, not_and]
      intro hy he
      rw [List.getElem?_eq_some_iff] at he
      obtain ⟨hlt, rfl⟩ := he
      cases j with
      | zero => exact ha hy
      | succ j => exact ha (h.1 _ (List.getElem_mem ..) hy)

/-- the colatitude within which a pole is shown, in radians -/
theorem deg_abs (b : ℝ) : |Real.pi / 180 * b| = inUnits "deg" "rad" |b| := by
  rw [abs_mul, abs_of_pos (by have := Real.pi_pos; positivity)]
  simp [inUnits]; ring

theorem not_north {h : String} (hs : IsSouth h) : ¬ (h = "north" ∨ h = "n") := by rcases hs with rfl | rfl <;> decide

theorem toPole_north {h : String} (hn : IsNorth h) (x : ℝ) : toPole h x = Real.pi / 2 - x := by
  unfold toPole; rw [if_pos hn]; ring

theorem toPole_south {h : String} (hs : ¬ IsNorth h) (x : ℝ) : toPole h x = Real.pi / 2 + x := by
  unfold toPole; rw [if_neg hs]; ring

theorem hasValue_map (f : Fld α) (h0 : f.ax0.name = "lon") (h1 : f.ax1.name = "lat") (x y : ℝ) (c : Nat) (v : α) :
    HasValue f "lon" x "lat" y c v ↔ ∃ i j, f.ax0.crds[i]? = some x ∧ f.ax1.crds[j]? = some y ∧ value f i j c = v := by
  unfold HasValue
  constructor
  · rintro ⟨i, j, ⟨_, _, h3, h4⟩ | ⟨h, _⟩, hv⟩
    · exact ⟨i, j, h3, h4, hv⟩
    · rw [h0] at h; simp at h
  · rintro ⟨i, j, h3, h4, hv⟩; exact ⟨i, j, .inl ⟨h0, h1, h3, h4⟩, hv⟩

/-- a map as polar field: without periodicity -/
theorem polar_core (f m : Fld α) (hm : asMapfield f ["lon", "lat"] (.str "rad") = .ok m) (h0 : m.ax0.name = "lon") (h1 : m.ax1.name = "lat")
    (hl : m.layout = .scalar) (hasc : m.ax1.crds.Pairwise (· < ·)) (b : ℝ) (hemi : String) :
    (IsNorth hemi → (∃ y ∈ m.ax1.crds, inUnits "deg" "rad" |b| ≤ y) → ∃ g, asPolar f (some b) hemi false = .ok g ∧
      g.ax0.crds = m.ax0.crds ∧ g.ax0.name = "lon" ∧ g.ax1.name = "lat" ∧ g.layout = .scalar ∧ g.ax1.crds.Pairwise (· < ·) ∧
      ∀ x y c v, HasValue g "lon" x "lat" y c v ↔ y ≤ inUnits "deg" "rad" |b| ∧ HasValue m "lon" x "lat" (Real.pi / 2 - y) c v) ∧
    (IsSouth hemi → (∃ y ∈ m.ax1.crds, y ≤ - inUnits "deg" "rad" |b|) → ∃ g, asPolar f (some b) hemi false = .ok g ∧
      g.ax0.crds = m.ax0.crds ∧ g.ax0.name = "lon" ∧ g.ax1.name = "lat" ∧ g.layout = .scalar ∧ g.ax1.crds.Pairwise (· < ·) ∧
      ∀ x y c v, HasValue g "lon" x "lat" y c v ↔ y ≤ inUnits "deg" "rad" |b| ∧ HasValue m "lon" x "lat" (y - Real.pi / 2) c v) := by
  constructor
  · intro hn ⟨y0, hy0, hb0⟩
    have hsel : latSel m.ax1.crds b hemi =
        .ok (m.ax1.crds.reverse.takeWhile fun x => decide (Real.pi / 2 - inUnits "deg" "rad" |b| ≤ x), true) := by
      unfold latSel
      simp only
      rw [if_pos hn, if_neg]
      · rw [deg_abs]
      · rw [deg_abs]
        push Not
        exact ⟨y0, hy0, hb0⟩
    have hpw : m.ax1.crds.reverse.Pairwise fun a c =>
        decide (Real.pi / 2 - inUnits "deg" "rad" |b| ≤ c) = true → decide (Real.pi / 2 - inUnits "deg" "rad" |b| ≤ a) = true := by
      rw [List.pairwise_reverse]
      exact hasc.imp fun {a c} h hc => decide_eq_true ((of_decide_eq_true hc).trans h.le)
    refine ⟨⟨⟨m.ax0.name, "", m.ax0.crds⟩, ⟨m.ax1.name, "",
      (m.ax1.crds.reverse.takeWhile fun x => decide (Real.pi / 2 - inUnits "deg" "rad" |b| ≤ x)).map (toPole hemi)⟩, m.layout, reverse m 1⟩, ?_, ?_⟩
    · unfold asPolar
      rw [hm]
      simp only [bounding, hsel, hl, Bool.false_eq_true, if_false, if_true]
    refine ⟨rfl, h0, h1, hl, ?_, ?_⟩
    · simp only
      rw [List.pairwise_map]
      refine List.Pairwise.sublist (List.takeWhile_sublist _) ?_
      rw [List.pairwise_reverse]
      exact hasc.imp fun {a c} h => by rw [toPole_north hn, toPole_north hn]; linarith
    · intro x y c v
      refine (hasValue_map _ (by exact h0) (by exact h1) x y c v).trans ?_
      rw [hasValue_map m h0 h1]
      have hval : ∀ i j, value (⟨⟨m.ax0.name, "", m.ax0.crds⟩, ⟨m.ax1.name, "",
          (m.ax1.crds.reverse.takeWhile fun x => decide (Real.pi / 2 - inUnits "deg" "rad" |b| ≤ x)).map (toPole hemi)⟩, m.layout,
          reverse m 1⟩ : Fld α) i j c = value m i (m.ax1.crds.length - 1 - j) c := by
        intro i j
        have := value_reverse m 1 (.inr rfl) (fun _ _ => rfl) ⟨⟨m.ax0.name, "", m.ax0.crds⟩, ⟨m.ax1.name, "",
          (m.ax1.crds.reverse.takeWhile fun x => decide (Real.pi / 2 - inUnits "deg" "rad" |b| ≤ x)).map (toPole hemi)⟩, m.layout,
          reverse m 1⟩ rfl (by unfold ddat; rw [hl]) i j c
        simpa using this
      have hcrd : ∀ j : Nat, ((m.ax1.crds.reverse.takeWhile fun x => decide (Real.pi / 2 - inUnits "deg" "rad" |b| ≤ x)).map (toPole hemi))[j]? =
          some y ↔ y ≤ inUnits "deg" "rad" |b| ∧ m.ax1.crds.reverse[j]? = some (Real.pi / 2 - y) := by
        intro j
        rw [List.getElem?_map, Option.map_eq_some_iff]
        constructor
        · rintro ⟨z, hz, he⟩
          rw [takeWhile_get _ _ hpw] at hz
          rw [toPole_north hn] at he
          obtain rfl : z = Real.pi / 2 - y := by linarith
          have := of_decide_eq_true hz.1
          exact ⟨by linarith, hz.2⟩
        · rintro ⟨hy, hz⟩
          exact ⟨_, (takeWhile_get _ _ hpw j _).mpr ⟨decide_eq_true (by linarith), hz⟩, by rw [toPole_north hn]; ring⟩
      constructor
      · rintro ⟨i, j, hi, hj, hv⟩
        obtain ⟨hy, hj⟩ := (hcrd j).mp hj
        have hlt : j < m.ax1.crds.length := by simpa using (List.getElem?_eq_some_iff.mp hj).1
        refine ⟨hy, i, m.ax1.crds.length - 1 - j, hi, ?_, ?_⟩
        · rw [← List.getElem?_reverse hlt]; exact hj
        · rw [← hval]; exact hv
      · rintro ⟨hy, i, j, hi, hj, hv⟩
        have hlt : j < m.ax1.crds.length := (List.getElem?_eq_some_iff.mp hj).1
        refine ⟨i, m.ax1.crds.length - 1 - j, hi, (hcrd _).mpr ⟨hy, ?_⟩, ?_⟩
        · rw [List.getElem?_reverse (by omega), show m.ax1.crds.length - 1 - (m.ax1.crds.length - 1 - j) = j by omega]
          exact hj
        · refine (hval _ _).trans ?_
          rw [show m.ax1.crds.length - 1 - (m.ax1.crds.length - 1 - j) = j by omega]
          exact hv
  · intro hs ⟨y0, hy0, hb0⟩
    have hnn : ¬ IsNorth hemi := not_north hs
    have hsel : latSel m.ax1.crds b hemi =
        .ok (m.ax1.crds.takeWhile fun x => decide (x ≤ - Real.pi / 2 + inUnits "deg" "rad" |b|), false) := by
      unfold latSel
      simp only
      rw [if_neg hnn, if_pos hs, if_neg]
      · rw [deg_abs]
      · rw [deg_abs]
        push Not
        exact ⟨y0, hy0, hb0⟩
    have hpw : m.ax1.crds.Pairwise fun a c =>
        decide (c ≤ - Real.pi / 2 + inUnits "deg" "rad" |b|) = true → decide (a ≤ - Real.pi / 2 + inUnits "deg" "rad" |b|) = true :=
      hasc.imp fun {a c} h hc => decide_eq_true (h.le.trans (of_decide_eq_true hc))
    refine ⟨⟨⟨m.ax0.name, "", m.ax0.crds⟩, ⟨m.ax1.name, "",
      (m.ax1.crds.takeWhile fun x => decide (x ≤ - Real.pi / 2 + inUnits "deg" "rad" |b|)).map (toPole hemi)⟩, m.layout, m.data⟩, ?_, ?_⟩
    · unfold asPolar
      rw [hm]
      simp only [bounding, hsel, hl, Bool.false_eq_true, if_false]
    refine ⟨rfl, h0, h1, hl, ?_, ?_⟩
    · simp only
      rw [List.pairwise_map]
      refine List.Pairwise.sublist (List.takeWhile_sublist _) ?_
      exact hasc.imp fun {a c} h => by rw [toPole_south hnn, toPole_south hnn]; linarith
    · intro x y c v
      refine (hasValue_map _ (by exact h0) (by exact h1) x y c v).trans ?_
      rw [hasValue_map m h0 h1]
      have hcrd : ∀ j : Nat, ((m.ax1.crds.takeWhile fun x => decide (x ≤ - Real.pi / 2 + inUnits "deg" "rad" |b|)).map (toPole hemi))[j]? =
          some y ↔ y ≤ inUnits "deg" "rad" |b| ∧ m.ax1.crds[j]? = some (y - Real.pi / 2) := by
        intro j
        rw [List.getElem?_map, Option.map_eq_some_iff]
        constructor
        · rintro ⟨z, hz, he⟩
          rw [takeWhile_get _ _ hpw] at hz
          rw [toPole_south hnn] at he
          obtain rfl : z = y - Real.pi / 2 := by linarith
          have := of_decide_eq_true hz.1
          exact ⟨by linarith, hz.2⟩
        · rintro ⟨hy, hz⟩
          exact ⟨_, (takeWhile_get _ _ hpw j _).mpr ⟨decide_eq_true (by linarith), hz⟩, by rw [toPole_south hnn]; ring⟩
      constructor
      · rintro ⟨i, j, hi, hj, hv⟩
        obtain ⟨hy, hj⟩ := (hcrd j).mp hj
        exact ⟨hy, i, j, hi, hj, hv⟩
      · rintro ⟨hy, i, j, hi, hj, hv⟩
        exact ⟨i, j, hi, (hcrd _).mpr ⟨hy, hj⟩, hv⟩

/-- C143: of a scalar field of phi and theta, in either order and in degrees or radians, with increasing colatitudes, a polar field has all
    values within an angle `b` of its pole, and no others: each at the same longitude, and at its angle from the pole (in radians). This
    is provided that, on the side of the pole, some latitude is beyond `b` (see `C143_check_violated`). -/
theorem C143_polar_partial (f : Fld α) (u : String) (lp lt : List ℝ) (hu : IsAngle u)
    (hf : f.ax0 = ⟨"phi", u, lp⟩ ∧ f.ax1 = ⟨"theta", u, lt⟩ ∨ f.ax1 = ⟨"phi", u, lp⟩ ∧ f.ax0 = ⟨"theta", u, lt⟩)
    (hl : f.layout = .scalar) (hrange : ∀ y ∈ lt, 0 ≤ y ∧ y ≤ inUnits "deg" u 180) (hasc : lt.Pairwise (· < ·)) (b : ℝ) (hemi : String)
    (hh : IsNorth hemi ∨ IsSouth hemi)
    (hcheck : ∃ y ∈ lt, inUnits "deg" u |b| ≤ (if IsNorth hemi then right u - y else y - right u)) :
    ∃ g, asPolar f (some b) hemi false = .ok g ∧ g.ax0 = ⟨"lon", "", lp.map (inUnits u "rad")⟩ ∧ g.ax1.name = "lat" ∧
      g.layout = .scalar ∧ g.ax1.crds.Pairwise (· < ·) ∧
      ∀ x y c v, HasValue g "lon" (inUnits u "rad" x) "lat" (if IsNorth hemi then inUnits u "rad" y else Real.pi - inUnits u "rad" y) c v ↔
        (if IsNorth hemi then y else inUnits "deg" u 180 - y) ≤ inUnits "deg" u |b| ∧ HasValue f "phi" x "theta" y c v := by
  have hpi := Real.pi_pos
  obtain ⟨m, hm, mm⟩ := C141_mapfield_partial f u "rad" lp lt hu (.inr rfl) hf (fun n h => by rw [hl] at h; simp at h) hrange
    ["lon", "lat"] (.inl rfl) (.str "rad") (.inl rfl)
  have hp : HasAxis f "phi" u lp := by rcases hf with ⟨h, _⟩ | ⟨h, _⟩; exacts [.inl h, .inr h]
  have ht : HasAxis f "theta" u lt := by rcases hf with ⟨_, h⟩ | ⟨_, h⟩; exacts [.inr h, .inl h]
  have g0 := (hasAxis_names mm.names (by decide) (mm.along lp hp)).1 rfl
  have g1 := (hasAxis_names mm.names (by decide) (mm.across lt ht)).2 rfl
  have hr : right "rad" = Real.pi / 2 := by simp [right, inUnits]; ring
  -- angles in radians are in the same order
  have hle : ∀ x y, inUnits u "rad" x ≤ inUnits u "rad" y ↔ x ≤ y := by
    intro x y
    rcases hu with rfl | rfl <;> simp [inUnits]
    rw [div_le_div_iff_of_pos_right (by norm_num), mul_le_mul_iff_left₀ hpi]
  have hlt : ∀ x y, inUnits u "rad" x < inUnits u "rad" y ↔ x < y := by
    intro x y
    rw [← not_le, ← not_le, hle]
  have hdeg : ∀ x, inUnits "deg" "rad" x = inUnits u "rad" (inUnits "deg" u x) := by
    intro x
    rcases hu with rfl | rfl <;> simp [inUnits]
  have hright : inUnits u "rad" (right u) = Real.pi / 2 := by
    rw [← hr]
    unfold right
    rw [← hdeg]
  have h180 : inUnits u "rad" (inUnits "deg" u 180) = Real.pi := by
    rw [← hdeg]; simp [inUnits]
  have hmasc : m.ax1.crds.Pairwise (· < ·) := by
    rw [g1]
    simp only
    rw [List.pairwise_reverse, List.pairwise_map]
    exact hasc.imp fun {a c} h => by
      have := (hlt a c).mpr h
      linarith
  have core := polar_core f m hm (by rw [g0]) (by rw [g1]) (mm.layout.trans hl) hmasc b hemi
  obtain ⟨y0, hy0, hc⟩ := hcheck
  have hmem : Real.pi / 2 - inUnits u "rad" y0 ∈ m.ax1.crds := by
    rw [g1, ← hr]
    exact List.mem_reverse.mpr (List.mem_map.mpr ⟨y0, hy0, rfl⟩)
  have hax : ∀ g : Fld α, asPolar f (some b) hemi false = .ok g → g.ax0 = ⟨m.ax0.name, "", m.ax0.crds⟩ := by
    intro g hg
    unfold asPolar at hg
    rw [hm] at hg
    simp only at hg
    split at hg
    · cases hg
    · rw [mm.layout.trans hl] at hg
      simp only [Bool.false_eq_true, if_false] at hg
      injection hg with hg
      rw [← hg]
  rcases hh with hn | hs
  · rw [if_pos hn] at hc
    obtain ⟨g, hg, e0, n0, n1, l0, asc, vals⟩ := core.1 hn ⟨_, hmem, by
      have := (hle _ _).mpr hc
      rw [inUnits_sub, hright] at this
      rw [hdeg]; exact this⟩
    refine ⟨g, hg, ?_, n1, l0, asc, ?_⟩
    · rw [hax g hg, g0]
    · intro x y c v
      rw [if_pos hn, if_pos hn, vals, mm.values, hr, hdeg, hle]
  · have hnn : ¬ IsNorth hemi := not_north hs
    rw [if_neg hnn] at hc
    obtain ⟨g, hg, e0, n0, n1, l0, asc, vals⟩ := core.2 hs ⟨_, hmem, by
      have := (hle _ _).mpr hc
      rw [inUnits_sub, hright] at this
      rw [hdeg]; linarith⟩
    refine ⟨g, hg, ?_, n1, l0, asc, ?_⟩
    · rw [hax g hg, g0]
    · intro x y c v
      rw [if_neg hnn, if_neg hnn, vals, mm.values, hr, hdeg]
      have e1 : Real.pi - inUnits u "rad" y = inUnits u "rad" (inUnits "deg" u 180 - y) := by rw [inUnits_sub, h180]
      have e2 : Real.pi - inUnits u "rad" y - Real.pi / 2 = Real.pi / 2 - inUnits u "rad" y := by ring
      rw [e2, e1, hle]

/-- C143: with `make_periodic`, unless all around there already, there is one more longitude, a full turn after the first one and with its
    values; all else is as it was. -/
theorem C143_periodic_partial (f : Fld α) (hl : f.layout = .scalar) (a : ℝ) (r : List ℝ) (b : ℝ) (ha : f.ax0.crds = a :: r)
    (hb : f.ax0.crds.getLast? = some b) :
    (2 * Real.pi - 1 / 100000 ≤ b - a → periodic f = .ok f) ∧
    (b - a < 2 * Real.pi - 1 / 100000 → ∃ g, periodic f = .ok g ∧ g.ax0.crds = f.ax0.crds ++ [a + 2 * Real.pi] ∧ g.ax1 = f.ax1 ∧
      g.ax0.name = f.ax0.name ∧ g.layout = .scalar ∧
      (∀ i j c, i < f.ax0.crds.length → value g i j c = value f i j c) ∧
      ∀ j c, value g f.ax0.crds.length j c = value f 0 j c) := by
  have hh : f.ax0.crds.head? = some a := by rw [ha]; rfl
  unfold periodic
  rw [hh, hb]
  simp only
  refine ⟨fun h => if_neg (not_lt.mpr h), fun h => ?_⟩
  rw [if_pos h]
  refine ⟨_, rfl, rfl, rfl, rfl, hl, ?_, ?_⟩
  · intro i j c hi
    unfold value
    simp only [hl]
    simp [hi.ne]
  · intro j c
    unfold value
    simp only [hl]
    simp

/-- C143 is false of uniform coordinates: of `n` longitudes all around, the new last one is not a full turn after the first, and as many as
    there were are for one more row of data -/
theorem C143_uniform_violated (xl : ℝ) (n : Nat) (hn : 2 ≤ n) :
    let r := periodicUniform xl (xl + (2 * Real.pi - 2 * Real.pi / n)) n
    r.2.1 < xl + 2 * Real.pi ∧ r.2.2 ≠ n + 1 := by
  have hpi := Real.pi_pos
  have hn' : (2 : ℝ) ≤ n := by exact_mod_cast hn
  simp only [periodicUniform]
  refine ⟨?_, by omega⟩
  have : xl + (2 * Real.pi - 2 * Real.pi / n) + (xl + (2 * Real.pi - 2 * Real.pi / n) - xl) / n = xl + 2 * Real.pi - 2 * Real.pi / (n * n) := by
    field_simp
    ring
  rw [this]
  have : 0 < 2 * Real.pi / ((n : ℝ) * n) := by positivity
  linarith

/-- C143: nothing but north and south is a hemisphere -/
theorem C143_hemisphere (f m : Fld α) (hm : asMapfield f ["lon", "lat"] (.str "rad") = .ok m) (b : Option ℝ) (hemi : String) (p : Bool)
    (hn : ¬ IsNorth hemi) (hs : ¬ IsSouth hemi) : asPolar f b hemi p = .error .value := by
  unfold asPolar
  rw [hm]
  simp only [latSel, if_neg hn, if_neg hs]

theorem map_self (la lo : List ℝ) (d : List Nat → α) (l : Layout) :
    asMapfield ⟨⟨"lon", "rad", lo⟩, ⟨"lat", "rad", la⟩, l, d⟩ ["lon", "lat"] (.str "rad") = .ok ⟨⟨"lon", "rad", lo⟩, ⟨"lat", "rad", la⟩, l, d⟩ :=
  (C141_same (⟨⟨"lon", "rad", lo⟩, ⟨"lat", "rad", la⟩, l, d⟩ : Fld α) "rad" rfl rfl (.inl ⟨rfl, rfl⟩)).1

/-- C143 is false of fields that do not reach the angle on the other scale: of latitudes between 40 and 50 degrees nothing is within 60
    degrees of the pole, says the ValueError (mapfield.py:255 compares with latitudes, not with angles from the pole) -/
theorem C143_check_violated (lo : List ℝ) (d : List Nat → α) :
    asPolar ⟨⟨"lon", "rad", lo⟩, ⟨"lat", "rad", [inUnits "deg" "rad" 40, inUnits "deg" "rad" 50]⟩, .scalar, d⟩ (some 60) "north" false =
      .error .value := by
  have hpi := Real.pi_pos
  have hs : latSel [inUnits "deg" "rad" 40, inUnits "deg" "rad" 50] 60 "north" = .error .value := by
    unfold latSel
    rw [if_pos (.inl rfl), if_pos]
    rw [deg_abs, abs_of_pos (by norm_num)]
    simp [inUnits]
    constructor <;> linarith
  unfold asPolar
  rw [map_self]
  simp only [bounding, hs]

/-- … and by default of all that do not have the pole itself -/
theorem C143_default_violated (lo la : List ℝ) (d : List Nat → α) (hla : ∀ x ∈ la, - Real.pi / 2 < x ∧ x < Real.pi / 2) :
    asPolar ⟨⟨"lon", "rad", lo⟩, ⟨"lat", "rad", la⟩, .scalar, d⟩ none "north" false = .error .value := by
  have hpi := Real.pi_pos
  have hb : bounding la none = 90 := by
    unfold bounding
    rw [if_neg]
    push Not
    have h1 : - Real.pi / 2 < la.headD 0 ∧ la.headD 0 < Real.pi / 2 := by
      cases la with
      | nil => simp only [List.headD_nil]; constructor <;> linarith
      | cons a r => exact hla a (by simp)
    have h2 : - Real.pi / 2 < la.getLastD 0 ∧ la.getLastD 0 < Real.pi / 2 := by
      rcases List.eq_nil_or_concat la with rfl | ⟨r, a, rfl⟩
      · simp only [List.getLastD_nil]; constructor <;> linarith
      · have := hla a (by simp)
        simpa using this
    rw [abs_lt]
    constructor <;> linarith [h1.1, h1.2, h2.1, h2.2]
  have hs : latSel la 90 "north" = .error .value := by
    unfold latSel
    rw [if_pos (.inl rfl), if_pos]
    intro x hx
    rw [deg_abs, abs_of_pos (by norm_num)]
    have := (hla x hx).2
    simp [inUnits]
    linarith
  unfold asPolar
  rw [map_self]
  simp only [hb, hs]

/-- C143: all of a sphere is never cut off at 40 degrees by default, as it should be -/
theorem C143_sphere_violated (lo la : List ℝ) (d : List Nat → α) (hla : ∀ x ∈ la, - Real.pi / 2 ≤ x ∧ x ≤ Real.pi / 2) (hemi : String)
    (p : Bool) : asPolar ⟨⟨"lon", "rad", lo⟩, ⟨"lat", "rad", la⟩, .scalar, d⟩ none hemi p =
      asPolar ⟨⟨"lon", "rad", lo⟩, ⟨"lat", "rad", la⟩, .scalar, d⟩ (some 90) hemi p := by
  have hpi := Real.pi_pos
  have hb : bounding la none = 90 := by
    unfold bounding
    rw [if_neg]
    push Not
    have h1 : - Real.pi / 2 ≤ la.headD 0 ∧ la.headD 0 ≤ Real.pi / 2 := by
      cases la with
      | nil => simp only [List.headD_nil]; constructor <;> linarith
      | cons a r => exact hla a (by simp)
    have h2 : - Real.pi / 2 ≤ la.getLastD 0 ∧ la.getLastD 0 ≤ Real.pi / 2 := by
      rcases List.eq_nil_or_concat la with rfl | ⟨r, a, rfl⟩
      · simp only [List.getLastD_nil]; constructor <;> linarith
      · have := hla a (by simp)
        simpa using this
    rw [abs_lt]
    constructor <;> linarith [h1.1, h1.2, h2.1, h2.2]
  unfold asPolar
  rw [map_self]
  simp only [hb]
  rfl

/-- C143 is false of vectors: an IndexError, if it is not another error -/
theorem C143_vector_violated (f : Fld α) (m : Fld α) (hm : asMapfield f ["lon", "lat"] (.str "rad") = .ok m) (hl : m.layout ≠ .scalar)
    (b : Option ℝ) (hemi : String) (p : Bool) : asPolar f b hemi p = .error .index ∨ asPolar f b hemi p = .error .value := by
  unfold asPolar
  rw [hm]
  simp only
  cases hs : latSel m.ax1.crds (bounding m.ax1.crds b) hemi with
  | error e =>
    right
    unfold latSel at hs
    simp only at hs
    split at hs
    · split at hs
      · injection hs with hs; rw [← hs]
      · cases hs
    · split at hs
      · split at hs
        · injection hs with hs; rw [← hs]
        · cases hs
      · injection hs with hs; rw [← hs]
  | ok r =>
    left
    cases hl' : m.layout with
    | scalar => exact absurd hl' hl
    | flat n => rfl
    | interlaced n => rfl

theorem toMap_lon (unit ax : String) (hu : IsAngle unit) (ha : ax = "phi" ∨ ax = "lon") (row : List ℝ) :
    toMap false unit ax row = .ok ("lon", row.map (inUnits unit "rad")) := by
  have hrow : (if unit = "deg" then row.map fun x => Real.pi / 180 * x else row) = row.map (inUnits unit "rad") := by
    rcases hu with rfl | rfl
    · simp only [if_true]
      exact List.map_congr_left fun x _ => by simp [inUnits]; ring
    · rw [if_neg (by decide)]
      conv_lhs => rw [← List.map_id row]
      exact List.map_congr_left fun x _ => (inUnits_self _ x).symm
  unfold toMap
  simp only [hrow]
  rcases ha with rfl | rfl <;> simp [store]

theorem toMap_lat (unit ax : String) (hu : IsAngle unit) (ha : ax = "theta" ∨ ax = "lat") (row : List ℝ)
    (hr : ax = "theta" → ∀ y ∈ row, 0 ≤ y ∧ y ≤ inUnits "deg" unit 180) :
    toMap false unit ax row = .ok ("lat", row.map fun y => Real.pi / 2 - colatOf ax unit y) := by
  have hrow : (if unit = "deg" then row.map fun x => Real.pi / 180 * x else row) = row.map (inUnits unit "rad") := by
    rcases hu with rfl | rfl
    · simp only [if_true]
      exact List.map_congr_left fun x _ => by simp [inUnits]; ring
    · rw [if_neg (by decide)]
      conv_lhs => rw [← List.map_id row]
      exact List.map_congr_left fun x _ => (inUnits_self _ x).symm
  unfold toMap
  simp only [hrow]
  rcases ha with rfl | rfl
  · have h180 : inUnits "deg" "rad" 180 = Real.pi := by simp [inUnits]
    have hz : ∀ w, IsAngle w → inUnits "deg" w 0 = 0 := by
      rintro w (rfl | rfl) <;> simp [inUnits]
    have : theta2lat "rad" (row.map (inUnits unit "rad")) = .ok (row.map fun y => Real.pi / 2 - colatOf "theta" unit y) := by
      unfold theta2lat
      rw [if_neg]
      · simp [p90, colatOf]
      · have hb : ∀ y ∈ row, 0 ≤ inUnits unit "rad" y ∧ inUnits unit "rad" y ≤ Real.pi := by
          intro y hy
          have := inUnits_range hu (.inr rfl) 0 180 y (by rw [hz unit hu]; exact (hr rfl y hy).1) (hr rfl y hy).2
          rwa [hz "rad" (.inr rfl), h180] at this
        rintro (⟨x, hx, hlt⟩ | ⟨x, hx, hlt⟩) <;> simp only [List.map_map, List.mem_map, Function.comp] at hx <;>
          obtain ⟨y, hy, rfl⟩ := hx <;> have := hb y hy <;> simp [p90] at hlt <;> linarith [this.1, this.2]
    rw [this]
    simp [store, Except.map]
  · simp [store, colatOf]

/-- C142: points of longitude and latitude, or phi and theta, in either order and in degrees or radians, are those of a polar plot: the
    longitude, and the angle from the pole of the hemisphere, in radians -/
theorem C142_points_partial (a b unit hemi : String) (ra rb : List ℝ) (ha : a = "phi" ∨ a = "lon") (hb : b = "theta" ∨ b = "lat")
    (hu : IsAngle unit) (hr : b = "theta" → ∀ y ∈ rb, 0 ≤ y ∧ y ≤ inUnits "deg" unit 180) (hh : IsNorth hemi ∨ IsSouth hemi)
    (swapped : Bool) :
    pts2polar false (if swapped then [rb, ra] else [ra, rb]) (if swapped then [b, a] else [a, b]) unit hemi =
      .ok [ra.map (inUnits unit "rad"),
        rb.map fun y => if IsNorth hemi then colatOf b unit y else Real.pi - colatOf b unit y] := by
  have hlast : (rb.map fun y => Real.pi / 2 - colatOf b unit y).map (toPole hemi) =
      rb.map fun y => if IsNorth hemi then colatOf b unit y else Real.pi - colatOf b unit y := by
    rw [List.map_map]
    refine List.map_congr_left fun y _ => ?_
    simp only [Function.comp]
    rcases hh with hn | hs
    · rw [toPole_north hn, if_pos hn]; ring
    · rw [toPole_south (not_north hs), if_neg (not_north hs)]; ring
  have h1 := toMap_lon unit a hu ha ra
  have h2 := toMap_lat unit b hu hb rb hr
  unfold pts2polar
  rw [if_pos hu]
  cases swapped
  · simp only [Bool.false_eq_true, if_false, toMaps, h1, h2, Except.map]
    rw [← hlast]
    simp [store]
  · simp only [if_true, toMaps, h1, h2, Except.map]
    rw [← hlast]
    simp [store]

/-- C142: points without a longitude or without a latitude are a ValueError -/
theorem C142_axes (unit hemi : String) (a b : String) (ra rb : List ℝ) (hu : IsAngle unit)
    (hbad : (∀ x ∈ [a, b], x ≠ "phi" ∧ x ≠ "lon") ∨ ∀ x ∈ [a, b], x ≠ "theta" ∧ x ≠ "lat") (hrange : ∀ r ∈ [ra, rb], ∀ y ∈ r, 0 ≤ y ∧ y ≤ inUnits "deg" unit 180) :
    pts2polar false [ra, rb] [a, b] unit hemi = .error .value := by
  have hname : ∀ ax r, (∀ y ∈ r, 0 ≤ y ∧ y ≤ inUnits "deg" unit 180) → ∃ p, toMap false unit ax r = .ok p ∧
      (p.1 = "lon" → ax = "phi" ∨ ax = "lon") ∧ (p.1 = "lat" → ax = "theta" ∨ ax = "lat") := by
    intro ax r hr
    by_cases h1 : ax = "phi" ∨ ax = "lon"
    · exact ⟨_, toMap_lon unit ax hu h1 r, fun _ => h1, by simp⟩
    by_cases h2 : ax = "theta" ∨ ax = "lat"
    · exact ⟨_, toMap_lat unit ax hu h2 r (fun _ => hr), by simp, fun _ => h2⟩
    push Not at h1 h2
    unfold toMap
    simp only [if_neg h1.1, if_neg h2.1]
    exact ⟨_, rfl, fun h => absurd h h1.2, fun h => absurd h h2.2⟩
  obtain ⟨p, hp, p1, p2⟩ := hname a ra (hrange ra (by simp))
  obtain ⟨q, hq, q1, q2⟩ := hname b rb (hrange rb (by simp))
  unfold pts2polar
  rw [if_pos hu]
  simp only [toMaps, hp, hq, Except.map]
  rcases hbad with hbad | hbad
  · have ha := hbad a (by simp)
    have hb := hbad b (by simp)
    have e1 : p.1 ≠ "lon" := fun h => by rcases p1 h with h | h; exacts [ha.1 h, ha.2 h]
    have e2 : q.1 ≠ "lon" := fun h => by rcases q1 h with h | h; exacts [hb.1 h, hb.2 h]
    rw [show List.find? (fun p => decide (p.1 = "lon")) [p, q] = none by simp [e1, e2]]
  · have ha := hbad a (by simp)
    have hb := hbad b (by simp)
    have e1 : p.1 ≠ "lat" := fun h => by rcases p2 h with h | h; exacts [ha.1 h, ha.2 h]
    have e2 : q.1 ≠ "lat" := fun h => by rcases q2 h with h | h; exacts [hb.1 h, hb.2 h]
    rw [show List.find? (fun p => decide (p.1 = "lat")) [p, q] = none by simp [e1, e2]]
    cases List.find? (fun p => decide (p.1 = "lon")) [p, q] <;> rfl

/-- C142 is false of whole numbers: they stay whole, in radians; 90 degrees of longitude, and 10 from the pole, become 1 and 0 -/
theorem C142_whole_violated : pts2polar true [[90], [10]] ["phi", "theta"] "deg" "north" = .ok [[1], [0]] := by
  have h3 := Real.pi_gt_three
  have h4 := Real.pi_lt_d2
  have e1 : ⌊Real.pi / 180 * 90⌋ = 1 := by
    rw [Int.floor_eq_iff]; constructor <;> push_cast <;> linarith
  have e2 : ⌊Real.pi / 2 - Real.pi / 180 * 10⌋ = 1 := by
    rw [Int.floor_eq_iff]; constructor <;> push_cast <;> linarith
  have e3 : ⌊Real.pi / 2 - 1⌋ = 0 := by
    rw [Int.floor_eq_iff]; constructor <;> push_cast <;> linarith
  have ht : theta2lat "rad" [Real.pi / 180 * 10] = .ok [Real.pi / 2 - Real.pi / 180 * 10] := by
    unfold theta2lat
    rw [if_neg]
    · simp [p90]
    · simp [p90]; constructor <;> linarith
  have p1 : (0 : ℝ) ≤ Real.pi / 180 * 90 := by linarith
  have p2 : (0 : ℝ) ≤ Real.pi / 2 - Real.pi / 180 * 10 := by linarith
  have p3 : (0 : ℝ) ≤ Real.pi / 2 - 1 := by linarith
  have t1 : toMap true "deg" "phi" [90] = .ok ("lon", [1]) := by
    simp only [toMap, if_true, List.map_cons, List.map_nil, store, if_pos p1, e1]
    simp
  have t2 : toMap true "deg" "theta" [10] = .ok ("lat", [1]) := by
    simp only [toMap, if_true, List.map_cons, List.map_nil]
    rw [if_neg (by decide), ht]
    simp only [Except.map, store, if_true, List.map_cons, List.map_nil, if_pos p2, e2]
    simp
  unfold pts2polar
  rw [if_pos (.inl rfl)]
  simp only [toMaps, t1, t2, Except.map]
  have : toPole "north" 1 = Real.pi / 2 - 1 := toPole_north (.inl rfl) 1
  simp [store, this, p3, e3]

/-- C142 is false of other hemispheres: they are no error (as they are for fields), but the south -/
theorem C142_hemisphere_violated (isInt : Bool) (pts : List (List ℝ)) (axes : List String) (unit hemi : String) (h : ¬ IsNorth hemi) :
    pts2polar isInt pts axes unit hemi = pts2polar isInt pts axes unit "south" := by
  have : toPole hemi = toPole "south" := by
    funext x
    rw [toPole_south h, toPole_south (by unfold IsNorth; decide)]
  unfold pts2polar
  rw [this]

/-- a field and points that meet the hypotheses -/
example : ∃ g, asPolar (⟨⟨"theta", "deg", [0, 30, 80]⟩, ⟨"phi", "deg", [0, 180]⟩, .scalar, id⟩ : Fld (List Nat)) (some 40) "n" false = .ok g ∧
    HasValue g "lon" (inUnits "deg" "rad" 180) "lat" (inUnits "deg" "rad" 30) 0 [1, 1] ∧
    ¬ ∃ v, HasValue g "lon" (inUnits "deg" "rad" 180) "lat" (inUnits "deg" "rad" 80) 0 v := by
  obtain ⟨g, hg, _, _, _, _, hv⟩ := C143_polar_partial
    (⟨⟨"theta", "deg", [0, 30, 80]⟩, ⟨"phi", "deg", [0, 180]⟩, .scalar, id⟩ : Fld (List Nat)) "deg" [0, 180] [0, 30, 80] (.inl rfl)
    (.inr ⟨rfl, rfl⟩) rfl (by simp [inUnits]; norm_num) (by simp; norm_num) 40 "n" (.inl (.inr rfl))
    ⟨0, by simp, by rw [if_pos (.inr rfl)]; simp [right, inUnits]; norm_num⟩
  have hn : IsNorth "n" := .inr rfl
  refine ⟨g, hg, ?_, ?_⟩
  · have := (hv 180 30 0 [1, 1]).mpr ⟨by rw [if_pos hn]; simp [inUnits]; norm_num, 1, 1, .inr ⟨rfl, rfl, rfl, rfl⟩, rfl⟩
    rwa [if_pos hn] at this
  · rintro ⟨v, h⟩
    have := ((hv 180 80 0 v).mp (by rwa [if_pos hn])).1
    rw [if_pos hn] at this
    norm_num [inUnits] at this

end Viscid.Props
