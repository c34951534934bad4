import Verif.Model.DipValue
import Verif.Props.Dipole
import Verif.Props.MapField
/-! # C221: values along field lines of a dipole -/
namespace Viscid.Props
open Viscid.Rotation Viscid.Cotr Viscid.MapField Viscid.Dipole Viscid.DipValue Viscid.Spec.MapField

variable {α : Type}

namespace DV

theorem sphere_same (f : Fld α) (u w : String) (h0 : f.ax0.unit = u) (h1 : f.ax1.unit = u) (hw : w = "" ∨ w = u)
    (hn : f.ax0.name = "phi" ∧ f.ax1.name = "theta" ∨ f.ax0.name = "theta" ∧ f.ax1.name = "phi") (hne : u ≠ "") :
    ∃ g, asSpherefield f ["theta", "phi"] (.str w) = .ok g ∧ (f.ax0.name = "theta" → g = f) ∧ (f.ax0.name = "phi" → g = transpose f) := by
  have hx : ∀ a, a = f.ax0.name ∨ a = f.ax1.name → xform .noop f a a w = .ok f := by
    intro a ha
    have hu : unitFunc u w = .ok none := by rcases hw with rfl | rfl <;> simp [unitFunc, hne]
    unfold xform
    rcases ha with rfl | rfl
    · simp [ind, h0, hu]
    · by_cases hne : f.ax0.name = f.ax1.name
      · simp [ind, hne, h0, hu]
      · simp [ind, hne, h1, hu]
  have e1 := hx "phi" (by rcases hn with ⟨n0, n1⟩ | ⟨n0, n1⟩ <;> simp [n0, n1])
  have e2 := hx "theta" (by rcases hn with ⟨n0, n1⟩ | ⟨n0, n1⟩ <;> simp [n0, n1])
  rcases hn with ⟨n0, n1⟩ | ⟨n0, n1⟩
  · refine ⟨transpose f, ?_, by simp [n0], fun _ => rfl⟩
    simp [asSpherefield, convert, choose, n0, n1, plan, Except.map, prepUnits, xforms, e1, e2]
  · refine ⟨f, ?_, fun _ => rfl, by simp [n0]⟩
    simp [asSpherefield, convert, choose, n0, n1, plan, Except.map, prepUnits, xforms, e1, e2]

end DV

/-- C221: if the point where the field line through `pt` is at the radius asked for has a direction at which the field has a value, that is the value; for
fields in degrees of theta and phi, or of latitude and longitude, in any order. -/
theorem C221_value_partial (p : Params) (h h' h'' : List Call) (s : Sys) (pt q : V3) (r : ℝ) (hq : (dipoleMap p s r pt (after p h)).1 = .ok q)
    (interp : Fld α → V3 → Option α) (hinterp : ∀ g a v, HasValue g "theta" (a 1) "phi" (a 2) 0 v → interp g a = some v)
    (fillna : Option α) (f : Fld α) (lp lt : List ℝ) (hl : f.layout = .scalar) (lon lat : String)
    (hnames : (lon = "phi" ∧ lat = "theta") ∨ (lon = "lon" ∧ lat = "lat" ∧ ∀ y ∈ lt, - 90 ≤ y ∧ y ≤ 90))
    (hf : f.ax0 = ⟨lon, "deg", lp⟩ ∧ f.ax1 = ⟨lat, "deg", lt⟩ ∨ f.ax1 = ⟨lon, "deg", lp⟩ ∧ f.ax0 = ⟨lat, "deg", lt⟩) :
    ∃ (a w : V3), (transform p s .sm q (after p h'')).1 = .ok w ∧ SphCart.sph2cart .float true a = .ok w ∧ 0 ≤ a 1 ∧ a 1 ≤ 180 ∧ 0 ≤ a 2 ∧ a 2 < 360 ∧
      ∀ v, HasValue f lat (if lat = "theta" then a 1 else 90 - a 1) lon (a 2) 0 v → mapValue p s r interp fillna f pt (after p h') = .ok (some v) := by
  obtain ⟨a, w, e1, e2, e3, b1, b2, b3, b4⟩ := C48_spherical p h h' h'' s pt q r hq
  refine ⟨a, w, e2, e3, b1, b2, b3, b4, ?_⟩
  intro v hv
  have key : ∃ g, asSpherefield f ["theta", "phi"] (.str "") = .ok g ∧ HasValue g "theta" (a 1) "phi" (a 2) 0 v := by
    rcases hnames with ⟨rfl, rfl⟩ | ⟨rfl, rfl, hr⟩
    · rw [if_pos rfl] at hv
      obtain ⟨g, hg, g1, g2⟩ := DV.sphere_same f "deg" "" (by rcases hf with ⟨x, y⟩ | ⟨x, y⟩ <;> simp [x, y]) (by rcases hf with ⟨x, y⟩ | ⟨x, y⟩ <;> simp [x, y])
        (.inl rfl) (by rcases hf with ⟨x, y⟩ | ⟨x, y⟩ <;> simp [x, y]) (by decide)
      refine ⟨g, hg, ?_⟩
      rcases hf with ⟨x, y⟩ | ⟨x, y⟩
      · rw [g2 (by simp [x])]
        exact (hasValue_transpose f _ _ _ _ _ _).2 hv
      · rw [g1 (by simp [y])]; exact hv
    · rw [if_neg (by decide)] at hv
      have hright : right "deg" = 90 := by simp [right, inUnits]
      obtain ⟨g, hg, hm⟩ := C141_spherefield_partial f "deg" "deg" lp lt (.inl rfl) (.inl rfl) hf (fun n hn => by rw [hl] at hn; cases hn)
        (by rw [hright]; exact hr) ["theta", "phi"] (.inr rfl) (.str "deg") (.inl rfl)
      rw [← (C141_default_partial f ["theta", "phi"] (by rcases hf with ⟨x, y⟩ | ⟨x, y⟩ <;> simp [x, y])
        (by rcases hf with ⟨x, y⟩ | ⟨x, y⟩ <;> simp [x, y])).2] at hg
      refine ⟨g, hg, ?_⟩
      have := (hm.values (a 2) (90 - a 1) 0 v).1 ((hasValue_swap _ _ _ _ _ _ _).1 hv)
      rw [hright, inUnits_self, inUnits_self] at this
      have e : (90 : ℝ) - (90 - a 1) = a 1 := by ring
      rw [e] at this
      exact (hasValue_swap _ _ _ _ _ _ _).1 this
  obtain ⟨g, hg, hval⟩ := key
  unfold mapValue
  rw [hg]
  simp only
  rw [e1]
  simp only
  rw [hinterp g a v hval]

/-- C221 is false of fields of x, y and such: they are taken for spherical ones, which is a ValueError. -/
theorem C221_cartesian_violated (p : Params) (s : Sys) (r : ℝ) (interp : Fld α → V3 → Option α) (fillna : Option α) (f : Fld α) (pt : V3) (σ : St)
    (h0 : f.ax0.name ∉ ["theta", "lat"]) (h1 : f.ax1.name ∉ ["theta", "lat"]) : mapValue p s r interp fillna f pt σ = .error (.map .value) := by
  simp only [List.mem_cons, List.not_mem_nil, or_false, not_or] at h0 h1
  have hx : ∀ u, xform .noop f "theta" "theta" u = .error .value := by
    intro u; unfold xform; simp [ind, h0.1, h1.1]
  have hc : ∃ b tr, choose f ["theta", "phi"] [("phi", [("lon", .noop), ("phi", .noop)]), ("theta", [("lat", .lat2theta), ("theta", .noop)])] =
      .ok [("phi", b, tr), ("theta", "theta", .noop)] := by
    have ht : choose f ["theta", "phi"] [("theta", [("lat", .lat2theta), ("theta", .noop)])] = .ok [("theta", "theta", .noop)] := by
      simp [choose, Ne.symm h0.1, Ne.symm h0.2, Ne.symm h1.1, Ne.symm h1.2, Except.map]
    rw [choose]
    split
    · rename_i b tr _; exact ⟨b, tr, by rw [ht]; rfl⟩
    · exact ⟨_, _, by rw [if_pos (by decide), ht]; rfl⟩
  obtain ⟨b, tr, hc⟩ := hc
  have : asSpherefield f ["theta", "phi"] (.str "") = .error .value := by
    unfold asSpherefield convert
    rw [hc]
    simp [plan, Except.map, prepUnits, xforms, hx]
  unfold mapValue
  rw [this]

/-- C221 is false of fields in radians: they stay as they are, and are asked for the value at the number of degrees. -/
theorem C221_radians_violated (p : Params) (h h' h'' : List Call) (s : Sys) (pt q : V3) (r : ℝ) (hq : (dipoleMap p s r pt (after p h)).1 = .ok q)
    (interp : Fld α → V3 → Option α) (fillna : Option α) (f : Fld α) (lp lt : List ℝ) (hf : f.ax0 = ⟨"theta", "rad", lt⟩ ∧ f.ax1 = ⟨"phi", "rad", lp⟩) :
    ∃ (a w : V3), (transform p s .sm q (after p h'')).1 = .ok w ∧ SphCart.sph2cart .float true a = .ok w ∧
      ∀ v, interp f a = some v → mapValue p s r interp fillna f pt (after p h') = .ok (some v) := by
  obtain ⟨a, w, e1, e2, e3, _⟩ := C48_spherical p h h' h'' s pt q r hq
  refine ⟨a, w, e2, e3, ?_⟩
  intro v hv
  obtain ⟨g, hg, g1, _⟩ := DV.sphere_same f "rad" "" (by simp [hf]) (by simp [hf]) (.inl rfl) (.inr (by simp [hf])) (by decide)
  have hgf := g1 (by simp [hf])
  subst hgf
  unfold mapValue
  rw [hg]
  simp only
  rw [e1]
  simp only
  rw [hv]

/-- C221: nan is replaced, nothing else is. -/
theorem C221_fillna (p : Params) (s : Sys) (r : ℝ) (interp : Fld α → V3 → Option α) (x : α) (f : Fld α) (pt : V3) (σ : St) :
    (∀ v, mapValue p s r interp none f pt σ = .ok (some v) → mapValue p s r interp (some x) f pt σ = .ok (some v)) ∧
    (mapValue p s r interp none f pt σ = .ok none → mapValue p s r interp (some x) f pt σ = .ok (some x)) ∧
    (∀ e, mapValue p s r interp none f pt σ = .error e → mapValue p s r interp (some x) f pt σ = .error e) := by
  unfold mapValue
  split
  · simp
  · split
    · simp
    · split <;> simp

example : (⟨⟨"theta", "deg", [0, 90]⟩, ⟨"phi", "deg", [0, 180]⟩, .scalar, fun _ => ()⟩ : Fld Unit).ax0.name = "theta" ∧
    HasValue (⟨⟨"theta", "deg", [0, 90]⟩, ⟨"phi", "deg", [0, 180]⟩, .scalar, fun _ => ()⟩ : Fld Unit) "theta" 90 "phi" 180 0 () :=
  ⟨rfl, 1, 1, .inl ⟨rfl, rfl, rfl, rfl⟩, rfl⟩

end Viscid.Props
