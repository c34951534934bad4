import Verif.Spec.MapField
import Mathlib.Tactic.Linarith
import Mathlib.Tactic.Ring
import Mathlib.Tactic.FieldSimp
import Mathlib.Tactic.NormNum
import Mathlib.Tactic.Positivity
/-!
# C141 fields on spheres and maps
-/
namespace Viscid.Props
open Viscid.MapField Viscid.Spec.MapField

variable {α : Type}

theorem inUnits_self (u : String) (x : ℝ) : inUnits u u x = x := by unfold inUnits; rw [if_pos rfl]

theorem inUnits_inj {u v : String} {x y : ℝ} (h : inUnits u v x = inUnits u v y) : x = y := by
  have hpi := Real.pi_pos
  unfold inUnits at h
  split at h
  · exact h
  split at h
  · field_simp at h; exact h
  · field_simp at h; exact h

theorem inUnits_back {u v : String} (hu : IsAngle u) (hv : IsAngle v) (x : ℝ) : inUnits v u (inUnits u v x) = x := by
  have hpi := Real.pi_pos
  rcases hu with rfl | rfl <;> rcases hv with rfl | rfl <;> simp [inUnits]

theorem inUnits_sub (u v : String) (x y : ℝ) : inUnits u v (x - y) = inUnits u v x - inUnits u v y := by
  unfold inUnits
  split
  · rfl
  split <;> ring

theorem p90_right {u : String} (hu : IsAngle u) : p90 u = right u := by
  rcases hu with rfl | rfl <;> simp [p90, right, inUnits]
  ring

theorem unitFunc_spec {u v : String} (hu : IsAngle u) (hv : IsAngle v) :
    ∃ k, unitFunc u v = .ok k ∧ (∀ x, k.getD id x = inUnits u v x) ∧ (k.isNone → u = v) := by
  rcases hu with rfl | rfl <;> rcases hv with rfl | rfl
  · exact ⟨none, by simp [unitFunc], by simp [inUnits], by simp⟩
  · exact ⟨some fun x => Real.pi / 180 * x, by simp [unitFunc], fun x => by simp [inUnits]; ring, by simp⟩
  · exact ⟨some fun x => 180 / Real.pi * x, by simp [unitFunc], fun x => by simp [inUnits]; ring, by simp⟩
  · exact ⟨none, by simp [unitFunc], by simp [inUnits], by simp⟩

/-- one axis of `f` is another in `g`: its name, units and coordinates are changed, perhaps in another order, with the values -/
structure Moved (d : Nat) (f g : Fld α) (t u : String) (h : ℝ → ℝ) (crds : List ℝ) (σ : Nat → Nat) : Prop where
  layout : g.layout = f.layout
  ax : (if d = 0 then g.ax0 else g.ax1) = ⟨t, u, crds⟩
  other : (if d = 0 then g.ax1 else g.ax0) = if d = 0 then f.ax1 else f.ax0
  bij : ∀ i, i < crds.length → σ i < crds.length ∧ σ (σ i) = i
  get : ∀ i, i < crds.length → (if d = 0 then f.ax0 else f.ax1).crds[σ i]?.map h = crds[i]?
  len : (if d = 0 then f.ax0 else f.ax1).crds.length = crds.length
  values : ∀ i j c, (if d = 0 then i else j) < crds.length →
    value g i j c = if d = 0 then value f (σ i) j c else value f i (σ j) c

theorem xform_noop (f : Fld α) (d : Nat) (base target u v : String) (hind : ind f base = .ok d) (hd : d = 0 ∨ d = 1)
    (hname : (if d = 0 then f.ax0 else f.ax1).name = base) (hu : (if d = 0 then f.ax0 else f.ax1).unit = u) (hu' : IsAngle u)
    (hv : IsAngle v) : ∃ g, xform .noop f base target v = .ok g ∧
      Moved d f g target v (inUnits u v) ((if d = 0 then f.ax0 else f.ax1).crds.map (inUnits u v)) id := by
  obtain ⟨k, hk, hk2, hk3⟩ := unitFunc_spec hu' hv
  have hv0 : v ≠ "" := by rcases hv with rfl | rfl <;> decide
  have hmap : ∀ l : List ℝ, l.map (k.getD id) = l.map (inUnits u v) := fun l => List.map_congr_left fun x _ => hk2 x
  unfold xform
  rw [hind]
  simp only [hu, hk, if_neg hv0, hmap, and_true, if_true]
  by_cases hb : base = target ∧ k.isNone = true
  · rw [if_pos hb]
    have huv := hk3 hb.2
    refine ⟨f, rfl, rfl, ?_, rfl, fun i hi => ⟨hi, rfl⟩, ?_, by simp, ?_⟩
    · have : ∀ l : List ℝ, l.map (inUnits u v) = l := by
        intro l
        rw [huv]
        conv_rhs => rw [← List.map_id l]
        exact List.map_congr_left fun x _ => inUnits_self v x
      rw [this, ← hb.1, ← huv, ← hname, ← hu]
    · intro i _; simp [List.getElem?_map]
    · intro i j c _; simp
  · rw [if_neg hb]
    rcases hd with rfl | rfl
    · refine ⟨_, rfl, rfl, rfl, rfl, fun i hi => ⟨hi, rfl⟩, ?_, by simp, ?_⟩
      · intro i _; simp [List.getElem?_map]
      · intro i j c _; simp [value]
    · refine ⟨_, rfl, rfl, rfl, rfl, fun i hi => ⟨hi, rfl⟩, ?_, by simp, ?_⟩
      · intro i _; simp [List.getElem?_map]
      · intro i j c _; simp [value]

theorem value_reverse (f : Fld α) (d : Nat) (hd : d = 0 ∨ d = 1) (hflat : ∀ n, f.layout = .flat n → d = 1) (g : Fld α)
    (hl : g.layout = f.layout) (hdata : g.data = reverse f (ddat f d)) (i j c : Nat) :
    value g i j c = if d = 0 then value f (f.ax0.crds.length - 1 - i) j c else value f i (f.ax1.crds.length - 1 - j) c := by
  unfold value
  rw [hl, hdata]
  unfold reverse ddat shape
  cases hL : f.layout with
  | scalar => rcases hd with rfl | rfl <;> simp [List.modify]
  | flat n =>
    obtain rfl := hflat n hL
    simp [List.modify]
  | interlaced n => rcases hd with rfl | rfl <;> simp [List.modify]

/-- the coordinates after the change, as in `xform` -/
noncomputable def newCrds (tr : Tr) (v : String) (l : List ℝ) : Except Err (List ℝ) :=
  match tr with
  | .noop => .ok l
  | .theta2lat => (theta2lat v l).map List.reverse
  | .lat2theta => (lat2theta v l).map List.reverse

theorem xform_rev (tr : Tr) (htr : tr ≠ .noop) (f : Fld α) (d : Nat) (base target u v : String) (hind : ind f base = .ok d)
    (hd : d = 0 ∨ d = 1) (hflat : ∀ n, f.layout = .flat n → d = 1)
    (hu : (if d = 0 then f.ax0 else f.ax1).unit = u) (hu' : IsAngle u) (hv : IsAngle v)
    (hrange : ∀ y ∈ (if d = 0 then f.ax0 else f.ax1).crds,
      if tr = .theta2lat then 0 ≤ inUnits u v y ∧ inUnits u v y ≤ 2 * right v else - right v ≤ inUnits u v y ∧ inUnits u v y ≤ right v) :
    ∃ g, xform tr f base target v = .ok g ∧
      Moved d f g target v (fun y => right v - inUnits u v y)
        ((if d = 0 then f.ax0 else f.ax1).crds.map fun y => right v - inUnits u v y).reverse
        (fun i => (if d = 0 then f.ax0 else f.ax1).crds.length - 1 - i) := by
  obtain ⟨k, hk, hk2, hk3⟩ := unitFunc_spec hu' hv
  have hv0 : v ≠ "" := by rcases hv with rfl | rfl <;> decide
  have hmap : ∀ l : List ℝ, l.map (k.getD id) = l.map (inUnits u v) := fun l => List.map_congr_left fun x _ => hk2 x
  generalize hA : (if d = 0 then f.ax0 else f.ax1) = A at *
  have hcrds : newCrds tr v (A.crds.map (inUnits u v)) = .ok (A.crds.map fun y => right v - inUnits u v y).reverse := by
    unfold newCrds
    cases tr with
    | noop => exact absurd rfl htr
    | theta2lat =>
      simp only [theta2lat, p90_right hv, List.map_map]
      rw [if_neg]
      · rfl
      · rintro (⟨x, hx, hlt⟩ | ⟨x, hx, hlt⟩)
        · obtain ⟨y, hy, rfl⟩ := List.mem_map.mp hx
          have := hrange y hy
          simp only [if_true] at this
          simp only [Function.comp] at hlt
          linarith [this.2]
        · obtain ⟨y, hy, rfl⟩ := List.mem_map.mp hx
          have := hrange y hy
          simp only [if_true] at this
          simp only [Function.comp] at hlt
          linarith [this.1]
    | lat2theta =>
      have h180 : (if v = "rad" then Real.pi else 180) = 2 * right v := by
        rcases hv with rfl | rfl <;> simp [right, inUnits]
        · norm_num
        · ring
      simp only [lat2theta, p90_right hv, List.map_map, h180]
      rw [if_neg]
      · rfl
      · rintro (⟨x, hx, hlt⟩ | ⟨x, hx, hlt⟩)
        · obtain ⟨y, hy, rfl⟩ := List.mem_map.mp hx
          have := hrange y hy
          simp only [reduceCtorEq, if_false] at this
          simp only [Function.comp] at hlt
          linarith [this.2]
        · obtain ⟨y, hy, rfl⟩ := List.mem_map.mp hx
          have := hrange y hy
          simp only [reduceCtorEq, if_false] at this
          simp only [Function.comp] at hlt
          linarith [this.1]
  have hx : xform tr f base target v =
      if d = 0 then
        .ok { f with ax0 := ⟨target, v, (A.crds.map fun y => right v - inUnits u v y).reverse⟩, data := reverse f (ddat f d) }
      else .ok { f with ax1 := ⟨target, v, (A.crds.map fun y => right v - inUnits u v y).reverse⟩, data := reverse f (ddat f d) } := by
    unfold xform
    rw [hind]
    simp only [hA, hu, hk, if_neg hv0, hmap, htr, and_false, if_false]
    cases tr with
    | noop => exact absurd rfl htr
    | theta2lat => simp only [newCrds] at hcrds; simp only [hcrds]
    | lat2theta => simp only [newCrds] at hcrds; simp only [hcrds]
  rw [hx]
  have hbij : ∀ i, i < (A.crds.map fun y => right v - inUnits u v y).reverse.length →
      A.crds.length - 1 - i < (A.crds.map fun y => right v - inUnits u v y).reverse.length ∧
        A.crds.length - 1 - (A.crds.length - 1 - i) = i := by
    intro i hi
    simp only [List.length_reverse, List.length_map] at hi ⊢
    omega
  have hget : ∀ i, i < (A.crds.map fun y => right v - inUnits u v y).reverse.length →
      A.crds[A.crds.length - 1 - i]?.map (fun y => right v - inUnits u v y) =
        (A.crds.map fun y => right v - inUnits u v y).reverse[i]? := by
    intro i hi
    simp only [List.length_reverse, List.length_map] at hi
    rw [List.getElem?_reverse (by simpa using hi), List.length_map, List.getElem?_map]
  rcases hd with rfl | rfl
  · refine ⟨_, rfl, rfl, rfl, rfl, hbij, ?_, by rw [hA]; simp, ?_⟩
    · rw [hA]; exact hget
    · intro i j c _
      refine (value_reverse f 0 (.inl rfl) hflat _ (by exact rfl) (by exact rfl) i j c).trans ?_
      simp only [if_true] at hA
      rw [hA]
      rfl
  · refine ⟨_, rfl, rfl, rfl, rfl, hbij, ?_, by rw [hA]; simp, ?_⟩
    · rw [hA]; exact hget
    · intro i j c _
      refine (value_reverse f 1 (.inr rfl) hflat _ (by exact rfl) (by exact rfl) i j c).trans ?_
      simp only [one_ne_zero, if_false] at hA
      rw [hA]
      rfl

theorem hasValue_swap (f : Fld α) (a b : String) (x y : ℝ) (c : Nat) (v : α) : HasValue f a x b y c v ↔ HasValue f b y a x c v := by
  unfold HasValue
  constructor <;> rintro ⟨i, j, h, hv⟩ <;> exact ⟨i, j, h.symm, hv⟩

theorem hasValue_move {d : Nat} {f g : Fld α} {t u : String} {h : ℝ → ℝ} {crds : List ℝ} {σ : Nat → Nat}
    (hm : Moved d f g t u h crds σ) (hd : d = 0 ∨ d = 1) (hinj : ∀ x y, h x = h y → x = y) (a b : String)
    (ha : (if d = 0 then f.ax0 else f.ax1).name = a) (hb : (if d = 0 then f.ax1 else f.ax0).name = b) (hab : a ≠ b) (htb : t ≠ b)
    (x y : ℝ) (c : Nat) (v : α) : HasValue f a x b y c v ↔ HasValue g t (h x) b y c v := by
  obtain ⟨_, hax, hother, hbij, hcrds, hlen, hvals⟩ := hm
  rcases hd with rfl | rfl
  · simp only [if_true] at *
    unfold HasValue
    constructor
    · rintro ⟨i, j, ⟨_, _, h3, h4⟩ | ⟨h1, h2, _, _⟩, hv⟩
      · have hi : i < crds.length := hlen ▸ (List.getElem?_eq_some_iff.mp h3).1
        obtain ⟨b1, b2⟩ := hbij i hi
        refine ⟨σ i, j, .inl ⟨by rw [hax], by rw [hother, hb], ?_, by rw [hother, h4]⟩, ?_⟩
        · rw [hax]; simp only; rw [← hcrds _ b1, b2, h3]; rfl
        · rw [hvals _ _ _ b1, b2, hv]
      · exact absurd (ha.symm.trans h1) hab
    · rintro ⟨i, j, ⟨_, _, h3, h4⟩ | ⟨h1, h2, _, _⟩, hv⟩
      · rw [hax] at h3
        simp only at h3
        have hi : i < crds.length := (List.getElem?_eq_some_iff.mp h3).1
        rw [← hcrds i hi] at h3
        refine ⟨σ i, j, .inl ⟨ha, hb, ?_, by rw [← hother, h4]⟩, ?_⟩
        · obtain ⟨z, hz, he⟩ := Option.map_eq_some_iff.mp h3
          rw [hz, hinj _ _ he]
        · rw [← hvals _ _ _ hi, hv]
      · rw [hax] at h1; exact absurd h1 htb
  · simp only [one_ne_zero, if_false] at *
    unfold HasValue
    constructor
    · rintro ⟨i, j, ⟨h1, h2, _, _⟩ | ⟨_, _, h3, h4⟩, hv⟩
      · exact absurd (ha.symm.trans h2) hab
      · have hi : j < crds.length := hlen ▸ (List.getElem?_eq_some_iff.mp h4).1
        obtain ⟨b1, b2⟩ := hbij j hi
        refine ⟨i, σ j, .inr ⟨by rw [hother, hb], by rw [hax], by rw [hother, h3], ?_⟩, ?_⟩
        · rw [hax]; simp only; rw [← hcrds _ b1, b2, h4]; rfl
        · rw [hvals _ _ _ b1, b2, hv]
    · rintro ⟨i, j, ⟨h1, h2, _, _⟩ | ⟨_, _, h3, h4⟩, hv⟩
      · rw [hax] at h2; exact absurd h2 htb
      · rw [hax] at h4
        simp only at h4
        have hi : j < crds.length := (List.getElem?_eq_some_iff.mp h4).1
        rw [← hcrds j hi] at h4
        refine ⟨i, σ j, .inr ⟨hb, ha, by rw [← hother, h3], ?_⟩, ?_⟩
        · obtain ⟨z, hz, he⟩ := Option.map_eq_some_iff.mp h4
          rw [hz, hinj _ _ he]
        · rw [← hvals _ _ _ hi, hv]

theorem value_transpose (f : Fld α) (i j c : Nat) : value (transpose f) i j c = value f j i c := by
  unfold value transpose
  cases f.layout <;> rfl

theorem hasValue_transpose (f : Fld α) (a b : String) (x y : ℝ) (c : Nat) (v : α) :
    HasValue (transpose f) a x b y c v ↔ HasValue f a x b y c v := by
  unfold HasValue
  constructor
  · rintro ⟨i, j, h, hv⟩
    refine ⟨j, i, ?_, by rw [← value_transpose, hv]⟩
    rcases h with ⟨h1, h2, h3, h4⟩ | ⟨h1, h2, h3, h4⟩
    · exact .inr ⟨h2, h1, h4, h3⟩
    · exact .inl ⟨h2, h1, h4, h3⟩
  · rintro ⟨i, j, h, hv⟩
    refine ⟨j, i, ?_, by rw [value_transpose, hv]⟩
    rcases h with ⟨h1, h2, h3, h4⟩ | ⟨h1, h2, h3, h4⟩
    · exact .inr ⟨h2, h1, h4, h3⟩
    · exact .inl ⟨h2, h1, h4, h3⟩

theorem ind0 (f : Fld α) (a : String) (h : f.ax0.name = a) : ind f a = .ok 0 := by simp [ind, h]
theorem ind1 (f : Fld α) (a : String) (h0 : f.ax0.name ≠ a) (h : f.ax1.name = a) : ind f a = .ok 1 := by simp [ind, h, h0]

theorem right_inj (u v : String) (x y : ℝ) (h : right v - inUnits u v x = right v - inUnits u v y) : x = y :=
  inUnits_inj (u := u) (v := v) (by linarith)

/-- both axes of a field, one after the other -/
theorem both (tr : Tr) (htr : tr ≠ .noop) (f : Fld α) (a b a' b' u v : String) (d : Nat) (hd : d = 0 ∨ d = 1) (first : Bool)
    (hab : a ≠ b) (hab' : a' ≠ b) (hba' : b' ≠ a) (hab2 : a' ≠ b')
    (ha : (if d = 0 then f.ax0 else f.ax1).name = a) (hb : (if d = 0 then f.ax1 else f.ax0).name = b)
    (hua : (if d = 0 then f.ax0 else f.ax1).unit = u) (hub : (if d = 0 then f.ax1 else f.ax0).unit = u) (hu : IsAngle u) (hv : IsAngle v)
    (hflat : ∀ n, f.layout = .flat n → d = 0)
    (hrange : ∀ y ∈ (if d = 0 then f.ax1 else f.ax0).crds,
      if tr = .theta2lat then 0 ≤ inUnits u v y ∧ inUnits u v y ≤ 2 * right v
      else - right v ≤ inUnits u v y ∧ inUnits u v y ≤ right v) :
    ∃ g, xforms f (if first then [((a', a, .noop), v), ((b', b, tr), v)] else [((b', b, tr), v), ((a', a, .noop), v)]) = .ok g ∧
      g.layout = f.layout ∧
      (if d = 0 then g.ax0 else g.ax1) = ⟨a', v, (if d = 0 then f.ax0 else f.ax1).crds.map (inUnits u v)⟩ ∧
      (if d = 0 then g.ax1 else g.ax0) =
        ⟨b', v, ((if d = 0 then f.ax1 else f.ax0).crds.map fun y => right v - inUnits u v y).reverse⟩ ∧
      ∀ x y c w, HasValue f a x b y c w ↔ HasValue g a' (inUnits u v x) b' (right v - inUnits u v y) c w := by
  rcases hd with rfl | rfl
  · simp only [if_true] at *
    cases first with
    | true =>
      obtain ⟨f1, e1, m1⟩ := xform_noop f 0 a a' u v (ind0 f a ha) (.inl rfl) ha hua hu hv
      have hax0 := m1.ax
      have hax1 := m1.other
      simp only [if_true] at hax0 hax1
      obtain ⟨f2, e2, m2⟩ := xform_rev tr htr f1 1 b b' u v (ind1 f1 b (by rw [hax0]; exact hab') (by rw [hax1]; exact hb)) (.inr rfl)
        (fun _ _ => rfl) (by simp [hax1, hub]) hu hv (by simpa [hax1] using hrange)
      have h2a := m2.ax
      have h2o := m2.other
      simp only [one_ne_zero, if_false, hax1] at h2a h2o
      refine ⟨f2, by simp only [xforms, if_true, e1, e2], m2.layout.trans m1.layout, by rw [h2o, hax0], h2a, ?_⟩
      intro x y c w
      rw [hasValue_move m1 (.inl rfl) (fun _ _ => inUnits_inj) a b ha hb hab hab', hasValue_swap,
        hasValue_move m2 (.inr rfl) (right_inj u v) b a' (by simp [hax1, hb]) (by simp [hax0]) hab'.symm hab2.symm, hasValue_swap]
    | false =>
      obtain ⟨f1, e1, m1⟩ := xform_rev tr htr f 1 b b' u v (ind1 f b (by rw [ha]; exact hab) hb) (.inr rfl)
        (fun _ _ => rfl) (by simpa using hub) hu hv (by simpa using hrange)
      have hax1 := m1.ax
      have hax0 := m1.other
      simp only [one_ne_zero, if_false] at hax0 hax1
      obtain ⟨f2, e2, m2⟩ := xform_noop f1 0 a a' u v (ind0 f1 a (by rw [hax0, ha])) (.inl rfl) (by simp [hax0, ha]) (by simp [hax0, hua])
        hu hv
      have h2a := m2.ax
      have h2o := m2.other
      simp only [if_true, hax0] at h2a h2o
      refine ⟨f2, by simp [xforms, e1, e2], m2.layout.trans m1.layout, h2a, by rw [h2o, hax1], ?_⟩
      intro x y c w
      rw [hasValue_swap, hasValue_move m1 (.inr rfl) (right_inj u v) b a (by simpa using hb) (by simpa using ha) hab.symm hba',
        hasValue_swap, hasValue_move m2 (.inl rfl) (fun _ _ => inUnits_inj) a b' (by simp [hax0, ha]) (by simp [hax1]) hba'.symm hab2]
  · simp only [one_ne_zero, if_false] at *
    have hnf : ∀ n, f.layout = .flat n → (0 : Nat) = 1 := fun n h => absurd (hflat n h) (by decide)
    cases first with
    | true =>
      obtain ⟨f1, e1, m1⟩ := xform_noop f 1 a a' u v (ind1 f a (by rw [hb]; exact hab.symm) ha) (.inr rfl) ha hua hu hv
      have hax1 := m1.ax
      have hax0 := m1.other
      simp only [one_ne_zero, if_false] at hax0 hax1
      obtain ⟨f2, e2, m2⟩ := xform_rev tr htr f1 0 b b' u v (ind0 f1 b (by rw [hax0, hb])) (.inl rfl)
        (fun n h => hnf n (m1.layout ▸ h)) (by simp [hax0, hub]) hu hv (by simpa [hax0] using hrange)
      have h2a := m2.ax
      have h2o := m2.other
      simp only [if_true, hax0] at h2a h2o
      refine ⟨f2, by simp only [xforms, if_true, e1, e2], m2.layout.trans m1.layout, by rw [h2o, hax1], h2a, ?_⟩
      intro x y c w
      rw [hasValue_move m1 (.inr rfl) (fun _ _ => inUnits_inj) a b ha hb hab hab', hasValue_swap,
        hasValue_move m2 (.inl rfl) (right_inj u v) b a' (by simp [hax0, hb]) (by simp [hax1]) hab'.symm hab2.symm, hasValue_swap]
    | false =>
      obtain ⟨f1, e1, m1⟩ := xform_rev tr htr f 0 b b' u v (ind0 f b hb) (.inl rfl) hnf (by simpa using hub) hu hv
        (by simpa using hrange)
      have hax0 := m1.ax
      have hax1 := m1.other
      simp only [if_true] at hax0 hax1
      obtain ⟨f2, e2, m2⟩ := xform_noop f1 1 a a' u v (ind1 f1 a (by rw [hax0]; exact hba') (by rw [hax1, ha])) (.inr rfl)
        (by simp [hax1, ha]) (by simp [hax1, hua]) hu hv
      have h2a := m2.ax
      have h2o := m2.other
      simp only [one_ne_zero, if_false, hax1] at h2a h2o
      refine ⟨f2, by simp [xforms, e1, e2], m2.layout.trans m1.layout, h2a, by rw [h2o, hax0], ?_⟩
      intro x y c w
      rw [hasValue_swap, hasValue_move m1 (.inl rfl) (right_inj u v) b a (by simpa using hb) (by simpa using ha) hab.symm hba',
        hasValue_swap, hasValue_move m2 (.inr rfl) (fun _ _ => inUnits_inj) a b' (by simp [hax1, ha]) (by simp [hax0]) hba'.symm hab2]

theorem hasAxis_transpose (f : Fld α) (n u : String) (l : List ℝ) : HasAxis (transpose f) n u l ↔ HasAxis f n u l := by
  unfold HasAxis transpose
  exact or_comm

/-- what `convert` does once the axes are found -/
theorem convert_both (tr : Tr) (htr : tr ≠ .noop) (f : Fld α) (a b a' b' u v : String) (mapping : Mapping) (first : Bool)
    (hab : a ≠ b) (hab' : a' ≠ b) (hba' : b' ≠ a) (hab2 : a' ≠ b') (la lb : List ℝ)
    (hf : f.ax0 = ⟨a, u, la⟩ ∧ f.ax1 = ⟨b, u, lb⟩ ∨ f.ax1 = ⟨a, u, la⟩ ∧ f.ax0 = ⟨b, u, lb⟩) (hu : IsAngle u) (hv : IsAngle v)
    (hflat : ∀ n, f.layout = .flat n → f.ax0.name = a)
    (hsel : choose f (if first then [a', b'] else [b', a']) mapping = .ok [(a', a, .noop), (b', b, tr)])
    (units : Units) (hunits : units = .str v ∨ units = .list [v, v])
    (hrange : ∀ y ∈ lb,
      if tr = .theta2lat then 0 ≤ inUnits u v y ∧ inUnits u v y ≤ 2 * right v
      else - right v ≤ inUnits u v y ∧ inUnits u v y ≤ right v) :
    ∃ g, convert f (if first then [a', b'] else [b', a']) mapping units = .ok g ∧
      Mapped a b u a' b' v (if first then [a', b'] else [b', a']) f g := by
  have hplan : plan [(a', a, .noop), (b', b, tr)] (if first then [a', b'] else [b', a']) =
      .ok (if first then [(a', a, .noop), (b', b, tr)] else [(b', b, tr), (a', a, .noop)]) := by
    cases first <;> simp [plan, Except.map, hab2]
  have hunits' : prepUnits (if first then [a', b'] else [b', a']) units = .ok [v, v] := by
    rcases hunits with rfl | rfl
    · cases first <;> rfl
    · rfl
  have hzip : (if first then [(a', a, Tr.noop), (b', b, tr)] else [(b', b, tr), (a', a, Tr.noop)]).zip [v, v] =
      if first then [((a', a, Tr.noop), v), ((b', b, tr), v)] else [((b', b, tr), v), ((a', a, Tr.noop), v)] := by
    cases first <;> rfl
  unfold convert
  simp only [hsel, hplan, hunits', hzip]
  rcases hf with ⟨h0, h1⟩ | ⟨h1, h0⟩
  · obtain ⟨g, e, g1, g2, g3, g4⟩ := both tr htr f a b a' b' u v 0 (.inl rfl) first hab hab' hba' hab2 (by simp [h0]) (by simp [h1])
      (by simp [h0]) (by simp [h1]) hu hv (fun _ _ => rfl) (by simpa [h1] using hrange)
    simp only [if_true, h0, h1] at g2 g3
    rw [e]
    have hal : ∀ l, HasAxis f a u l → HasAxis g a' v (l.map (inUnits u v)) := by
      rintro l (h | h)
      · rw [h0] at h; injection h with _ _ h; subst h; exact .inl g2
      · rw [h1] at h; injection h with h; exact absurd h.symm hab
    have hac : ∀ l, HasAxis f b u l → HasAxis g b' v (l.map fun y => right v - inUnits u v y).reverse := by
      rintro l (h | h)
      · rw [h0] at h; injection h with h; exact absurd h hab
      · rw [h1] at h; injection h with _ _ h; subst h; exact .inr g3
    cases first with
    | true =>
      refine ⟨g, ?_, ?_⟩
      · simp [g2, g3]
      · exact ⟨by simp [g2, g3], g1, hal, hac, g4⟩
    | false =>
      refine ⟨transpose g, ?_, ?_⟩
      · simp [g2, g3, hab2.symm]
      · refine ⟨by simp [transpose, g2, g3], g1, fun l h => (hasAxis_transpose ..).mpr (hal l h),
          fun l h => (hasAxis_transpose ..).mpr (hac l h), fun x y c w => by rw [hasValue_transpose, g4]⟩
  · obtain ⟨g, e, g1, g2, g3, g4⟩ := both tr htr f a b a' b' u v 1 (.inr rfl) first hab hab' hba' hab2 (by simp [h1]) (by simp [h0])
      (by simp [h1]) (by simp [h0]) hu hv (fun n h => absurd (hflat n h) (by rw [h0]; exact hab.symm)) (by simpa [h0] using hrange)
    simp only [one_ne_zero, if_false, h0, h1] at g2 g3
    rw [e]
    have hal : ∀ l, HasAxis f a u l → HasAxis g a' v (l.map (inUnits u v)) := by
      rintro l (h | h)
      · rw [h0] at h; injection h with h; exact absurd h.symm hab
      · rw [h1] at h; injection h with _ _ h; subst h; exact .inr g2
    have hac : ∀ l, HasAxis f b u l → HasAxis g b' v (l.map fun y => right v - inUnits u v y).reverse := by
      rintro l (h | h)
      · rw [h0] at h; injection h with _ _ h; subst h; exact .inl g3
      · rw [h1] at h; injection h with h; exact absurd h hab
    cases first with
    | true =>
      refine ⟨transpose g, ?_, ?_⟩
      · simp [g2, g3, hab2]
      · refine ⟨by simp [transpose, g2, g3], g1, fun l h => (hasAxis_transpose ..).mpr (hal l h),
          fun l h => (hasAxis_transpose ..).mpr (hac l h), fun x y c w => by rw [hasValue_transpose, g4]⟩
    | false =>
      refine ⟨g, ?_, ?_⟩
      · simp [g2, g3]
      · exact ⟨by simp [g2, g3], g1, hal, hac, g4⟩

theorem inUnits_range {u v : String} (hu : IsAngle u) (hv : IsAngle v) (lo hi y : ℝ) (h1 : inUnits "deg" u lo ≤ y)
    (h2 : y ≤ inUnits "deg" u hi) : inUnits "deg" v lo ≤ inUnits u v y ∧ inUnits u v y ≤ inUnits "deg" v hi := by
  have hpi := Real.pi_pos
  rcases hu with rfl | rfl <;> rcases hv with rfl | rfl <;> simp [inUnits] at *
  · exact ⟨h1, h2⟩
  · constructor <;> gcongr
  · rw [div_le_iff₀ (by norm_num)] at h1
    rw [le_div_iff₀ (by norm_num)] at h2
    rw [le_div_iff₀ hpi, div_le_iff₀ hpi]
    exact ⟨h1, h2⟩
  · exact ⟨h1, h2⟩

/-- C141: a field of longitude (phi) and colatitude (theta), in either order and in degrees or radians, is changed to one of longitude
    and latitude in the order and units asked for, and what was at each point of the sphere is there afterwards; latitudes increase if
    colatitudes did. (Fields of vectors whose components come first must have phi first: see `C141_flat_violated`.) -/
theorem C141_mapfield_partial (f : Fld α) (u v : String) (lp lt : List ℝ) (hu : IsAngle u) (hv : IsAngle v)
    (hf : f.ax0 = ⟨"phi", u, lp⟩ ∧ f.ax1 = ⟨"theta", u, lt⟩ ∨ f.ax1 = ⟨"phi", u, lp⟩ ∧ f.ax0 = ⟨"theta", u, lt⟩)
    (hflat : ∀ n, f.layout = .flat n → f.ax0.name = "phi") (hrange : ∀ y ∈ lt, 0 ≤ y ∧ y ≤ inUnits "deg" u 180)
    (order : List String) (ho : order = ["lon", "lat"] ∨ order = ["lat", "lon"])
    (units : Units) (hunits : units = .str v ∨ units = .list [v, v]) :
    ∃ g, asMapfield f order units = .ok g ∧ Mapped "phi" "theta" u "lon" "lat" v order f g := by
  have hr : ∀ y ∈ lt, 0 ≤ inUnits u v y ∧ inUnits u v y ≤ 2 * right v := by
    intro y hy
    have h0 : inUnits "deg" u 0 = 0 := by rcases hu with rfl | rfl <;> simp [inUnits]
    have h0' : inUnits "deg" v 0 = 0 := by rcases hv with rfl | rfl <;> simp [inUnits]
    have h180 : inUnits "deg" v 180 = 2 * right v := by
      unfold right
      rcases hv with rfl | rfl <;> simp [inUnits] <;> ring
    have := inUnits_range hu hv 0 180 y (by rw [h0]; exact (hrange y hy).1) (hrange y hy).2
    rwa [h0', h180] at this
  unfold asMapfield
  obtain ⟨first, rfl⟩ : ∃ first : Bool, order = if first then ["lon", "lat"] else ["lat", "lon"] := by
    rcases ho with rfl | rfl
    · exact ⟨true, rfl⟩
    · exact ⟨false, rfl⟩
  refine convert_both .theta2lat (by decide) f "phi" "theta" "lon" "lat" u v _ first (by decide) (by decide) (by decide) (by decide)
    lp lt hf hu hv hflat ?_ units hunits (by simpa using hr)
  rcases hf with ⟨h0, h1⟩ | ⟨h1, h0⟩ <;> simp [choose, h0, h1, Except.map]

/-- … and back -/
theorem C141_spherefield_partial (f : Fld α) (u v : String) (lp lt : List ℝ) (hu : IsAngle u) (hv : IsAngle v)
    (hf : f.ax0 = ⟨"lon", u, lp⟩ ∧ f.ax1 = ⟨"lat", u, lt⟩ ∨ f.ax1 = ⟨"lon", u, lp⟩ ∧ f.ax0 = ⟨"lat", u, lt⟩)
    (hflat : ∀ n, f.layout = .flat n → f.ax0.name = "lon") (hrange : ∀ y ∈ lt, - right u ≤ y ∧ y ≤ right u)
    (order : List String) (ho : order = ["phi", "theta"] ∨ order = ["theta", "phi"])
    (units : Units) (hunits : units = .str v ∨ units = .list [v, v]) :
    ∃ g, asSpherefield f order units = .ok g ∧ Mapped "lon" "lat" u "phi" "theta" v order f g := by
  have hr : ∀ y ∈ lt, - right v ≤ inUnits u v y ∧ inUnits u v y ≤ right v := by
    intro y hy
    have hneg : ∀ w, IsAngle w → inUnits "deg" w (-90) = - right w := by
      intro w hw
      unfold right
      rcases hw with rfl | rfl <;> simp [inUnits] <;> ring
    have := inUnits_range hu hv (-90) 90 y (by rw [hneg u hu]; exact (hrange y hy).1) (hrange y hy).2
    rwa [hneg v hv] at this
  unfold asSpherefield
  obtain ⟨first, rfl⟩ : ∃ first : Bool, order = if first then ["phi", "theta"] else ["theta", "phi"] := by
    rcases ho with rfl | rfl
    · exact ⟨true, rfl⟩
    · exact ⟨false, rfl⟩
  refine convert_both .lat2theta (by decide) f "lon" "lat" "phi" "theta" u v _ first (by decide) (by decide) (by decide) (by decide)
    lp lt hf hu hv hflat ?_ units hunits (by simpa using hr)
  rcases hf with ⟨h0, h1⟩ | ⟨h1, h0⟩ <;> simp [choose, h0, h1, Except.map]

theorem hasAxis_names {f : Fld α} {n m n' u : String} {l : List ℝ} (hn : [n, m] = [f.ax0.name, f.ax1.name]) (hne : n ≠ m)
    (h : HasAxis f n' u l) : (n' = n → f.ax0 = ⟨n', u, l⟩) ∧ (n' = m → f.ax1 = ⟨n', u, l⟩) := by
  simp only [List.cons.injEq, and_true] at hn
  refine ⟨fun e => ?_, fun e => ?_⟩
  · rcases h with h | h
    · exact h
    · rw [h] at hn; exact absurd (e.symm.trans hn.2.symm) hne
  · rcases h with h | h
    · rw [h] at hn; exact absurd (hn.1.trans e) hne
    · exact h

theorem right_back {u v : String} (hu : IsAngle u) (hv : IsAngle v) (y : ℝ) :
    right u - inUnits v u (right v - inUnits u v y) = y := by
  have h : inUnits v u (right v) = right u := by
    have hpi := Real.pi_pos
    unfold right
    rcases hu with rfl | rfl <;> rcases hv with rfl | rfl <;> simp [inUnits]
  rw [inUnits_sub, inUnits_back hu hv, h]
  ring

/-- C141: there and back, in the usual orders, all coordinates are what they were and all values where they were -/
theorem C141_roundtrip_partial (f : Fld α) (u v : String) (lp lt : List ℝ) (hu : IsAngle u) (hv : IsAngle v)
    (h0 : f.ax0 = ⟨"phi", u, lp⟩) (h1 : f.ax1 = ⟨"theta", u, lt⟩) (hrange : ∀ y ∈ lt, 0 ≤ y ∧ y ≤ inUnits "deg" u 180) :
    ∃ g h, asMapfield f ["lon", "lat"] (.str v) = .ok g ∧ asSpherefield g ["phi", "theta"] (.str u) = .ok h ∧
      h.ax0 = f.ax0 ∧ h.ax1 = f.ax1 ∧ h.layout = f.layout ∧
      ∀ x y c w, HasValue h "phi" x "theta" y c w ↔ HasValue f "phi" x "theta" y c w := by
  obtain ⟨g, hg, mg⟩ := C141_mapfield_partial f u v lp lt hu hv (.inl ⟨h0, h1⟩) (fun _ _ => by rw [h0]) hrange ["lon", "lat"]
    (.inl rfl) (.str v) (.inl rfl)
  have g0 := (hasAxis_names mg.names (by decide) (mg.along lp (.inl h0))).1 rfl
  have g1 := (hasAxis_names mg.names (by decide) (mg.across lt (.inr h1))).2 rfl
  have h180 : inUnits "deg" v 180 = 2 * right v := by
    unfold right
    rcases hv with rfl | rfl <;> simp [inUnits] <;> ring
  have hz : ∀ w, IsAngle w → inUnits "deg" w 0 = 0 := by
    rintro w (rfl | rfl) <;> simp [inUnits]
  obtain ⟨h, hh, mh⟩ := C141_spherefield_partial g v u _ _ hv hu (.inl ⟨g0, g1⟩) (fun _ _ => by rw [g0])
    (by
      intro y hy
      rw [List.mem_reverse, List.mem_map] at hy
      obtain ⟨t, ht, rfl⟩ := hy
      have := inUnits_range hu hv 0 180 t (by rw [hz u hu]; exact (hrange t ht).1) (hrange t ht).2
      rw [hz v hv, h180] at this
      constructor <;> linarith [this.1, this.2]) ["phi", "theta"] (.inl rfl) (.str u) (.inl rfl)
  have e0 := (hasAxis_names mh.names (by decide) (mh.along _ (.inl g0))).1 rfl
  have e1 := (hasAxis_names mh.names (by decide) (mh.across _ (.inr g1))).2 rfl
  refine ⟨g, h, hg, hh, ?_, ?_, mh.layout.trans mg.layout, ?_⟩
  · rw [e0, h0, List.map_map]
    congr 1
    conv_rhs => rw [← List.map_id lp]
    exact List.map_congr_left fun x _ => inUnits_back hu hv x
  · rw [e1, h1, List.map_reverse, List.reverse_reverse, List.map_map]
    congr 1
    conv_rhs => rw [← List.map_id lt]
    exact List.map_congr_left fun y _ => right_back hu hv y
  · intro x y c w
    rw [mg.values, mh.values, inUnits_back hu hv, right_back hu hv]

theorem xform_default (tr : Tr) (f : Fld α) (base target : String) (h0 : f.ax0.unit = "deg") (h1 : f.ax1.unit = "deg") :
    xform tr f base target "" = xform tr f base target "deg" := by
  have hu : ∀ d : Nat, (if d = 0 then f.ax0 else f.ax1).unit = "deg" := by intro d; split <;> assumption
  have ht : theta2lat "" = theta2lat "deg" := by
    have h : p90 "" = p90 "deg" := by simp [p90]
    funext l; simp only [theta2lat, h]
  have hl : lat2theta "" = lat2theta "deg" := by
    have h : p90 "" = p90 "deg" := by simp [p90]
    have h1 : (if ("" : String) = "rad" then Real.pi else 180) = 180 := if_neg (by decide)
    have h2 : (if ("deg" : String) = "rad" then Real.pi else 180) = 180 := if_neg (by decide)
    funext l; simp only [lat2theta, h, h1, h2]
  have e1 : unitFunc "deg" "" = .ok none := by simp [unitFunc]
  have e2 : unitFunc "deg" "deg" = .ok none := by simp [unitFunc]
  unfold xform
  cases ind f base with
  | error e => rfl
  | ok d =>
    simp only [hu d, e1, e2, ht, hl, if_true]
    rfl

theorem xform_units (tr : Tr) (f : Fld α) (base target : String) (h0 : f.ax0.unit = "deg") (h1 : f.ax1.unit = "deg") (g : Fld α)
    (h : xform tr f base target "deg" = .ok g) : g.ax0.unit = "deg" ∧ g.ax1.unit = "deg" := by
  unfold xform at h
  cases hd : ind f base with
  | error e => rw [hd] at h; cases h
  | ok d =>
    rw [hd] at h
    simp only at h
    generalize (if d = 0 then f.ax0 else f.ax1) = ax at h
    cases hu : unitFunc ax.unit "deg" with
    | error e => rw [hu] at h; cases h
    | ok k =>
      rw [hu] at h
      simp only at h
      split at h
      · injection h with h; subst h; exact ⟨h0, h1⟩
      split at h
      · cases h
      split at h
      · injection h with h; subst h; exact ⟨by simp, h1⟩
      · injection h with h; subst h; exact ⟨h0, by simp⟩

theorem xforms_default (l : List (String × String × Tr)) (f : Fld α) (h0 : f.ax0.unit = "deg") (h1 : f.ax1.unit = "deg") :
    xforms f (l.map fun p => (p, "")) = xforms f (l.map fun p => (p, "deg")) := by
  induction l generalizing f with
  | nil => rfl
  | cons p r ih =>
    obtain ⟨t, b, tr⟩ := p
    simp only [List.map_cons, xforms, xform_default tr f b t h0 h1]
    cases hx : xform tr f b t "deg" with
    | error e => rfl
    | ok g => exact ih g (xform_units tr f b t h0 h1 g hx).1 (xform_units tr f b t h0 h1 g hx).2

theorem plan_length (sel : List (String × String × Tr)) (order : List String) (p : List (String × String × Tr))
    (h : plan sel order = .ok p) : p.length = order.length := by
  induction order generalizing p with
  | nil => injection h with h; subst h; rfl
  | cons a r ih =>
    unfold plan at h
    split at h
    · cases hr : plan sel r with
      | error e => rw [hr] at h; exact absurd h (by simp [Except.map])
      | ok q => rw [hr] at h; injection h with h; subst h; simp [ih q hr]
    · exact absurd h (by simp)

theorem convert_default (f : Fld α) (order : List String) (m : Mapping) (h0 : f.ax0.unit = "deg") (h1 : f.ax1.unit = "deg") :
    convert f order m (.str "") = convert f order m (.str "deg") := by
  have hzip : ∀ (p : List (String × String × Tr)) (w : String), p.length = order.length →
      p.zip (order.map fun _ => w) = p.map fun q => (q, w) := by
    intro p w hp
    rw [List.map_const', ← hp]
    clear hp
    induction p with
    | nil => rfl
    | cons a r ih => simp [List.replicate_succ, ih]
  unfold convert
  cases choose f order m with
  | error e => rfl
  | ok sel =>
    simp only
    cases hp : plan sel order with
    | error e => rfl
    | ok p =>
      simp only [prepUnits]
      rw [hzip p _ (plan_length sel order p hp), hzip p _ (plan_length sel order p hp), xforms_default p f h0 h1]

/-- C141: if no units are asked for, those of fields in degrees are kept (those in radians are taken for degrees:
    `C141_radians_violated`) -/
theorem C141_default_partial (f : Fld α) (order : List String) (h0 : f.ax0.unit = "deg") (h1 : f.ax1.unit = "deg") :
    asMapfield f order (.str "") = asMapfield f order (.str "deg") ∧ asSpherefield f order (.str "") = asSpherefield f order (.str "deg") :=
  ⟨convert_default f order _ h0 h1, convert_default f order _ h0 h1⟩

/-- C141: a field of longitude and latitude in the units asked for is itself, or its transpose -/
theorem C141_same (f : Fld α) (u : String) (h0 : f.ax0.unit = u) (h1 : f.ax1.unit = u)
    (hn : f.ax0.name = "lon" ∧ f.ax1.name = "lat" ∨ f.ax0.name = "lat" ∧ f.ax1.name = "lon") :
    asMapfield f [f.ax0.name, f.ax1.name] (.str u) = .ok f ∧ asMapfield f [f.ax1.name, f.ax0.name] (.str u) = .ok (transpose f) := by
  have hx : ∀ a, a = f.ax0.name ∨ a = f.ax1.name → xform .noop f a a u = .ok f := by
    intro a ha
    have hu : unitFunc u u = .ok none := by simp [unitFunc]
    unfold xform
    rcases ha with rfl | rfl
    · simp [ind, h0, hu]
    · by_cases hne : f.ax0.name = f.ax1.name
      · simp [ind, hne, h0, hu]
      · simp [ind, hne, h1, hu]
  have e1 := hx "lon" (by rcases hn with ⟨n0, n1⟩ | ⟨n0, n1⟩ <;> simp [n0, n1])
  have e2 := hx "lat" (by rcases hn with ⟨n0, n1⟩ | ⟨n0, n1⟩ <;> simp [n0, n1])
  rcases hn with ⟨n0, n1⟩ | ⟨n0, n1⟩ <;>
    simp [asMapfield, convert, choose, n0, n1, plan, Except.map, prepUnits, xforms, e1, e2]

/-- C141: colatitudes beyond a half turn, or below zero, are a ValueError -/
theorem C141_range (f : Fld α) (u v : String) (lp lt : List ℝ) (hu : IsAngle u) (hv : IsAngle v)
    (hf : f.ax0 = ⟨"phi", u, lp⟩ ∧ f.ax1 = ⟨"theta", u, lt⟩ ∨ f.ax1 = ⟨"phi", u, lp⟩ ∧ f.ax0 = ⟨"theta", u, lt⟩)
    (hrange : ∃ y ∈ lt, y < 0 ∨ inUnits "deg" u 180 < y) (order : List String) (ho : order = ["lon", "lat"] ∨ order = ["lat", "lon"]) :
    asMapfield f order (.str v) = .error .value := by
  have hbad : ∀ k : ℝ → ℝ, (∀ x, k x = inUnits u v x) → theta2lat v (lt.map k) = .error .value := by
    intro k hk
    obtain ⟨y, hy, hlt⟩ := hrange
    unfold theta2lat
    rw [if_pos]
    have hpi := Real.pi_pos
    have hmem : p90 v - inUnits u v y ∈ (lt.map k).map fun t => p90 v - t :=
      List.mem_map.mpr ⟨k y, List.mem_map.mpr ⟨y, hy, rfl⟩, by rw [hk]⟩
    rcases hlt with hlt | hlt
    · refine .inr ⟨_, hmem, ?_⟩
      have : inUnits u v y < 0 := by
        rcases hu with rfl | rfl <;> rcases hv with rfl | rfl <;> simp [inUnits] at *
        · exact hlt
        · rw [div_lt_iff₀ (by norm_num)]; nlinarith
        · rw [div_lt_iff₀ hpi]; linarith
        · exact hlt
      linarith
    · refine .inl ⟨_, hmem, ?_⟩
      have : 2 * p90 v < inUnits u v y := by
        rcases hu with rfl | rfl <;> rcases hv with rfl | rfl <;> simp [inUnits, p90] at *
        · linarith
        · rw [lt_div_iff₀ (by norm_num)]; nlinarith
        · rw [lt_div_iff₀ hpi]; linarith
        · linarith
      linarith
  obtain ⟨k, hk, hk2, hk3⟩ := unitFunc_spec hu hv
  have hv0 : v ≠ "" := by rcases hv with rfl | rfl <;> decide
  have hx : ∀ g : Fld α, (g.ax0 = ⟨"theta", u, lt⟩ ∨ g.ax0.name ≠ "theta" ∧ g.ax1 = ⟨"theta", u, lt⟩) →
      xform .theta2lat g "theta" "lat" v = .error .value := by
    intro g hg
    unfold xform ind
    rcases hg with hg | ⟨hg0, hg⟩
    · simp [hg, hk, hbad _ hk2, Except.map]
    · rw [if_neg hg0]
      simp [hg, hk, hbad _ hk2, Except.map]
  have hfirst : xform .theta2lat f "theta" "lat" v = .error .value := by
    apply hx
    rcases hf with ⟨h0, h1⟩ | ⟨h1, h0⟩
    · exact .inr ⟨by rw [h0]; simp, h1⟩
    · exact .inl h0
  have hsecond : ∃ g, xform .noop f "phi" "lon" v = .ok g ∧ xform .theta2lat g "theta" "lat" v = .error .value := by
    rcases hf with ⟨h0, h1⟩ | ⟨h1, h0⟩
    · obtain ⟨g, e, m⟩ := xform_noop f 0 "phi" "lon" u v (ind0 f _ (by rw [h0])) (.inl rfl) (by simp [h0]) (by simp [h0]) hu hv
      refine ⟨g, e, hx g (.inr ⟨?_, ?_⟩)⟩
      · have := m.ax; simp only [if_true] at this; rw [this]; simp
      · have := m.other; simp only [if_true] at this; rw [this, h1]
    · obtain ⟨g, e, m⟩ := xform_noop f 1 "phi" "lon" u v (ind1 f _ (by rw [h0]; simp) (by rw [h1])) (.inr rfl) (by simp [h1])
        (by simp [h1]) hu hv
      refine ⟨g, e, hx g (.inl ?_)⟩
      have := m.other; simp only [one_ne_zero, if_false] at this; rw [this, h0]
  obtain ⟨g, e1, e2⟩ := hsecond
  rcases hf with ⟨h0, h1⟩ | ⟨h1, h0⟩ <;> rcases ho with rfl | rfl <;>
    simp [asMapfield, convert, choose, h0, h1, plan, Except.map, prepUnits, xforms, hfirst, e1, e2]

/-- C141 is false of vectors whose components come first if theta is the first axis: their components are reversed, not their data
    (mapfield.py:83 compares with `<`) -/
theorem C141_flat_violated :
    ∃ f g : Fld (List Nat), f.ax0 = ⟨"theta", "deg", [0, 90]⟩ ∧ f.ax1 = ⟨"phi", "deg", [0]⟩ ∧ f.layout = .flat 2 ∧
      asMapfield f ["lon", "lat"] (.str "deg") = .ok g ∧
      HasValue f "phi" 0 "theta" 0 0 [0, 0, 0] ∧ ¬ HasValue g "lon" 0 "lat" 90 0 [0, 0, 0] := by
  let f : Fld (List Nat) := ⟨⟨"theta", "deg", [0, 90]⟩, ⟨"phi", "deg", [0]⟩, .flat 2, id⟩
  refine ⟨f, ⟨⟨"lon", "deg", [0]⟩, ⟨"lat", "deg", [0, 90]⟩, .flat 2, fun idx =>
    (transpose ⟨⟨"lat", "deg", [0, 90]⟩, ⟨"lon", "deg", [0]⟩, .flat 2, reverse ⟨⟨"theta", "deg", [0, 90]⟩, ⟨"lon", "deg", [0]⟩, .flat 2, id⟩ 0⟩).data idx⟩,
    rfl, rfl, rfl, ?_, ⟨0, 0, .inr ⟨rfl, rfl, rfl, rfl⟩, rfl⟩, ?_⟩
  · have hu : unitFunc "deg" "deg" = .ok none := by simp [unitFunc]
    have ht : theta2lat "deg" [0, 90] = .ok [90, 0] := by
      simp [theta2lat, p90]
    simp [asMapfield, convert, choose, f, plan, Except.map, prepUnits, xforms, xform, ind, hu, ht, transpose, ddat]
  · rintro ⟨i, j, ⟨_, _, h3, h4⟩ | ⟨h1, _⟩, hv⟩
    · have hi : i = 0 := by
        have := (List.getElem?_eq_some_iff.mp h3).1
        simpa using this
      have hj : j = 1 := by
        obtain ⟨hlt, he⟩ := List.getElem?_eq_some_iff.mp h4
        simp at hlt
        obtain rfl | rfl : j = 0 ∨ j = 1 := by omega
        · norm_num at he
        · rfl
      subst hi hj
      simp [value, transpose, reverse, shape, List.modify] at hv
    · simp at h1

/-- C141 is false of fields in radians if no units are asked for: they stay as they are, and the latitude is 90 minus the colatitude -/
theorem C141_radians_violated (y x : ℝ) (h0 : 0 ≤ y) (h1 : y ≤ Real.pi) (data : List Nat → α) :
    ∃ g, asMapfield ⟨⟨"phi", "rad", [x]⟩, ⟨"theta", "rad", [y]⟩, .scalar, data⟩ ["lon", "lat"] (.str "") = .ok g ∧
      g.ax1 = ⟨"lat", "rad", [90 - y]⟩ := by
  have hu : unitFunc "rad" "" = .ok none := by simp [unitFunc]
  have hpi := Real.pi_le_four
  have ht : theta2lat "" [y] = .ok [90 - y] := by
    unfold theta2lat
    rw [if_neg]
    · simp [p90]
    · simp [p90]
      constructor <;> linarith
  refine ⟨⟨⟨"lon", "rad", [x]⟩, ⟨"lat", "rad", [90 - y]⟩, .scalar, reverse ⟨⟨"lon", "rad", [x]⟩, ⟨"theta", "rad", [y]⟩, .scalar, data⟩ 1⟩, ?_, rfl⟩
  simp [asMapfield, convert, choose, plan, Except.map, prepUnits, xforms, xform, ind, hu, ht, ddat]

/-- C141 is false of units given as a tuple: a TypeError -/
theorem C141_tuple_violated (f : Fld α) (l : List String) (hn : f.ax0.name = "phi" ∧ f.ax1.name = "theta") :
    asMapfield f ["lon", "lat"] (.tuple l) = .error .type := by
  simp [asMapfield, convert, choose, hn, plan, Except.map, prepUnits]

/-- C141: the hypotheses are met by some scalar fields and by vectors whose components are last, with theta first -/
example : ∃ g, asMapfield (⟨⟨"theta", "deg", [0, 60, 180]⟩, ⟨"phi", "deg", [0, 180]⟩, .interlaced 3, id⟩ : Fld (List Nat))
    ["lat", "lon"] (.str "rad") = .ok g ∧ Mapped "phi" "theta" "deg" "lon" "lat" "rad" ["lat", "lon"]
      (⟨⟨"theta", "deg", [0, 60, 180]⟩, ⟨"phi", "deg", [0, 180]⟩, .interlaced 3, id⟩ : Fld (List Nat)) g :=
  C141_mapfield_partial _ "deg" "rad" [0, 180] [0, 60, 180] (.inl rfl) (.inr rfl) (.inr ⟨rfl, rfl⟩) (fun n h => by simp at h)
    (by simp [inUnits]; norm_num) _ (.inr rfl) _ (.inl rfl)

end Viscid.Props
