import Verif.Spec.PointDeriv
import Verif.Props.Interp
import Mathlib.Tactic.FieldSimp
/-!
# C33: derivatives at a point
-/
namespace Viscid.PointDeriv
open Viscid.Interp Viscid.Spec.Interp Viscid.Spec.PointDeriv

/-- Interpolation of an affine field is exact and leaves a usable cache. -/
theorem trilin_affine (B : VFld) (k : Fin 3 → ℚ) (J : Fin 3 → Fin 3 → ℚ) (hB : AffineField B k J)
    (hx : Valid B.ax) (hy : Valid B.ay) (hz : Valid B.az) (m : Fin 3) (x y z : ℚ) (h1 : InRange B.ax x)
    (h2 : InRange B.ay y) (h3 : InRange B.az z) (c : Cache) (hc : CacheOk (B.grid m) c) :
    ∃ c', trilin (B.grid m) x y z c = some (k m + J m 0 * x + J m 1 * y + J m 2 * z, c') ∧ CacheOk (B.grid m) c' := by
  obtain ⟨c1, e1⟩ := C17_multilinear_exact (B.grid m) ⟨hx, hy, hz⟩ ⟨k m, J m 0, J m 1, J m 2, 0, 0, 0, 0⟩
    (fun i j l x y z hi hj hl => by rw [show (B.grid m).data i j l = B.data m i j l from rfl, hB m i j l x y z hi hj hl]; simp [Multilinear.eval])
    x y z h1 h2 h3 c hc
  obtain ⟨v, c2, e2, e3⟩ := C17_in_bounds (B.grid m) ⟨hx, hy, hz⟩ x y z c hc
  rw [e1] at e2
  obtain ⟨rfl, rfl⟩ := Prod.mk.inj (Option.some.inj e2)
  refine ⟨c1, ?_, e3⟩
  rw [e1]; simp [Multilinear.eval]

theorem sweep_affine (B : VFld) (k : Fin 3 → ℚ) (J : Fin 3 → Fin 3 → ℚ) (hB : AffineField B k J)
    (hx : Valid B.ax) (hy : Valid B.ay) (hz : Valid B.az) (m : Fin 3) (pts : List (ℚ × ℚ × ℚ))
    (hp : ∀ p ∈ pts, InRange B.ax p.1 ∧ InRange B.ay p.2.1 ∧ InRange B.az p.2.2) (c : Cache)
    (hc : CacheOk (B.grid m) c) :
    sweep trilin (pts.map fun p => (B.grid m, p)) c =
      some (pts.map fun p => k m + J m 0 * p.1 + J m 1 * p.2.1 + J m 2 * p.2.2) := by
  induction pts generalizing c with
  | nil => rfl
  | cons p ps ih =>
    obtain ⟨x, y, z⟩ := p
    have h := hp (x, y, z) List.mem_cons_self
    obtain ⟨c', e, hc'⟩ := trilin_affine B k J hB hx hy hz m x y z h.1 h.2.1 h.2.2 c hc
    rw [List.map_cons, List.map_cons]
    unfold sweep
    rw [e]
    dsimp only
    rw [ih (fun p h => hp p (List.mem_cons_of_mem _ h)) c' hc']

theorem closest_ok (a : Axis) (ha : Valid a) (v : ℚ) : ∃ i, closest a v 0 = some i ∧ i < a.n := by
  have h := C19_nearest ⟨a, a, a, fun _ _ _ => 0⟩ ⟨ha, ha, ha⟩ v v v (0, 0, 0)
    (by have : 0 < a.n := List.length_pos_iff.mpr ha.ne; exact ⟨this, this, this⟩)
  obtain ⟨i, j, k, xi, yj, zk, c', e, -⟩ := h
  unfold nearest at e
  dsimp only at e
  cases hp : preceding a v 0 with
  | none => rw [hp] at e; cases e
  | some p =>
    rw [hp] at e
    dsimp only at e
    cases hq : closest a v 0 with
    | none => rw [hq] at e; cases e
    | some q =>
      rw [hq] at e
      dsimp only at e
      refine ⟨q, rfl, ?_⟩
      split at e
      · rename_i hin
        unfold Grid.inside at hin
        simpa using hin
      · cases e

theorem spacing_given (a : Axis) (ha : Valid a) (v d : ℚ) : spacing a v (some d) = some d := by
  obtain ⟨i, e, -⟩ := closest_ok a ha v
  unfold spacing; rw [e]

theorem localPoints_affine (names : List String) (hnm : "closest_ind" ∈ names) (B : VFld) (k : Fin 3 → ℚ)
    (J : Fin 3 → Fin 3 → ℚ) (hB : AffineField B k J) (hx : Valid B.ax) (hy : Valid B.ay) (hz : Valid B.az)
    (x y z : ℚ) (dx dy dz : Option ℚ) (hx' hy' hz' : ℚ) (sx : spacing B.ax x dx = some hx')
    (sy : spacing B.ay y dy = some hy') (sz : spacing B.az z dz = some hz')
    (rx : Room B.ax x hx') (ry : Room B.ay y hy') (rz : Room B.az z hz') :
    ∃ bs, localPoints names B x y z dx dy dz = some (bs, ![hx', hy', hz']) ∧
      ∀ m, bs 0 m = k m + J m 0 * (x - hx') + J m 1 * y + J m 2 * z ∧
        bs 1 m = k m + J m 0 * (x + hx') + J m 1 * y + J m 2 * z ∧
        bs 2 m = k m + J m 0 * x + J m 1 * (y - hy') + J m 2 * z ∧
        bs 3 m = k m + J m 0 * x + J m 1 * (y + hy') + J m 2 * z ∧
        bs 4 m = k m + J m 0 * x + J m 1 * y + J m 2 * (z - hz') ∧
        bs 5 m = k m + J m 0 * x + J m 1 * y + J m 2 * (z + hz') := by
  unfold localPoints
  rw [if_neg (not_not_intro hnm), sx, sy, sz]
  dsimp only
  have hc : ∀ m, CacheOk (B.grid m) (0, 0, 0) := fun m =>
    ⟨List.length_pos_iff.mpr hx.ne, List.length_pos_iff.mpr hy.ne, List.length_pos_iff.mpr hz.ne⟩
  have hrun : ∀ m, _ := fun m => sweep_affine B k J hB hx hy hz m
    [(x - hx', y, z), (x + hx', y, z), (x, y - hy', z), (x, y + hy', z), (x, y, z - hz'), (x, y, z + hz')]
    (by
      intro p hp
      simp only [List.mem_cons, List.not_mem_nil, or_false] at hp
      rcases hp with rfl | rfl | rfl | rfl | rfl | rfl
      · exact ⟨rx.2.1, ry.1, rz.1⟩
      · exact ⟨rx.2.2, ry.1, rz.1⟩
      · exact ⟨rx.1, ry.2.1, rz.1⟩
      · exact ⟨rx.1, ry.2.2, rz.1⟩
      · exact ⟨rx.1, ry.1, rz.2.1⟩
      · exact ⟨rx.1, ry.1, rz.2.2⟩) (0, 0, 0) (hc m)
  rw [hrun 0, hrun 1, hrun 2]
  refine ⟨_, rfl, fun m => ?_⟩
  match m with
  | 0 => exact ⟨rfl, rfl, rfl, rfl, rfl, rfl⟩
  | 1 => exact ⟨rfl, rfl, rfl, rfl, rfl, rfl⟩
  | 2 => exact ⟨rfl, rfl, rfl, rfl, rfl, rfl⟩

/-- C33 fails outright: the module does not export closest_ind, so jacobian_at_point, div_at_point and
curl_at_point raise for every field, point and spacing. -/
theorem C33_at_point_violated (B : VFld) (x y z : ℚ) (dx dy dz : Option ℚ) :
    jacobianAtPoint cycalcNames B x y z dx dy dz = none ∧ divAtPoint cycalcNames B x y z dx dy dz = none ∧
      curlAtPoint cycalcNames B x y z dx dy dz = none := by
  have h : localPoints cycalcNames B x y z dx dy dz = none := by
    unfold localPoints; rw [if_pos (by decide)]
  unfold jacobianAtPoint divAtPoint curlAtPoint
  rw [h]
  exact ⟨rfl, rfl, rfl⟩

/-- C33, what would hold if closest_ind were exported: Jacobian and divergence of an affine field are exact
wherever the six points are inside the grid, for given spacings and for the default ones. -/
theorem C33_jacobian_div_partial (names : List String) (hnm : "closest_ind" ∈ names) (B : VFld) (k : Fin 3 → ℚ)
    (J : Fin 3 → Fin 3 → ℚ) (hB : AffineField B k J) (hx : Valid B.ax) (hy : Valid B.ay) (hz : Valid B.az)
    (x y z : ℚ) (dx dy dz : Option ℚ) (hx' hy' hz' : ℚ) (sx : spacing B.ax x dx = some hx')
    (sy : spacing B.ay y dy = some hy') (sz : spacing B.az z dz = some hz') (nx : hx' ≠ 0) (ny : hy' ≠ 0) (nz : hz' ≠ 0)
    (rx : Room B.ax x hx') (ry : Room B.ay y hy') (rz : Room B.az z hz') :
    jacobianAtPoint names B x y z dx dy dz = some J ∧
      divAtPoint names B x y z dx dy dz = some (J 0 0 + J 1 1 + J 2 2) := by
  obtain ⟨bs, e, hb⟩ := localPoints_affine names hnm B k J hB hx hy hz x y z dx dy dz hx' hy' hz' sx sy sz rx ry rz
  unfold jacobianAtPoint divAtPoint
  rw [e]
  dsimp only
  refine ⟨?_, ?_⟩
  · congr 1
    funext i j
    obtain ⟨h0, h1, h2, h3, h4, h5⟩ := hb i
    match j with
    | 0 =>
      show (bs 1 i - bs 0 i) / (2 * hx') = J i 0
      rw [h0, h1]; field_simp; ring
    | 1 =>
      show (bs 3 i - bs 2 i) / (2 * hy') = J i 1
      rw [h2, h3]; field_simp; ring
    | 2 =>
      show (bs 5 i - bs 4 i) / (2 * hz') = J i 2
      rw [h4, h5]; field_simp; ring
  · congr 1
    show 0 + (bs 1 0 - bs 0 0) / (2 * hx') + (bs 3 1 - bs 2 1) / (2 * hy') + (bs 5 2 - bs 4 2) / (2 * hz') = _
    rw [(hb 0).1, (hb 0).2.1, (hb 1).2.2.1, (hb 1).2.2.2.1, (hb 2).2.2.2.2.1, (hb 2).2.2.2.2.2]
    field_simp
    ring

/-- The spacing hypotheses are met by given spacings. -/
theorem C33_given_spacing (a : Axis) (ha : Valid a) (x d : ℚ) : spacing a x (some d) = some d := spacing_given a ha x d

/-- C33: the default spacing is the distance from the closest grid point to the next one; when the closest is
the last grid point it raises. -/
theorem C33_default_spacing (a : Axis) (ha : Valid a) (x : ℚ) :
    ∃ i, closest a x 0 = some i ∧ i < a.n ∧
      (∀ p q, a.crds[i]? = some p → a.crds[i + 1]? = some q → spacing a x none = some (q - p) ∧ q - p ≠ 0) ∧
      (i + 1 = a.n → spacing a x none = none) := by
  obtain ⟨i, e, hi⟩ := closest_ok a ha x
  refine ⟨i, e, hi, fun p q hp hq => ⟨?_, ?_⟩, fun h => ?_⟩
  · unfold spacing; rw [e]; dsimp only; rw [hp, hq]
  · exact sub_ne_zero.mpr (ne_of_gt (ha.inc i (i + 1) p q hp hq (by omega)))
  · unfold spacing; rw [e]; dsimp only
    rw [List.getElem?_eq_none (by unfold Axis.n at h; omega)]

/-- C33, curl: even with closest_ind exported, curl_at_point differences components along the wrong axes: with
equal spacings the components come out as below. -/
theorem C33_curl_value (names : List String) (hnm : "closest_ind" ∈ names) (B : VFld) (k : Fin 3 → ℚ)
    (J : Fin 3 → Fin 3 → ℚ) (hB : AffineField B k J) (hx : Valid B.ax) (hy : Valid B.ay) (hz : Valid B.az)
    (x y z h : ℚ) (hh : h ≠ 0) (rx : Room B.ax x h) (ry : Room B.ay y h) (rz : Room B.az z h) :
    curlAtPoint names B x y z (some h) (some h) (some h) =
      some ![J 2 1 - J 1 0, J 0 0 - J 2 2, J 1 2 - J 0 1] := by
  obtain ⟨bs, e, hb⟩ := localPoints_affine names hnm B k J hB hx hy hz x y z _ _ _ h h h
    (spacing_given _ hx x h) (spacing_given _ hy y h) (spacing_given _ hz z h) rx ry rz
  unfold curlAtPoint
  rw [e]
  dsimp only
  congr 1
  funext i
  have b0 := hb 0
  have b1 := hb 1
  have b2 := hb 2
  match i with
  | 0 =>
    show (bs 3 2 - bs 2 2) / (2 * h) - (bs 1 1 - bs 0 1) / (2 * h) = _
    rw [b2.2.2.1, b2.2.2.2.1, b1.1, b1.2.1]; simp only [Matrix.cons_val]; field_simp; ring
  | 1 =>
    show (bs 1 0 - bs 0 0) / (2 * h) - (bs 5 2 - bs 4 2) / (2 * h) = _
    rw [b0.1, b0.2.1, b2.2.2.2.2.1, b2.2.2.2.2.2]; simp only [Matrix.cons_val]; field_simp; ring
  | 2 =>
    show (bs 5 1 - bs 4 1) / (2 * h) - (bs 3 0 - bs 2 0) / (2 * h) = _
    rw [b1.2.2.2.2.1, b1.2.2.2.2.2, b0.2.2.1, b0.2.2.2.1]; simp only [Matrix.cons_val]; field_simp; ring

/-- A 3 by 3 by 3 grid with the rotation B = (-y, x, 0), whose curl is (0, 0, 2). -/
def rotationField : VFld where
  ax := ⟨[0, 1, 2], false⟩
  ay := ⟨[0, 1, 2], false⟩
  az := ⟨[0, 1, 2], false⟩
  data := fun m i j _ => ![-(j : ℚ), (i : ℚ), 0] m

/-- C33, curl: on this field the value is (-1, 0, 1) instead of (0, 0, 2). -/
theorem C33_curl_violated :
    curlOf ![![0, -1, 0], ![1, 0, 0], ![0, 0, 0]] = ![(0:ℚ), 0, 2] ∧
    (curlAtPoint ["closest_ind"] rotationField 1 1 1 none none none).map (fun c => (c 0, c 1, c 2)) = some (-1, 0, 1) ∧
    (jacobianAtPoint ["closest_ind"] rotationField 1 1 1 none none none).map
      (fun J => (J 0 1, J 1 0, J 0 0, J 2 2)) = some (-1, 1, 0, 0) := by
  refine ⟨?_, by decide +kernel, by decide +kernel⟩
  unfold curlOf
  funext i
  match i with
  | 0 => show (0:ℚ) - 0 = 0; ring
  | 1 => show (0:ℚ) - 0 = 0; ring
  | 2 => show (1:ℚ) - -1 = 2; ring

/-- C33, index version: jacobian_at_ind of an affine field is exact at every index that has a successor on
each axis, provided the axis has at least three points (at index 0 the predecessor is the last point, which
does no harm for affine fields). -/
theorem C33_jacobian_at_ind (B : VFld) (k : Fin 3 → ℚ) (J : Fin 3 → Fin 3 → ℚ) (hB : AffineField B k J)
    (hx : Valid B.ax) (hy : Valid B.ay) (hz : Valid B.az) (nx : 3 ≤ B.ax.n) (ny : 3 ≤ B.ay.n) (nz : 3 ≤ B.az.n)
    (i j l : Nat) (hi : i + 1 < B.ax.n) (hj : j + 1 < B.ay.n) (hl : l + 1 < B.az.n) (m a : Fin 3) :
    jacobianAtInd B i j l m a = some (J m a) := by
  have key : ∀ (ax : Axis), Valid ax → 3 ≤ ax.n → ∀ t : Nat, t + 1 < ax.n →
      ∃ (u v : Nat) (p q : ℚ), npIndex ax.n ((t : Int) + 1) = some u ∧ npIndex ax.n ((t : Int) - 1) = some v ∧
        ax.crds[u]? = some p ∧ ax.crds[v]? = some q ∧ p - q ≠ 0 := by
    intro ax hv h3 t ht
    have h1 : npIndex ax.n ((t : Int) + 1) = some (t + 1) := by
      unfold npIndex; rw [if_pos (by omega)]; rfl
    have get : ∀ u, u < ax.n → ∃ p, ax.crds[u]? = some p := fun u hu => ⟨_, List.getElem?_eq_getElem hu⟩
    obtain ⟨p, hp⟩ := get (t + 1) ht
    by_cases h0 : t = 0
    · obtain ⟨q, hq⟩ := get (ax.n - 1) (by omega)
      refine ⟨t + 1, ax.n - 1, p, q, h1, ?_, hp, hq, sub_ne_zero.mpr (ne_of_lt (hv.inc _ _ p q hp hq (by omega)))⟩
      unfold npIndex
      rw [if_neg (by omega), if_pos (by omega)]
      congr 1; omega
    · obtain ⟨q, hq⟩ := get (t - 1) (by omega)
      refine ⟨t + 1, t - 1, p, q, h1, ?_, hp, hq, sub_ne_zero.mpr (ne_of_gt (hv.inc _ _ q p hq hp (by omega)))⟩
      unfold npIndex
      rw [if_pos (by omega)]
      congr 1; omega
  have same : ∀ (ax : Axis) (t : Nat), t + 1 < ax.n → npIndex ax.n (t : Int) = some t ∧ ∃ p, ax.crds[t]? = some p := by
    intro ax t ht
    refine ⟨?_, _, List.getElem?_eq_getElem (by unfold Axis.n at ht; omega)⟩
    unfold npIndex; rw [if_pos (by omega)]; rfl
  obtain ⟨ei, pi, hpi⟩ := same B.ax i hi
  obtain ⟨ej, pj, hpj⟩ := same B.ay j hj
  obtain ⟨el, pl, hpl⟩ := same B.az l hl
  unfold jacobianAtInd
  match a with
  | 0 =>
    obtain ⟨u, v, p, q, e1, e2, e3, e4, ne⟩ := key B.ax hx nx i hi
    show ratio _ _ _ _ = some (J m 0)
    have g1 : npGet B.ax.crds ((i : Int) + 1) = some p := by
      unfold npGet; rw [show B.ax.crds.length = B.ax.n from rfl, e1]; exact e3
    have g2 : npGet B.ax.crds ((i : Int) - 1) = some q := by
      unfold npGet; rw [show B.ax.crds.length = B.ax.n from rfl, e2]; exact e4
    unfold npData
    rw [g1, g2, e1, e2, ej, el]
    unfold ratio
    dsimp only
    rw [hB m u j l p pj pl e3 hpj hpl, hB m v j l q pj pl e4 hpj hpl]
    congr 1
    rw [div_eq_iff ne]; ring
  | 1 =>
    obtain ⟨u, v, p, q, e1, e2, e3, e4, ne⟩ := key B.ay hy ny j hj
    show ratio _ _ _ _ = some (J m 1)
    have g1 : npGet B.ay.crds ((j : Int) + 1) = some p := by
      unfold npGet; rw [show B.ay.crds.length = B.ay.n from rfl, e1]; exact e3
    have g2 : npGet B.ay.crds ((j : Int) - 1) = some q := by
      unfold npGet; rw [show B.ay.crds.length = B.ay.n from rfl, e2]; exact e4
    unfold npData
    rw [g1, g2, e1, e2, ei, el]
    unfold ratio
    dsimp only
    rw [hB m i u l pi p pl hpi e3 hpl, hB m i v l pi q pl hpi e4 hpl]
    congr 1
    rw [div_eq_iff ne]; ring
  | 2 =>
    obtain ⟨u, v, p, q, e1, e2, e3, e4, ne⟩ := key B.az hz nz l hl
    show ratio _ _ _ _ = some (J m 2)
    have g1 : npGet B.az.crds ((l : Int) + 1) = some p := by
      unfold npGet; rw [show B.az.crds.length = B.az.n from rfl, e1]; exact e3
    have g2 : npGet B.az.crds ((l : Int) - 1) = some q := by
      unfold npGet; rw [show B.az.crds.length = B.az.n from rfl, e2]; exact e4
    unfold npData
    rw [g1, g2, e1, e2, ei, ej]
    unfold ratio
    dsimp only
    rw [hB m i j u pi pj p hpi hpj e3, hB m i j v pi pj q hpi hpj e4]
    congr 1
    rw [div_eq_iff ne]; ring

/-- The hypotheses of the partial theorem and of the index version are met. -/
example : AffineField rotationField ![0, 0, 0] ![![0, -1, 0], ![1, 0, 0], ![0, 0, 0]] ∧
    Room rotationField.ax 1 1 ∧ Room rotationField.ay 1 (1/2) ∧ spacing rotationField.ax 1 none = some 1 ∧
    3 ≤ rotationField.ax.n := by
  have ir : ∀ x : ℚ, 0 ≤ x → x ≤ 2 → InRange (⟨[0, 1, 2], false⟩ : Axis) x := by
    intro x h0 h2
    constructor <;> simpa using (by assumption)
  refine ⟨?_, ?_, ?_, by decide +kernel, by decide⟩
  · intro m i j l x y z hi hj hl
    have c : ∀ (t : Nat) (x : ℚ), ([0, 1, 2] : List ℚ)[t]? = some x → x = t := by
      intro t x h
      match t with
      | 0 => simp at h; rw [← h]; rfl
      | 1 => simp at h; rw [← h]; norm_num
      | 2 => simp at h; rw [← h]; norm_num
      | t + 3 => simp at h
    have e1 := c i x hi
    have e2 := c j y hj
    subst e1 e2
    match m with
    | 0 => show -(j : ℚ) = 0 + 0 * (i : ℚ) + -1 * (j : ℚ) + 0 * z; ring
    | 1 => show (i : ℚ) = 0 + 1 * (i : ℚ) + 0 * (j : ℚ) + 0 * z; ring
    | 2 => show (0 : ℚ) = 0 + 0 * (i : ℚ) + 0 * (j : ℚ) + 0 * z; ring
  · exact ⟨ir _ (by norm_num) (by norm_num), ir _ (by norm_num) (by norm_num), ir _ (by norm_num) (by norm_num)⟩
  · exact ⟨ir _ (by norm_num) (by norm_num), ir _ (by norm_num) (by norm_num), ir _ (by norm_num) (by norm_num)⟩

end Viscid.PointDeriv
