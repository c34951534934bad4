import Verif.Model.AlongLine
import Mathlib.Analysis.SpecialFunctions.Pow.Real
import Mathlib.Tactic.FieldSimp
import Mathlib.Tactic.NormNum
/-!
# C173 the component of a field along a line

The specification is written out in the statements: the component of the vector `v` along `t` is `(v · t) / |t|`.
-/
namespace Viscid.Props
open Viscid.AlongLine
open Viscid.LineInt (V Err sub bcast)

set_option linter.unusedSectionVars false
variable {K : Type} [Field K] [DecidableEq K]

theorem central_length (line : List (V K)) : (central line).length = line.length - 2 := by
  unfold central
  simp

theorem central_get (line : List (V K)) (i : Nat) (p q : V K) (hp : line[i]? = some p) (hq : line[i + 2]? = some q) : (central line)[i]? = some (sub q p) := by
  have hlt : i + 2 < line.length := (List.getElem?_eq_some_iff.mp hq).1
  unfold central
  rw [List.getElem?_zipWith, List.getElem?_drop, List.getElem?_take, Nat.add_comm 2 i, hq, if_pos (by omega), hp]

theorem tangents_length (line : List (V K)) (h : 4 ≤ line.length) : (tangents line).length = line.length := by
  unfold tangents lastButOne
  simp only [List.length_append, List.length_take, List.length_drop, central_length]
  omega

theorem project_ok (nrm : V K → K) (fld : V K → V K) (line : List (V K)) (h : 4 ≤ line.length) :
    project nrm fld line = .ok (List.zipWith (along nrm) (line.map fld) (tangents line)) := by
  unfold project bcast
  rw [if_pos (by rw [List.length_map, tangents_length line h])]

theorem tangents_get (line : List (V K)) (h : 4 ≤ line.length) :
    (∀ p q, line[0]? = some p → line[2]? = some q → (tangents line)[0]? = some (sub q p)) ∧
    (∀ i p q, line[i]? = some p → line[i + 2]? = some q → (tangents line)[i + 1]? = some (sub q p)) ∧
    (∀ p q, line[line.length - 4]? = some p → line[line.length - 2]? = some q → (tangents line)[line.length - 1]? = some (sub q p)) := by
  have hl := central_length line
  refine ⟨fun p q hp hq => ?_, fun i p q hp hq => ?_, fun p q hp hq => ?_⟩
  · have := central_get line 0 p q hp hq
    unfold tangents
    simp only
    rw [List.append_assoc, List.getElem?_append_left (by simp; omega), List.getElem?_take, if_pos (by omega), this]
  · have := central_get line i p q hp hq
    have hi : i < (central line).length := (List.getElem?_eq_some_iff.mp this).1
    unfold tangents
    simp only
    rw [List.append_assoc, List.getElem?_append_right (by rw [List.length_take]; omega), List.length_take, Nat.min_eq_left (by omega), Nat.add_sub_cancel,
      List.getElem?_append_left hi, this]
  · have := central_get line (line.length - 4) p q hp (by rw [show line.length - 4 + 2 = line.length - 2 by omega]; exact hq)
    unfold tangents lastButOne
    simp only
    rw [List.getElem?_append_right (by simp; omega)]
    simp only [List.length_append, List.length_take, hl]
    rw [List.getElem?_drop, List.getElem?_take, if_pos (by omega)]
    rw [show line.length - 2 - 2 + (line.length - 1 - (min 1 (line.length - 2) + (line.length - 2))) = line.length - 4 by omega]
    exact this

/-- C173: for a line of four or more points, at each point but the last the result is the component of the field along the line: along the difference
of the next and the previous point, and at the first point that of the third and the first. Where this difference is zero it is nan. -/
theorem C173_points_partial (nrm : V K → K) (fld : V K → V K) (line : List (V K)) (h : 4 ≤ line.length) :
    ∃ out, project nrm fld line = .ok out ∧ out.length = line.length ∧
      (∀ a q, line[0]? = some a → line[2]? = some q → out[0]? = some (if nrm (sub q a) = 0 then none else
        some (((fld a).1 * (sub q a).1 + (fld a).2.1 * (sub q a).2.1 + (fld a).2.2 * (sub q a).2.2) / nrm (sub q a)))) ∧
      (∀ i p a q, line[i]? = some p → line[i + 1]? = some a → line[i + 2]? = some q → out[i + 1]? = some (if nrm (sub q p) = 0 then none else
        some (((fld a).1 * (sub q p).1 + (fld a).2.1 * (sub q p).2.1 + (fld a).2.2 * (sub q p).2.2) / nrm (sub q p)))) := by
  have hform : ∀ v t : V K, along nrm v t = if nrm t = 0 then none else some ((v.1 * t.1 + v.2.1 * t.2.1 + v.2.2 * t.2.2) / nrm t) := by
    intro v t
    unfold along
    split
    · rfl
    · congr 1; ring
  refine ⟨_, project_ok nrm fld line h, by simp [tangents_length line h], ?_, ?_⟩
  · intro p q hp hq
    rw [List.getElem?_zipWith, List.getElem?_map, hp, (tangents_get line h).1 p q hp hq]
    simp only [Option.map_some]
    rw [hform]
  · intro i p a q hp ha hq
    rw [List.getElem?_zipWith, List.getElem?_map, ha, (tangents_get line h).2.1 i p q hp hq]
    simp only [Option.map_some]
    rw [hform]

/-- the Euclidean norm -/
noncomputable def euclid (v : V ℝ) : ℝ := Real.sqrt (v.1 * v.1 + v.2.1 * v.2.1 + v.2.2 * v.2.2)

theorem euclid_scale (t : ℝ) (ht : 0 < t) (d : V ℝ) : euclid (t * d.1, t * d.2.1, t * d.2.2) = t * euclid d := by
  unfold euclid
  have : t * d.1 * (t * d.1) + t * d.2.1 * (t * d.2.1) + t * d.2.2 * (t * d.2.2) = t ^ 2 * (d.1 * d.1 + d.2.1 * d.2.1 + d.2.2 * d.2.2) := by ring
  simp only
  rw [this, Real.sqrt_mul (by positivity), Real.sqrt_sq (le_of_lt ht)]

/-- C173: along a straight line the result is the component in its direction at every point, the last included -/
theorem C173_straight (fld : V ℝ → V ℝ) (a d : V ℝ) (hd : euclid d ≠ 0) (s : List ℝ) (h4 : 4 ≤ s.length)
    (hs : ∀ (i j : Nat) (x y : ℝ), i < j → s[i]? = some x → s[j]? = some y → x < y) :
    project euclid fld (s.map fun x => (a.1 + x * d.1, a.2.1 + x * d.2.1, a.2.2 + x * d.2.2)) = .ok (s.map fun x =>
      let v := fld (a.1 + x * d.1, a.2.1 + x * d.2.1, a.2.2 + x * d.2.2)
      some ((v.1 * d.1 + v.2.1 * d.2.1 + v.2.2 * d.2.2) / euclid d)) := by
  let P : ℝ → V ℝ := fun x => (a.1 + x * d.1, a.2.1 + x * d.2.1, a.2.2 + x * d.2.2)
  have hlen : (s.map P).length = s.length := by simp
  have hsub : ∀ x y, sub (P y) (P x) = ((y - x) * d.1, (y - x) * d.2.1, (y - x) * d.2.2) := by
    intro x y
    simp only [sub, P, Prod.mk.injEq]
    refine ⟨by ring, by ring, by ring⟩
  have halong : ∀ x y v, x < y → along euclid v (sub (P y) (P x)) = some ((v.1 * d.1 + v.2.1 * d.2.1 + v.2.2 * d.2.2) / euclid d) := by
    intro x y v hxy
    rw [hsub]
    unfold along
    have h1 : (0 : ℝ) < y - x := by linarith
    rw [euclid_scale (y - x) h1 d, if_neg (mul_ne_zero (ne_of_gt h1) hd)]
    congr 1
    field_simp
  show project euclid fld (s.map P) = _
  rw [project_ok euclid fld (s.map P) (by rw [hlen]; exact h4)]
  congr 1
  obtain ⟨t1, t2, t3⟩ := tangents_get (s.map P) (by rw [hlen]; exact h4)
  rw [hlen] at t3
  apply List.ext_getElem?
  intro i
  rcases Nat.lt_or_ge i s.length with hi | hi
  · have hx : s[i]? = some s[i] := List.getElem?_eq_getElem hi
    have hget : ∀ j (hj : j < s.length), (s.map P)[j]? = some (P s[j]) := by
      intro j hj; rw [List.getElem?_map, List.getElem?_eq_getElem hj]; rfl
    rw [List.getElem?_zipWith, List.getElem?_map, hget i hi, List.getElem?_map, hx]
    simp only [Option.map_some]
    have htan : ∃ x y, x < y ∧ (tangents (s.map P))[i]? = some (sub (P y) (P x)) := by
      rcases Nat.eq_zero_or_pos i with rfl | hpos
      · exact ⟨s[0], s[2], hs 0 2 _ _ (by omega) (List.getElem?_eq_getElem (by omega)) (List.getElem?_eq_getElem (by omega)),
          t1 _ _ (hget 0 (by omega)) (hget 2 (by omega))⟩
      · rcases Nat.lt_or_ge (i + 1) s.length with h' | h'
        · refine ⟨s[i - 1], s[i + 1], hs (i - 1) (i + 1) _ _ (by omega) (List.getElem?_eq_getElem (by omega)) (List.getElem?_eq_getElem (by omega)), ?_⟩
          have := t2 (i - 1) _ _ (hget (i - 1) (by omega)) (by rw [show i - 1 + 2 = i + 1 by omega]; exact hget (i + 1) h')
          rwa [show i - 1 + 1 = i by omega] at this
        · refine ⟨s[s.length - 4], s[s.length - 2], hs (s.length - 4) (s.length - 2) _ _ (by omega) (List.getElem?_eq_getElem (by omega)) (List.getElem?_eq_getElem (by omega)), ?_⟩
          have := t3 _ _ (hget (s.length - 4) (by omega)) (hget (s.length - 2) (by omega))
          rwa [show s.length - 1 = i by omega] at this
    obtain ⟨x, y, hxy, ht⟩ := htan
    rw [ht]
    simp only
    rw [halong x y _ hxy]
  · rw [List.getElem?_eq_none (by simp [tangents_length (s.map P) (by rw [hlen]; exact h4)]; omega), List.getElem?_eq_none (by simpa using hi)]

/-- C173 fails at the last point of a bent line: the direction of the last but two points is used. The line ends upwards, and the field is 5 upwards, but
the result is 4 -/
theorem C173_last_violated : project euclid (fun _ => (0, 5, 0)) [(-1, 0, 0), (0, 0, 0), (3, 0, 0), (3, 4, 0), (3, 8, 0)] =
    .ok [some 0, some 0, some 4, some 5, some 4] := by
  have h4 : euclid (4, 0, 0) = 4 := by
    unfold euclid
    rw [show (4 : ℝ) * 4 + 0 * 0 + 0 * 0 = 4 ^ 2 by norm_num]; exact Real.sqrt_sq (by norm_num)
  have h5 : euclid (3, 4, 0) = 5 := by
    unfold euclid
    rw [show (3 : ℝ) * 3 + 4 * 4 + 0 * 0 = 5 ^ 2 by norm_num]; exact Real.sqrt_sq (by norm_num)
  have h8 : euclid (0, 8, 0) = 8 := by
    unfold euclid
    rw [show (0 : ℝ) * 0 + 8 * 8 + 0 * 0 = 8 ^ 2 by norm_num]; exact Real.sqrt_sq (by norm_num)
  rw [project_ok _ _ _ (by simp)]
  simp [tangents, central, lastButOne, sub, along]
  norm_num [h4, h5, h8]

/-- C173 fails for short lines: two or three points are a ValueError, and one point gives an empty list -/
theorem C173_short_violated (nrm : V K → K) (fld : V K → V K) (p q r : V K) :
    project nrm fld [p, q, r] = .error .value ∧ project nrm fld [p, q] = .error .value ∧ project nrm fld [p] = .ok [] := by
  refine ⟨rfl, rfl, rfl⟩

/-- four points of a straight line -/
example : euclid (1, 0, 0) ≠ 0 ∧ ∀ (i j : Nat) (x y : ℝ), i < j → [(0 : ℝ), 1, 3, 4][i]? = some x → [(0 : ℝ), 1, 3, 4][j]? = some y → x < y := by
  refine ⟨by unfold euclid; norm_num, fun i j x y hij hx hy => ?_⟩
  have hj : j < 4 := (List.getElem?_eq_some_iff.mp hy).1
  match j, i, hij, hx, hy with
  | 1, 0, _, hx, hy => simp at hx hy; subst hx hy; norm_num
  | 2, 0, _, hx, hy => simp at hx hy; subst hx hy; norm_num
  | 2, 1, _, hx, hy => simp at hx hy; subst hx hy; norm_num
  | 3, 0, _, hx, hy => simp at hx hy; subst hx hy; norm_num
  | 3, 1, _, hx, hy => simp at hx hy; subst hx hy; norm_num
  | 3, 2, _, hx, hy => simp at hx hy; subst hx hy; norm_num

end Viscid.Props
