import Verif.Spec.Calc
import Mathlib.Tactic.Ring
import Mathlib.Tactic.FieldSimp
import Mathlib.Tactic.Linarith
import Mathlib.Tactic.LinearCombination
/-!
# Lemmas about boundary extension and finite differences
-/
namespace Viscid.Calc
open Viscid.Spec.Calc

set_option linter.unusedSectionVars false
variable {K : Type} [Field K] [DecidableEq K]

/-- Interior index closest to t on an extended line. -/
def cl (n nl t : Nat) : Nat := if t < nl then nl else if n + nl ≤ t then n + nl - 1 else t

theorem holdLine_eq (n nl nh : Nat) (hn : 1 ≤ n) (v : Nat → K) (t : Nat) (ht : t < n + nl + nh) :
    holdLine n nl nh v t = v (cl n nl t) := by
  unfold holdLine cl
  by_cases h1 : t < nl
  · have : nl ≠ 0 := by omega
    have h2 : ¬ n + nl ≤ t := by omega
    rw [if_pos h1, if_neg this]
    split <;> simp [h1, h2]
  · rw [if_neg h1]
    by_cases h2 : n + nl ≤ t
    · have : nh ≠ 0 := by omega
      have h3 : ¬ n + nl - 1 < nl := by omega
      rw [if_neg this, if_pos h2, if_pos h2]
      split <;> simp [h3]
    · rw [if_neg h2]
      split <;> split <;> simp [h1, h2]

theorem low_fold (nl : Nat) (F : (Nat → K) → Nat → K) (val : Nat → K) (v : Nat → K)
    (hF : ∀ (w : Nat → K) j, j < nl → (∀ t, nl - j ≤ t → t < nl → w t = val t) → (∀ t, nl ≤ t → w t = v t) →
      F w j = val (nl - 1 - j))
    (k : Nat) (hk : k ≤ nl) :
    (∀ t, nl - k ≤ t → t < nl → (List.range k).foldl (fun v j => put v (nl - 1 - j) (F v j)) v t = val t) ∧
    (∀ t, nl ≤ t → (List.range k).foldl (fun v j => put v (nl - 1 - j) (F v j)) v t = v t) := by
  induction k with
  | zero => exact ⟨fun t h1 h2 => by omega, fun t _ => rfl⟩
  | succ k ih =>
    obtain ⟨i1, i2⟩ := ih (by omega)
    rw [List.range_succ, List.foldl_append, List.foldl_cons, List.foldl_nil]
    have hv := hF _ k (by omega) i1 i2
    refine ⟨fun t h1 h2 => ?_, fun t h1 => ?_⟩
    · unfold put
      by_cases e : t = nl - 1 - k
      · rw [if_pos e, e]; exact hv
      · rw [if_neg e]; exact i1 t (by omega) h2
    · unfold put
      rw [if_neg (by omega)]; exact i2 t h1

theorem high_fold (ni : Nat) (F : (Nat → K) → Nat → K) (val : Nat → K) (v : Nat → K) (nh : Nat)
    (hF : ∀ (w : Nat → K) j, j < nh → (∀ t, ni ≤ t → t < ni + j → w t = val t) → (∀ t, t < ni → w t = v t) →
      F w j = val (ni + j))
    (k : Nat) (hk : k ≤ nh) :
    (∀ t, ni ≤ t → t < ni + k → (List.range k).foldl (fun v j => put v (ni + j) (F v j)) v t = val t) ∧
    (∀ t, t < ni → (List.range k).foldl (fun v j => put v (ni + j) (F v j)) v t = v t) := by
  induction k with
  | zero => exact ⟨fun t h1 h2 => by omega, fun t _ => rfl⟩
  | succ k ih =>
    obtain ⟨i1, i2⟩ := ih (by omega)
    rw [List.range_succ, List.foldl_append, List.foldl_cons, List.foldl_nil]
    have hv := hF _ k (by omega) i1 i2
    refine ⟨fun t h1 h2 => ?_, fun t h1 => ?_⟩
    · unfold put
      by_cases e : t = ni + k
      · rw [if_pos e, e]; exact hv
      · rw [if_neg e]; exact i1 t h1 (by omega)
    · unfold put
      rw [if_neg (by omega)]; exact i2 t h1

/-- Both loops of the one-value branch. -/
theorem stepLine_eq (dx : K) (n nl nh : Nat) (hn : n = 1) (v : Nat → K) (t : Nat) (ht : t < n + nl + nh) :
    stepLine dx n nl nh v t = v nl + ((t : K) - nl) * dx := by
  subst hn
  unfold stepLine
  obtain ⟨a1, a2⟩ := low_fold nl (fun v j => v (nl - j) - dx) (fun t => v nl + ((t : K) - nl) * dx) v (by
    intro w j hj h1 h2
    have hc : ((nl - 1 - j : Nat) : K) = (nl : K) - 1 - j := by
      rw [Nat.cast_sub (by omega), Nat.cast_sub (by omega)]; simp
    rw [hc]
    by_cases e : j = 0
    · subst e; rw [Nat.sub_zero, h2 nl le_rfl]; push_cast; ring
    · rw [h1 (nl - j) (by omega) (by omega)]
      rw [Nat.cast_sub (by omega)]; ring) nl le_rfl
  generalize hw : (List.range nl).foldl (fun v j => put v (nl - 1 - j) (v (nl - j) - dx)) v = w at a1 a2
  obtain ⟨b1, b2⟩ := high_fold (1 + nl) (fun v j => v (1 + nl - 1 + j) + dx) (fun t => v nl + ((t : K) - nl) * dx) w nh (by
    intro u j hj h1 h2
    by_cases e : j = 0
    · subst e
      rw [Nat.add_zero, h2 _ (by omega), show 1 + nl - 1 = nl by omega, a2 nl le_rfl]; push_cast; ring
    · rw [h1 (1 + nl - 1 + j) (by omega) (by omega)]
      rw [show 1 + nl - 1 + j = nl + j by omega]; push_cast; ring) nh le_rfl
  by_cases h1 : 1 + nl ≤ t
  · exact b1 t h1 ht
  · refine (b2 t (by omega)).trans ?_
    by_cases h2 : t < nl
    · exact a1 t (by omega) h2
    · rw [a2 t (by omega), show t = nl by omega]; ring

/-- Both loops of the linear branch. -/
theorem extrapLine_eq (n nl nh : Nat) (hn : 2 ≤ n) (v : Nat → K) (t : Nat) (ht : t < n + nl + nh) :
    extrapLine n nl nh v t =
      if t < nl then v nl + ((t : K) - nl) * (v (nl + 1) - v nl)
      else if n + nl ≤ t then
        v (n + nl - 1) + ((t : K) - ((n + nl - 1 : Nat) : K)) * (v (n + nl - 1) - v (n + nl - 2))
      else v t := by
  unfold extrapLine
  have hform : ∀ j, nl - j - 1 = nl - 1 - j := by intro j; omega
  simp only [hform]
  obtain ⟨a1, a2⟩ := low_fold nl (fun v j => 2 * v (nl - j) - v (nl - j + 1))
    (fun t => v nl + ((t : K) - nl) * (v (nl + 1) - v nl)) v (by
    intro w j hj h1 h2
    have hc : ((nl - 1 - j : Nat) : K) = (nl : K) - 1 - j := by
      rw [Nat.cast_sub (by omega), Nat.cast_sub (by omega)]; simp
    rw [hc]
    by_cases e : j = 0
    · subst e; rw [Nat.sub_zero, h2 nl le_rfl, h2 (nl + 1) (by omega)]; push_cast; ring
    · rw [h1 (nl - j) (by omega) (by omega)]
      by_cases e1 : j = 1
      · subst e1
        rw [h2 (nl - 1 + 1) (by omega), show nl - 1 + 1 = nl by omega, Nat.cast_sub (by omega)]; push_cast; ring
      · rw [h1 (nl - j + 1) (by omega) (by omega)]
        push_cast [Nat.cast_sub (show j ≤ nl by omega)]; ring) nl le_rfl
  generalize hw : (List.range nl).foldl (fun v j => put v (nl - 1 - j) (2 * v (nl - j) - v (nl - j + 1))) v = w at a1 a2
  obtain ⟨b1, b2⟩ := high_fold (n + nl) (fun v j => 2 * v (n + nl + j - 1) - v (n + nl + j - 2))
    (fun t => v (n + nl - 1) + ((t : K) - ((n + nl - 1 : Nat) : K)) * (v (n + nl - 1) - v (n + nl - 2))) w nh (by
    intro u j hj h1 h2
    have hc : ((n + nl - 1 : Nat) : K) = (n : K) + nl - 1 := by
      rw [Nat.cast_sub (by omega)]; push_cast; ring
    have hwv1 : w (n + nl - 1) = v (n + nl - 1) := a2 _ (by omega)
    have hwv2 : w (n + nl - 2) = v (n + nl - 2) := a2 _ (by omega)
    rw [hc]
    by_cases e : j = 0
    · subst e
      rw [Nat.add_zero, h2 _ (by omega), h2 _ (by omega), hwv1, hwv2]; push_cast; ring
    · rw [h1 (n + nl + j - 1) (by omega) (by omega)]
      rw [hc]
      have hc1 : ((n + nl + j - 1 : Nat) : K) = (n : K) + nl + j - 1 := by
        rw [Nat.cast_sub (by omega)]; push_cast; ring
      rw [hc1]
      by_cases e1 : j = 1
      · subst e1
        rw [h2 _ (by omega), show n + nl + 1 - 2 = n + nl - 1 by omega, hwv1]; push_cast; ring
      · rw [h1 (n + nl + j - 2) (by omega) (by omega)]
        rw [hc]
        have hc2 : ((n + nl + j - 2 : Nat) : K) = (n : K) + nl + j - 2 := by
          rw [Nat.cast_sub (by omega)]; push_cast; ring
        rw [hc2]; push_cast; ring) nh le_rfl
  by_cases h2 : t < nl
  · rw [if_pos h2]
    refine (b2 t (by omega)).trans (a1 t (by omega) h2)
  · rw [if_neg h2]
    by_cases h1 : n + nl ≤ t
    · rw [if_pos h1]; exact b1 t h1 (by omega)
    · rw [if_neg h1]
      exact (b2 t (by omega)).trans (a2 t (by omega))

/-! ## Several axes -/

section nd
variable {d : Nat}

theorem foldlM_ok (order : Int) (dx : K) (shape : Fin d → Nat) (nl nh : Nat)
    (g : Fin d → (Nat → K) → (Nat → K)) (l : List (Fin d))
    (hg : ∀ ax ∈ l, extLine order dx (shape ax) nl nh = .ok (g ax)) (v : (Fin d → Nat) → K) :
    l.foldlM (fun v ax => (extLine order dx (shape ax) nl nh).map fun g => lineWise ax g v) v =
      (.ok (l.foldl (fun v ax => lineWise ax (g ax) v) v) : Except Err _) := by
  induction l generalizing v with
  | nil => rfl
  | cons a l ih =>
    rw [List.foldlM_cons, hg a List.mem_cons_self, List.foldl_cons]
    exact ih (fun ax h => hg ax (List.mem_cons_of_mem _ h)) _

theorem hold_fold (g : Fin d → (Nat → K) → (Nat → K)) (size : Fin d → Nat) (c : Fin d → Nat → Nat)
    (l : List (Fin d)) (hg : ∀ ax ∈ l, ∀ w t, t < size ax → g ax w t = w (c ax t))
    (hc : ∀ ax ∈ l, ∀ t, t < size ax → c ax t < size ax ∧ c ax (c ax t) = c ax t)
    (v : (Fin d → Nat) → K) (idx : Fin d → Nat) (hi : ∀ ax ∈ l, idx ax < size ax) :
    l.foldl (fun v ax => lineWise ax (g ax) v) v idx = v (fun i => if i ∈ l then c i (idx i) else idx i) := by
  induction l generalizing v with
  | nil => simp
  | cons a l ih =>
    rw [List.foldl_cons, ih (fun ax h => hg ax (List.mem_cons_of_mem _ h))
      (fun ax h => hc ax (List.mem_cons_of_mem _ h)) _ (fun ax h => hi ax (List.mem_cons_of_mem _ h))]
    unfold lineWise
    have ha := hi a List.mem_cons_self
    have hca := hc a List.mem_cons_self _ ha
    rw [hg a List.mem_cons_self _ _ (by dsimp only; split; exacts [hca.1, ha])]
    congr 1
    funext i
    by_cases e : i = a
    · subst e
      rw [Function.update_self, if_pos List.mem_cons_self]
      dsimp only
      split
      · exact hca.2
      · rfl
    · rw [Function.update_of_ne e]
      simp only [List.mem_cons, e, false_or]

theorem interior_fold (g : Fin d → (Nat → K) → (Nat → K)) (l : List (Fin d)) (idx : Fin d → Nat)
    (hg : ∀ ax ∈ l, ∀ w, g ax w (idx ax) = w (idx ax)) (v : (Fin d → Nat) → K) :
    l.foldl (fun v ax => lineWise ax (g ax) v) v idx = v idx := by
  induction l generalizing v with
  | nil => rfl
  | cons a l ih =>
    rw [List.foldl_cons, ih (fun ax h => hg ax (List.mem_cons_of_mem _ h))]
    unfold lineWise
    rw [hg a List.mem_cons_self, Function.update_eq_self]

theorem affine_fold (g : Fin d → (Nat → K) → (Nat → K)) (size lo hi : Fin d → Nat) (axes : List (Fin d))
    (a : K) (b off : Fin d → K)
    (hlh : ∀ ax ∈ axes, hi ax ≤ size ax)
    (hg : ∀ ax ∈ axes, ∀ (w : Nat → K) (α : K),
      (∀ t, lo ax ≤ t → t < hi ax → w t = α + b ax * t) → ∀ t, t < size ax → g ax w t = α + b ax * t)
    (l : List (Fin d)) (hl : ∀ ax ∈ l, ax ∈ axes) (done : List (Fin d)) (v : (Fin d → Nat) → K)
    (hv : ∀ idx : Fin d → Nat, (∀ i ∈ axes, idx i < size i ∧ (i ∉ done → lo i ≤ idx i ∧ idx i < hi i)) →
      v idx = a + ∑ i, b i * ((idx i : K) - off i))
    (idx : Fin d → Nat)
    (hi' : ∀ i ∈ axes, idx i < size i ∧ (i ∉ done ++ l → lo i ≤ idx i ∧ idx i < hi i)) :
    l.foldl (fun v ax => lineWise ax (g ax) v) v idx = a + ∑ i, b i * ((idx i : K) - off i) := by
  induction l generalizing v done with
  | nil => exact hv idx (by simpa using hi')
  | cons x l ih =>
    rw [List.foldl_cons]
    have hx := hl x List.mem_cons_self
    refine ih (fun ax h => hl ax (List.mem_cons_of_mem _ h)) (done ++ [x]) _ ?_ (by simpa using hi')
    intro jdx hj
    unfold lineWise
    have hsum : ∀ t : Nat, a + ∑ i, b i * (((Function.update jdx x t : Fin d → Nat) i : K) - off i) =
        (a + ∑ i, b i * ((jdx i : K) - off i) - b x * jdx x) + b x * t := by
      intro t
      have : ∑ i, b i * (((Function.update jdx x t : Fin d → Nat) i : K) - off i) - ∑ i, b i * ((jdx i : K) - off i) =
          b x * (t - jdx x) := by
        rw [← Finset.sum_sub_distrib]
        rw [Finset.sum_eq_single x]
        · rw [Function.update_self]; ring
        · intro i _ hne; rw [Function.update_of_ne hne]; ring
        · intro h; exact absurd (Finset.mem_univ x) h
      linear_combination this
    rw [hg x hx _ (a + ∑ i, b i * ((jdx i : K) - off i) - b x * jdx x) ?_ _ (hj x hx).1]
    · ring
    · intro t h1 h2
      rw [hv, hsum]
      intro i hi
      by_cases e : i = x
      · subst e
        rw [Function.update_self]
        exact ⟨lt_of_lt_of_le h2 (hlh _ hx), fun _ => ⟨h1, h2⟩⟩
      · rw [Function.update_of_ne e]
        refine ⟨(hj i hi).1, fun hd => (hj i hi).2 ?_⟩
        simp [hd, e]

theorem cl_nearest (n nl nh t : Nat) (hn : 1 ≤ n) (ht : t < n + nl + nh) :
    cl n nl t < n + nl + nh ∧ cl n nl (cl n nl t) = cl n nl t ∧ nl ≤ cl n nl t ∧ cl n nl t < nl + n ∧
      cl n nl t - nl = nearest nl n t := by
  unfold cl nearest
  by_cases h1 : t < nl
  · simp only [h1, if_true]; grind
  · by_cases h2 : n + nl ≤ t
    · simp only [h1, h2, if_true, if_false]; grind
    · simp only [h1, h2, if_false]; grind

theorem extLine_hold (dx : K) (n nl nh : Nat) (h : dx = 0 ∨ 2 ≤ n) :
    extLine 0 dx n nl nh = .ok (holdLine n nl nh) := by
  unfold extLine
  rw [if_neg, if_pos rfl]
  rintro ⟨h1, h2⟩
  rcases h with h | h
  · exact h2 h
  · omega

theorem extLine_step (order : Int) (dx : K) (n nl nh : Nat) (hn : n = 1) (h : order ≠ 0 ∨ dx ≠ 0) :
    extLine order dx n nl nh = .ok (stepLine dx n nl nh) := by
  unfold extLine
  by_cases hd : dx = 0
  · rw [if_neg (fun h => h.2 hd), if_neg (h.resolve_right (fun h => h hd)), if_pos (by omega)]
  · rw [if_pos ⟨by omega, hd⟩]

theorem extLine_extrap (dx : K) (n nl nh : Nat) (hn : 2 ≤ n) :
    extLine 1 dx n nl nh = .ok (extrapLine n nl nh) := by
  unfold extLine
  rw [if_neg (fun h => by omega), if_neg (by decide), if_neg (by omega), if_pos rfl]

theorem extLine_ok (order : Int) (dx : K) (n nl nh : Nat) (hn : 1 ≤ n) (ho : order = 0 ∨ order = 1 ∨ n = 1) :
    ∃ g, extLine order dx n nl nh = .ok g ∧ ∀ (w : Nat → K) t, nl ≤ t → t < nl + n → g w t = w t := by
  by_cases h1 : n = 1
  · by_cases h2 : order ≠ 0 ∨ dx ≠ 0
    · refine ⟨_, extLine_step order dx n nl nh h1 h2, fun w t a b => ?_⟩
      rw [stepLine_eq dx n nl nh h1 w t (by omega), show t = nl by omega]; ring
    · have : order = 0 ∧ dx = 0 := by
        constructor
        · by_contra h; exact h2 (Or.inl h)
        · by_contra h; exact h2 (Or.inr h)
      rw [this.1]
      refine ⟨_, extLine_hold dx n nl nh (Or.inl this.2), fun w t a b => ?_⟩
      rw [holdLine_eq n nl nh hn w t (by omega)]
      unfold cl
      rw [if_neg (by omega), if_neg (by omega)]
  · rcases ho with rfl | rfl | h
    · refine ⟨_, extLine_hold dx n nl nh (Or.inr (by omega)), fun w t a b => ?_⟩
      rw [holdLine_eq n nl nh hn w t (by omega)]
      unfold cl
      rw [if_neg (by omega), if_neg (by omega)]
    · refine ⟨_, extLine_extrap dx n nl nh (by omega), fun w t a b => ?_⟩
      rw [extrapLine_eq n nl nh (by omega) w t (by omega), if_neg (by omega), if_neg (by omega)]
    · exact absurd h h1

theorem extend_hold (shape : Fin d → Nat) (arr : (Fin d → Nat) → K) (nl nh : Nat) (l : List (Fin d)) (dx : K)
    (hn : ∀ i ∈ l, 1 ≤ shape i) (hd : ∀ i ∈ l, dx = 0 ∨ 2 ≤ shape i) :
    ∃ v, extendArr shape arr nl nh (.some l) 0 dx = .ok (fun i => if i ∈ l then shape i + nl + nh else shape i, v) ∧
      ∀ idx : Fin d → Nat, (∀ i ∈ l, idx i < shape i + nl + nh) →
        v idx = arr (fun i => if i ∈ l then nearest nl (shape i) (idx i) else idx i) := by
  unfold extendArr
  dsimp only
  rw [foldlM_ok 0 dx shape nl nh (fun ax => holdLine (shape ax) nl nh) l
    (fun ax h => extLine_hold dx _ nl nh (hd ax h))]
  refine ⟨_, rfl, fun idx hi => ?_⟩
  rw [hold_fold (fun ax => holdLine (shape ax) nl nh) (fun ax => shape ax + nl + nh)
    (fun ax => cl (shape ax) nl) l
    (fun ax h w t ht => holdLine_eq _ nl nh (hn ax h) w t ht)
    (fun ax h t ht => ⟨(cl_nearest _ nl nh t (hn ax h) ht).1, (cl_nearest _ nl nh t (hn ax h) ht).2.1⟩) _ idx hi]
  unfold pad
  rw [if_pos]
  · congr 1
    funext i
    by_cases h : i ∈ l
    · simp only [if_pos h]
      exact (cl_nearest _ nl nh _ (hn i h) (hi i h)).2.2.2.2
    · simp only [if_neg h]
  · intro i h
    simp only [if_pos h]
    have := cl_nearest _ nl nh _ (hn i h) (hi i h)
    exact ⟨this.2.2.1, this.2.2.2.1⟩

theorem extend_interior (shape : Fin d → Nat) (arr : (Fin d → Nat) → K) (nl nh : Nat) (l : List (Fin d)) (order : Int)
    (dx : K) (hn : ∀ i ∈ l, 1 ≤ shape i) (ho : order = 0 ∨ order = 1) :
    ∃ v, extendArr shape arr nl nh (.some l) order dx =
        .ok (fun i => if i ∈ l then shape i + nl + nh else shape i, v) ∧
      ∀ idx : Fin d → Nat, (∀ i ∈ l, idx i < shape i) →
        v (fun i => if i ∈ l then idx i + nl else idx i) = arr idx := by
  have hok : ∀ ax, ∃ g, ax ∈ l → extLine order dx (shape ax) nl nh = .ok g ∧
      ∀ (w : Nat → K) t, nl ≤ t → t < nl + shape ax → g w t = w t := by
    intro ax
    by_cases h : ax ∈ l
    · obtain ⟨g, h1, h2⟩ := extLine_ok order dx (shape ax) nl nh (hn ax h) (ho.imp_right Or.inl)
      exact ⟨g, fun _ => ⟨h1, h2⟩⟩
    · exact ⟨id, fun h' => absurd h' h⟩
  choose g hg using hok
  unfold extendArr
  dsimp only
  rw [foldlM_ok order dx shape nl nh g l (fun ax h => (hg ax h).1)]
  refine ⟨_, rfl, fun idx hi => ?_⟩
  rw [interior_fold g l _ (fun ax h w => by
    simp only [if_pos h]; exact (hg ax h).2 w _ (by omega) (by have := hi ax h; omega))]
  unfold pad
  rw [if_pos]
  · congr 1
    funext i
    by_cases h : i ∈ l
    · simp only [if_pos h]; omega
    · simp only [if_neg h]
  · intro i h
    simp only [if_pos h]
    have := hi i h
    omega

theorem extend_affine (shape : Fin d → Nat) (arr : (Fin d → Nat) → K) (nl nh : Nat) (l : List (Fin d)) (dx : K)
    (hn : ∀ i ∈ l, 1 ≤ shape i) (a : K) (b : Fin d → K)
    (hb : ∀ i ∈ l, shape i = 1 → b i = dx)
    (ha : ∀ idx, (∀ i ∈ l, idx i < shape i) → arr idx = a + ∑ i, b i * (idx i : K)) :
    ∃ v, extendArr shape arr nl nh (.some l) 1 dx = .ok (fun i => if i ∈ l then shape i + nl + nh else shape i, v) ∧
      ∀ idx : Fin d → Nat, (∀ i ∈ l, idx i < shape i + nl + nh) →
        v idx = a + ∑ i, b i * ((idx i : K) - if i ∈ l then (nl : K) else 0) := by
  have hok : ∀ ax, ∃ g, ax ∈ l → extLine 1 dx (shape ax) nl nh = .ok g ∧
      ∀ (w : Nat → K) (α : K), (∀ t, nl ≤ t → t < nl + shape ax → w t = α + b ax * t) →
        ∀ t, t < shape ax + nl + nh → g w t = α + b ax * t := by
    intro ax
    by_cases h : ax ∈ l
    · by_cases h1 : shape ax = 1
      · refine ⟨_, fun _ => ⟨extLine_step 1 dx _ nl nh h1 (Or.inl (by decide)), fun w α hw t ht => ?_⟩⟩
        rw [stepLine_eq dx _ nl nh h1 w t ht, hw nl le_rfl (by omega), hb ax h h1]; ring
      · have h2 : 2 ≤ shape ax := by have := hn ax h; omega
        refine ⟨_, fun _ => ⟨extLine_extrap dx _ nl nh h2, fun w α hw t ht => ?_⟩⟩
        rw [extrapLine_eq _ nl nh h2 w t ht]
        split
        · rw [hw nl le_rfl (by omega), hw (nl + 1) (by omega) (by omega)]; push_cast; ring
        · split
          · rw [hw (shape ax + nl - 1) (by omega) (by omega), hw (shape ax + nl - 2) (by omega) (by omega)]
            rw [Nat.cast_sub (by omega), Nat.cast_sub (by omega)]; push_cast; ring
          · exact hw t (by omega) (by omega)
    · exact ⟨id, fun h' => absurd h' h⟩
  choose g hg using hok
  unfold extendArr
  dsimp only
  rw [foldlM_ok 1 dx shape nl nh g l (fun ax h => (hg ax h).1)]
  refine ⟨_, rfl, fun idx hi => ?_⟩
  refine affine_fold g (fun ax => shape ax + nl + nh) (fun _ => nl) (fun ax => nl + shape ax) l a b
    (fun i => if i ∈ l then (nl : K) else 0) (fun ax _ => by omega) (fun ax h => (hg ax h).2) l (fun _ h => h) [] _
    ?_ idx (fun i h => ⟨hi i h, fun h' => absurd h (by simpa using h')⟩)
  intro jdx hj
  unfold pad
  rw [if_pos (fun i h => (hj i h).2 List.not_mem_nil)]
  rw [ha _ (fun i h => by
    have := (hj i h).2 List.not_mem_nil
    rw [if_pos h]; omega)]
  congr 1
  apply Finset.sum_congr rfl
  intro i _
  by_cases h : i ∈ l
  · rw [if_pos h, if_pos h, Nat.cast_sub ((hj i h).2 List.not_mem_nil).1]
  · rw [if_neg h, if_neg h, sub_zero]

/-! ## Component axis -/

theorem insertNth_update (c : Fin (d + 1)) (m : Nat) (idx : Fin d → Nat) (ax : Fin d) (t : Nat) :
    (Function.update (c.insertNth m idx : Fin (d + 1) → Nat) (c.succAbove ax) t) =
      (c.insertNth m (Function.update idx ax t) : Fin (d + 1) → Nat) := by
  funext i
  refine Fin.succAboveCases c ?_ (fun j => ?_) i
  · rw [Function.update_of_ne (Fin.succAbove_ne c ax).symm]; simp
  · rw [Fin.insertNth_apply_succAbove]
    by_cases e : j = ax
    · subst e; rw [Function.update_self, Function.update_self]
    · rw [Function.update_of_ne e, Function.update_of_ne (fun h => e (Fin.succAbove_right_injective h)),
        Fin.insertNth_apply_succAbove]

theorem shiftAxes_eq (c : Fin (d + 1)) (axes : List (Fin d)) : shiftAxes c axes = axes.map c.succAbove := rfl

theorem comp_fold (order : Int) (dx : K) (shape : Fin (d + 1) → Nat) (nl nh : Nat) (c : Fin (d + 1)) (m : Nat)
    (l : List (Fin d)) (v : (Fin (d + 1) → Nat) → K) (v' : (Fin d → Nat) → K)
    (h : ∀ idx, v (c.insertNth m idx) = v' idx) :
    (∀ w, (l.map c.succAbove).foldlM (fun v ax => (extLine order dx (shape ax) nl nh).map fun g => lineWise ax g v) v =
      .ok w → ∃ w', l.foldlM (fun v ax => (extLine order dx (shape (c.succAbove ax)) nl nh).map fun g => lineWise ax g v) v' =
        .ok w' ∧ ∀ idx, w (c.insertNth m idx) = w' idx) ∧
    (∀ e : Err, (l.map c.succAbove).foldlM (fun v ax => (extLine order dx (shape ax) nl nh).map fun g => lineWise ax g v) v =
      .error e → l.foldlM (fun v ax => (extLine order dx (shape (c.succAbove ax)) nl nh).map fun g => lineWise ax g v) v' =
        .error e) := by
  induction l generalizing v v' with
  | nil =>
    refine ⟨fun w hw => ⟨v', rfl, fun idx => ?_⟩, fun e he => ?_⟩
    · have : v = w := by simpa [pure, Except.pure] using hw
      rw [← this]; exact h idx
    · simp [pure, Except.pure] at he
  | cons a l ih =>
    rw [List.map_cons, List.foldlM_cons, List.foldlM_cons]
    cases he : extLine order dx (shape (c.succAbove a)) nl nh with
    | error e => exact ⟨fun w hw => (by cases hw), fun e' he' => (by cases he'; rfl)⟩
    | ok g =>
      refine ih _ _ (fun idx => ?_)
      unfold lineWise
      dsimp only
      rw [Fin.insertNth_apply_succAbove]
      congr 1
      funext t
      rw [insertNth_update, h]

theorem pad_comp (shape : Fin (d + 1) → Nat) (arr : (Fin (d + 1) → Nat) → K) (nl : Nat) (c : Fin (d + 1)) (m : Nat)
    (l : List (Fin d)) (idx : Fin d → Nat) :
    pad shape nl (l.map c.succAbove) arr (c.insertNth m idx) =
      pad (fun i => shape (c.succAbove i)) nl l (fun i => arr (c.insertNth m i)) idx := by
  unfold pad
  have hmem : ∀ i, c.succAbove i ∈ l.map c.succAbove ↔ i ∈ l := by
    intro i
    rw [List.mem_map]
    constructor
    · rintro ⟨j, hj, e⟩; rwa [← Fin.succAbove_right_injective e]
    · intro h; exact ⟨i, h, rfl⟩
  have hc : c ∉ l.map c.succAbove := by
    rw [List.mem_map]; rintro ⟨j, _, e⟩; exact Fin.succAbove_ne c j e
  have hcond : (∀ i ∈ l.map c.succAbove, nl ≤ (c.insertNth m idx : Fin (d + 1) → Nat) i ∧
      (c.insertNth m idx : Fin (d + 1) → Nat) i < nl + shape i) ↔
      ∀ i ∈ l, nl ≤ idx i ∧ idx i < nl + shape (c.succAbove i) := by
    rw [List.forall_mem_map]
    simp only [Fin.insertNth_apply_succAbove]
  by_cases hp : ∀ i ∈ l, nl ≤ idx i ∧ idx i < nl + shape (c.succAbove i)
  · rw [if_pos (hcond.mpr hp), if_pos hp]
    congr 1
    funext i
    refine Fin.succAboveCases c ?_ (fun j => ?_) i
    · rw [if_neg hc]; simp
    · simp only [Fin.insertNth_apply_succAbove, hmem]
  · rw [if_neg (fun h => hp (hcond.mp h)), if_neg hp]

end nd

/-! ## Stencils -/

theorem nearest_lt (n t : Nat) (hn : 1 ≤ n) : nearest 1 n t < n := by unfold nearest; omega

theorem extend0_dat {nc : Nat} (f : Fld K nc) (hn : ∀ a, 1 ≤ f.n a) (m : Fin nc) (i j k : Nat)
    (hi : i < f.n 0 + 2) (hj : j < f.n 1 + 2) (hk : k < f.n 2 + 2) :
    (extend0 f).dat m ![i, j, k] = f.dat m ![nearest 1 (f.n 0) i, nearest 1 (f.n 1) j, nearest 1 (f.n 2) k] := by
  obtain ⟨v, h1, h2⟩ := extend_hold f.n (f.dat m) 1 1 [0, 1, 2] 0 (fun i _ => hn i) (fun _ _ => Or.inl rfl)
  have hd : (extend0 f).dat m ![i, j, k] = v ![i, j, k] := by
    unfold extend0; dsimp only; rw [h1]
  rw [hd, h2]
  · congr 1
    funext a
    have : a ∈ ([0, 1, 2] : List (Fin 3)) := by revert a; decide
    rw [if_pos this]
    match a with
    | 0 => rfl
    | 1 => rfl
    | 2 => rfl
  · intro a _
    match a with
    | 0 => exact hi
    | 1 => exact hj
    | 2 => exact hk

theorem extend0_crd {nc : Nat} (f : Fld K nc) (hn : ∀ a, 1 ≤ f.n a) (a : Fin 3) (t : Nat) (ht : t < f.n a + 2) :
    (extend0 f).crd a t = if f.n a = 1 then f.crd a 0 + ((t : K) - 1) else f.crd a (nearest 1 (f.n a) t) := by
  by_cases h : f.n a = 1
  · rw [if_pos h]
    unfold extend0 extendArr
    dsimp only
    rw [foldlM_ok 0 1 (fun _ : Fin 1 => f.n a) 1 1 (fun _ => stepLine 1 (f.n a) 1 1) [0]
      (fun ax _ => extLine_step 0 1 _ 1 1 h (Or.inr one_ne_zero))]
    dsimp only [List.foldl_cons, List.foldl_nil]
    unfold lineWise
    rw [stepLine_eq 1 _ 1 1 h _ _ (by simpa using ht)]
    unfold pad
    rw [if_pos (by intro i _; rw [Subsingleton.elim i 0, Function.update_self]; exact ⟨le_rfl, by dsimp only; omega⟩)]
    simp
  · rw [if_neg h]
    have h2 : 2 ≤ f.n a := by have := hn a; omega
    obtain ⟨v, e1, e2⟩ := extend_hold (d := 1) (fun _ => f.n a) (fun i => f.crd a (i 0)) 1 1 [0] 1
      (fun i _ => hn a) (fun _ _ => Or.inr h2)
    have : (extend0 f).crd a t = v ![t] := by
      unfold extend0; dsimp only; rw [e1]
    rw [this, e2 ![t] (by intro i _; rw [Subsingleton.elim i 0]; exact ht)]
    simp

/-- The neighbours along an axis used by the boundary-extended differences. -/
def up (n i : Nat) : Nat := min (i + 1) (n - 1)
def dn (i : Nat) : Nat := i - 1

/-- The coordinate difference they are divided by. -/
def gap (n : Nat) (c : Nat → K) (i : Nat) : K := if n = 1 then 2 else c (up n i) - c (dn i)

theorem nearest_one (n i : Nat) (hi : i < n) :
    nearest 1 n (i + 2) = up n i ∧ nearest 1 n i = dn i ∧ nearest 1 n (i + 1) = i := by
  unfold nearest up dn; omega

theorem gap_eq {nc : Nat} (f : Fld K nc) (hn : ∀ a, 1 ≤ f.n a) (a : Fin 3) (i : Nat) (hi : i < f.n a) :
    (extend0 f).crd a (i + 2) - (extend0 f).crd a i = gap (f.n a) (f.crd a) i := by
  rw [extend0_crd f hn a _ (by omega), extend0_crd f hn a _ (by omega)]
  unfold gap
  split
  · push_cast; ring
  · rw [(nearest_one _ _ hi).1, (nearest_one _ _ hi).2.1]

theorem crd_eq {nc : Nat} (f : Fld K nc) (hn : ∀ a, 1 ≤ f.n a) (a : Fin 3) (i : Nat) (hi : i < f.n a) :
    (extend0 f).crd a (i + 1) = f.crd a i := by
  rw [extend0_crd f hn a _ (by omega)]
  split
  · have : i = 0 := by omega
    subst this; push_cast; ring
  · rw [(nearest_one _ _ hi).2.2]

section
variable {nc : Nat} (f : Fld K nc) (hn : ∀ a, 1 ≤ f.n a) (m : Fin nc) (i j k : Nat) (hi : i < f.n 0)
  (hj : j < f.n 1) (hk : k < f.n 2)
include hn hi hj hk

theorem dX_ext : dX (extend0 f).crd ((extend0 f).dat m) ![i, j, k] =
    (f.dat m ![up (f.n 0) i, j, k] - f.dat m ![dn i, j, k]) / gap (f.n 0) (f.crd 0) i := by
  unfold dX at3
  simp only [Matrix.cons_val, Nat.add_zero]
  rw [gap_eq f hn 0 i hi, extend0_dat f hn m _ _ _ (by omega) (by omega) (by omega),
    extend0_dat f hn m _ _ _ (by omega) (by omega) (by omega), (nearest_one _ _ hi).1,
    (nearest_one _ _ hi).2.1, (nearest_one _ _ hj).2.2, (nearest_one _ _ hk).2.2]

theorem dY_ext : dY (extend0 f).crd ((extend0 f).dat m) ![i, j, k] =
    (f.dat m ![i, up (f.n 1) j, k] - f.dat m ![i, dn j, k]) / gap (f.n 1) (f.crd 1) j := by
  unfold dY at3
  simp only [Matrix.cons_val, Nat.add_zero]
  rw [gap_eq f hn 1 j hj, extend0_dat f hn m _ _ _ (by omega) (by omega) (by omega),
    extend0_dat f hn m _ _ _ (by omega) (by omega) (by omega), (nearest_one _ _ hj).1,
    (nearest_one _ _ hj).2.1, (nearest_one _ _ hi).2.2, (nearest_one _ _ hk).2.2]

theorem dZ_ext : dZ (extend0 f).crd ((extend0 f).dat m) ![i, j, k] =
    (f.dat m ![i, j, up (f.n 2) k] - f.dat m ![i, j, dn k]) / gap (f.n 2) (f.crd 2) k := by
  unfold dZ at3
  simp only [Matrix.cons_val, Nat.add_zero]
  rw [gap_eq f hn 2 k hk, extend0_dat f hn m _ _ _ (by omega) (by omega) (by omega),
    extend0_dat f hn m _ _ _ (by omega) (by omega) (by omega), (nearest_one _ _ hk).1,
    (nearest_one _ _ hk).2.1, (nearest_one _ _ hi).2.2, (nearest_one _ _ hj).2.2]
end

theorem gap_congr (n : Nat) (c c' : Nat → K) (h : ∀ t, t < n → c' t = c t) (i : Nat) (hi : i < n) :
    gap n c' i = gap n c i := by
  unfold gap up dn
  split
  · rfl
  · rw [h _ (by omega), h _ (by omega)]

theorem up_lt (n i : Nat) (h : i < n) : up n i < n := by unfold up; omega
theorem dn_lt (n i : Nat) (h : i < n) : dn i < n := by unfold dn; omega

theorem prep_center {nc : Nat} (f : Fld K nc) (bnd : Bool) : (prep f bnd).center = f.center := by
  cases bnd <;> rfl

theorem grad_cell (f : Fld K 1) (bnd : Bool) (hc : (prep f bnd).center = .cell) :
    grad f bnd = .ok ⟨.cell, fun a => (prep f bnd).n a - 2, fun a t => (prep f bnd).crd a (t + 1),
      ![dX (prep f bnd).crd ((prep f bnd).dat 0), dY (prep f bnd).crd ((prep f bnd).dat 0),
        dZ (prep f bnd).crd ((prep f bnd).dat 0)]⟩ := by
  unfold grad; dsimp only; rw [hc]

theorem div_ok (f : Fld K 3) (bnd : Bool) (hc : f.center = .cell ∨ f.center = .node) :
    div f bnd = .ok ⟨(prep f bnd).center, fun a => (prep f bnd).n a - 2, fun a t => (prep f bnd).crd a (t + 1),
      fun _ idx => dX (prep f bnd).crd ((prep f bnd).dat 0) idx + dY (prep f bnd).crd ((prep f bnd).dat 1) idx +
        dZ (prep f bnd).crd ((prep f bnd).dat 2) idx⟩ := by
  unfold div; dsimp only
  rcases hc with hc | hc <;> rw [show (prep f bnd).center = _ from (prep_center f bnd).trans hc]

theorem curl_ok (f : Fld K 3) (bnd : Bool) (hc : f.center = .cell ∨ f.center = .node) :
    curl f bnd = .ok ⟨(prep f bnd).center, fun a => (prep f bnd).n a - 2, fun a t => (prep f bnd).crd a (t + 1),
      ![fun idx => dY (prep f bnd).crd ((prep f bnd).dat 2) idx - dZ (prep f bnd).crd ((prep f bnd).dat 1) idx,
        fun idx => -dX (prep f bnd).crd ((prep f bnd).dat 2) idx + dZ (prep f bnd).crd ((prep f bnd).dat 0) idx,
        fun idx => dX (prep f bnd).crd ((prep f bnd).dat 1) idx - dY (prep f bnd).crd ((prep f bnd).dat 0) idx]⟩ := by
  unfold curl; dsimp only
  rcases hc with hc | hc <;> rw [show (prep f bnd).center = _ from (prep_center f bnd).trans hc]

theorem convDeriv_ok (a b : Fld K 3) (bnd : Bool) (hca : a.center = .cell) (hp : (prep b bnd).center = .cell) :
    convDeriv a b bnd = .ok ⟨.cell, if bnd then a.n else fun x => a.n x - 2,
      if bnd then a.crd else fun x t => a.crd x (t + 1),
      fun j idx => 0 + (if bnd then a.dat 0 idx else at3 (a.dat 0) 1 1 1 idx) * dX (prep b bnd).crd ((prep b bnd).dat j) idx +
        (if bnd then a.dat 1 idx else at3 (a.dat 1) 1 1 1 idx) * dY (prep b bnd).crd ((prep b bnd).dat j) idx +
        (if bnd then a.dat 2 idx else at3 (a.dat 2) 1 1 1 idx) * dZ (prep b bnd).crd ((prep b bnd).dat j) idx⟩ := by
  unfold convDeriv
  dsimp only
  rw [grad_cell (comp (prep b bnd) 0) false hp, grad_cell (comp (prep b bnd) 1) false hp,
    grad_cell (comp (prep b bnd) 2) false hp]
  dsimp only
  rw [if_neg (by rw [hca]; exact fun h => h rfl)]
  congr 2
  funext j idx
  match j with
  | 0 => rfl
  | 1 => rfl
  | 2 => rfl

theorem prep_same {nc mc : Nat} (f : Fld K nc) (bnd : Bool) (hb : bnd = true) (h2 : ∀ a, 2 ≤ f.n a)
    (c : Center) (D : Fin mc → (Fin 3 → Nat) → K) :
    SameGrid f ⟨c, fun a => (prep f bnd).n a - 2, fun a t => (prep f bnd).crd a (t + 1), D⟩ := by
  subst hb
  exact ⟨by funext a; rfl, fun a t ht => crd_eq f (fun a => (by have := h2 a; omega)) a t ht⟩

/-! ### The identities -/

theorem div_curl_zero (f : Fld K 3) (b1 b2 : Bool) (hb : b2 = true → b1 = true) (hn : ∀ a, 1 ≤ f.n a) (i j k : Nat)
    (c : Fld K 3)
    (hc : c = ⟨(prep f b1).center, fun a => (prep f b1).n a - 2, fun a t => (prep f b1).crd a (t + 1),
      ![fun idx => dY (prep f b1).crd ((prep f b1).dat 2) idx - dZ (prep f b1).crd ((prep f b1).dat 1) idx,
        fun idx => -dX (prep f b1).crd ((prep f b1).dat 2) idx + dZ (prep f b1).crd ((prep f b1).dat 0) idx,
        fun idx => dX (prep f b1).crd ((prep f b1).dat 1) idx - dY (prep f b1).crd ((prep f b1).dat 0) idx]⟩)
    (hi : i < (prep c b2).n 0 - 2) (hj : j < (prep c b2).n 1 - 2) (hk : k < (prep c b2).n 2 - 2) :
    dX (prep c b2).crd ((prep c b2).dat 0) ![i, j, k] + dY (prep c b2).crd ((prep c b2).dat 1) ![i, j, k] +
      dZ (prep c b2).crd ((prep c b2).dat 2) ![i, j, k] = 0 := by
  cases b2 with
  | false =>
    subst hc
    simp only [prep, Bool.false_eq_true, if_false, dX, dY, dZ, at3, Matrix.cons_val, Nat.add_zero]
    ring_nf
  | true =>
    have hb1 : b1 = true := hb rfl
    subst hb1
    have hcn : c.n = f.n := by rw [hc]; funext a; rfl
    have hcd : ∀ a t, t < f.n a → c.crd a t = f.crd a t := by
      intro a t ht; rw [hc]; exact crd_eq f hn a t ht
    have hi' : i < f.n 0 := by rw [← hcn]; exact hi
    have hj' : j < f.n 1 := by rw [← hcn]; exact hj
    have hk' : k < f.n 2 := by rw [← hcn]; exact hk
    have hn' : ∀ a, 1 ≤ c.n a := by rw [hcn]; exact hn
    have d0 : ∀ idx, c.dat 0 idx = dY (extend0 f).crd ((extend0 f).dat 2) idx - dZ (extend0 f).crd ((extend0 f).dat 1) idx := by
      intro idx; rw [hc]; rfl
    have d1 : ∀ idx, c.dat 1 idx = -dX (extend0 f).crd ((extend0 f).dat 2) idx + dZ (extend0 f).crd ((extend0 f).dat 0) idx := by
      intro idx; rw [hc]; rfl
    have d2 : ∀ idx, c.dat 2 idx = dX (extend0 f).crd ((extend0 f).dat 1) idx - dY (extend0 f).crd ((extend0 f).dat 0) idx := by
      intro idx; rw [hc]; rfl
    have ui := up_lt _ _ hi'
    have uj := up_lt _ _ hj'
    have uk := up_lt _ _ hk'
    have li := dn_lt _ _ hi'
    have lj := dn_lt _ _ hj'
    have lk := dn_lt _ _ hk'
    simp only [prep, if_true]
    rw [dX_ext c hn' 0 i j k hi hj hk, dY_ext c hn' 1 i j k hi hj hk, dZ_ext c hn' 2 i j k hi hj hk, hcn,
      gap_congr _ _ _ (hcd 0) i hi', gap_congr _ _ _ (hcd 1) j hj', gap_congr _ _ _ (hcd 2) k hk']
    simp only [d0, d1, d2]
    rw [dY_ext f hn 2 _ _ _ ui hj' hk', dY_ext f hn 2 _ _ _ li hj' hk', dZ_ext f hn 1 _ _ _ ui hj' hk',
      dZ_ext f hn 1 _ _ _ li hj' hk', dX_ext f hn 2 _ _ _ hi' uj hk', dX_ext f hn 2 _ _ _ hi' lj hk',
      dZ_ext f hn 0 _ _ _ hi' uj hk', dZ_ext f hn 0 _ _ _ hi' lj hk', dX_ext f hn 1 _ _ _ hi' hj' uk,
      dX_ext f hn 1 _ _ _ hi' hj' lk, dY_ext f hn 0 _ _ _ hi' hj' uk, dY_ext f hn 0 _ _ _ hi' hj' lk]
    ring

theorem curl_grad_zero (f : Fld K 1) (b1 b2 : Bool) (hb : b2 = true → b1 = true) (hn : ∀ a, 1 ≤ f.n a) (i j k : Nat)
    (c : Fld K 3)
    (hc : c = ⟨.cell, fun a => (prep f b1).n a - 2, fun a t => (prep f b1).crd a (t + 1),
      ![dX (prep f b1).crd ((prep f b1).dat 0), dY (prep f b1).crd ((prep f b1).dat 0),
        dZ (prep f b1).crd ((prep f b1).dat 0)]⟩)
    (hi : i < (prep c b2).n 0 - 2) (hj : j < (prep c b2).n 1 - 2) (hk : k < (prep c b2).n 2 - 2) :
    dY (prep c b2).crd ((prep c b2).dat 2) ![i, j, k] - dZ (prep c b2).crd ((prep c b2).dat 1) ![i, j, k] = 0 ∧
    -dX (prep c b2).crd ((prep c b2).dat 2) ![i, j, k] + dZ (prep c b2).crd ((prep c b2).dat 0) ![i, j, k] = 0 ∧
    dX (prep c b2).crd ((prep c b2).dat 1) ![i, j, k] - dY (prep c b2).crd ((prep c b2).dat 0) ![i, j, k] = 0 := by
  cases b2 with
  | false =>
    subst hc
    simp only [prep, Bool.false_eq_true, if_false, dX, dY, dZ, at3, Matrix.cons_val, Nat.add_zero]
    refine ⟨?_, ?_, ?_⟩ <;> ring_nf
  | true =>
    have hb1 : b1 = true := hb rfl
    subst hb1
    have hcn : c.n = f.n := by rw [hc]; funext a; rfl
    have hcd : ∀ a t, t < f.n a → c.crd a t = f.crd a t := by
      intro a t ht; rw [hc]; exact crd_eq f hn a t ht
    have hi' : i < f.n 0 := by rw [← hcn]; exact hi
    have hj' : j < f.n 1 := by rw [← hcn]; exact hj
    have hk' : k < f.n 2 := by rw [← hcn]; exact hk
    have hn' : ∀ a, 1 ≤ c.n a := by rw [hcn]; exact hn
    have d0 : ∀ idx, c.dat 0 idx = dX (extend0 f).crd ((extend0 f).dat 0) idx := by intro idx; rw [hc]; rfl
    have d1 : ∀ idx, c.dat 1 idx = dY (extend0 f).crd ((extend0 f).dat 0) idx := by intro idx; rw [hc]; rfl
    have d2 : ∀ idx, c.dat 2 idx = dZ (extend0 f).crd ((extend0 f).dat 0) idx := by intro idx; rw [hc]; rfl
    have ui := up_lt _ _ hi'
    have uj := up_lt _ _ hj'
    have uk := up_lt _ _ hk'
    have li := dn_lt _ _ hi'
    have lj := dn_lt _ _ hj'
    have lk := dn_lt _ _ hk'
    simp only [prep, if_true]
    rw [dX_ext c hn' 2 i j k hi hj hk, dX_ext c hn' 1 i j k hi hj hk, dY_ext c hn' 0 i j k hi hj hk,
      dY_ext c hn' 2 i j k hi hj hk, dZ_ext c hn' 0 i j k hi hj hk, dZ_ext c hn' 1 i j k hi hj hk, hcn,
      gap_congr _ _ _ (hcd 0) i hi', gap_congr _ _ _ (hcd 1) j hj', gap_congr _ _ _ (hcd 2) k hk']
    simp only [d0, d1, d2]
    rw [dY_ext f hn 0 _ _ _ ui hj' hk', dY_ext f hn 0 _ _ _ li hj' hk', dZ_ext f hn 0 _ _ _ ui hj' hk',
      dZ_ext f hn 0 _ _ _ li hj' hk', dX_ext f hn 0 _ _ _ hi' uj hk', dX_ext f hn 0 _ _ _ hi' lj hk',
      dZ_ext f hn 0 _ _ _ hi' uj hk', dZ_ext f hn 0 _ _ _ hi' lj hk', dX_ext f hn 0 _ _ _ hi' hj' uk,
      dX_ext f hn 0 _ _ _ hi' hj' lk, dY_ext f hn 0 _ _ _ hi' hj' uk, dY_ext f hn 0 _ _ _ hi' hj' lk]
    refine ⟨?_, ?_, ?_⟩ <;> ring

/-! ### Affine fields -/

section
variable {K : Type} [Field K] [LinearOrder K] [IsStrictOrderedRing K]

theorem affine_diffs {nc : Nat} (f : Fld K nc) (bnd : Bool) (h2 : ∀ a, 2 ≤ f.n a)
    (hinc : ∀ a, Increasing (f.n a) (f.crd a)) (m : Fin nc) (a : K) (g : Fin 3 → K) (hf : Affine f m a g)
    (idx : Fin 3 → Nat) (hi : Inside (fun a => (prep f bnd).n a - 2) idx) :
    dX (prep f bnd).crd ((prep f bnd).dat m) idx = g 0 ∧ dY (prep f bnd).crd ((prep f bnd).dat m) idx = g 1 ∧
      dZ (prep f bnd).crd ((prep f bnd).dat m) idx = g 2 := by
  have e : ![idx 0, idx 1, idx 2] = idx := by funext a; match a with | 0 => rfl | 1 => rfl | 2 => rfl
  cases bnd with
  | true =>
    have hn : ∀ a, 1 ≤ f.n a := fun a => by have := h2 a; omega
    have i0 : idx 0 < f.n 0 := hi 0
    have i1 : idx 1 < f.n 1 := hi 1
    have i2 : idx 2 < f.n 2 := hi 2
    have hg : ∀ a, idx a < f.n a → gap (f.n a) (f.crd a) (idx a) = f.crd a (up (f.n a) (idx a)) - f.crd a (dn (idx a)) ∧
        f.crd a (up (f.n a) (idx a)) - f.crd a (dn (idx a)) ≠ 0 := by
      intro a ha
      refine ⟨if_neg (by have := h2 a; omega), sub_ne_zero.mpr (ne_of_gt (hinc a _ _ ?_ (up_lt _ _ ha)))⟩
      have := h2 a
      unfold up dn; omega
    simp only [prep, if_true]
    rw [← e, dX_ext f hn m _ _ _ i0 i1 i2, dY_ext f hn m _ _ _ i0 i1 i2, dZ_ext f hn m _ _ _ i0 i1 i2,
      (hg 0 i0).1, (hg 1 i1).1, (hg 2 i2).1]
    have ins : ∀ x y z, x < f.n 0 → y < f.n 1 → z < f.n 2 → Inside f.n ![x, y, z] := by
      intro x y z hx hy hz a
      match a with
      | 0 => exact hx
      | 1 => exact hy
      | 2 => exact hz
    refine ⟨?_, ?_, ?_⟩
    · rw [div_eq_iff (hg 0 i0).2, hf _ (ins _ _ _ (up_lt _ _ i0) i1 i2), hf _ (ins _ _ _ (dn_lt _ _ i0) i1 i2)]
      simp only [Matrix.cons_val]; ring
    · rw [div_eq_iff (hg 1 i1).2, hf _ (ins _ _ _ i0 (up_lt _ _ i1) i2), hf _ (ins _ _ _ i0 (dn_lt _ _ i1) i2)]
      simp only [Matrix.cons_val]; ring
    · rw [div_eq_iff (hg 2 i2).2, hf _ (ins _ _ _ i0 i1 (up_lt _ _ i2)), hf _ (ins _ _ _ i0 i1 (dn_lt _ _ i2))]
      simp only [Matrix.cons_val]; ring
  | false =>
    have i0 : idx 0 < f.n 0 - 2 := hi 0
    have i1 : idx 1 < f.n 1 - 2 := hi 1
    have i2 : idx 2 < f.n 2 - 2 := hi 2
    have hg : ∀ a, idx a < f.n a - 2 → f.crd a (idx a + 2) - f.crd a (idx a) ≠ 0 := by
      intro a ha
      exact sub_ne_zero.mpr (ne_of_gt (hinc a _ _ (by omega) (by omega)))
    have ins : ∀ x y z, x < f.n 0 → y < f.n 1 → z < f.n 2 → Inside f.n ![x, y, z] := by
      intro x y z hx hy hz a
      match a with
      | 0 => exact hx
      | 1 => exact hy
      | 2 => exact hz
    simp only [prep, Bool.false_eq_true, if_false]
    unfold dX dY dZ at3
    refine ⟨?_, ?_, ?_⟩
    · rw [div_eq_iff (hg 0 i0), hf _ (ins _ _ _ (by omega) (by omega) (by omega)),
        hf _ (ins _ _ _ (by omega) (by omega) (by omega))]
      simp only [Matrix.cons_val, Nat.add_zero]; ring
    · rw [div_eq_iff (hg 1 i1), hf _ (ins _ _ _ (by omega) (by omega) (by omega)),
        hf _ (ins _ _ _ (by omega) (by omega) (by omega))]
      simp only [Matrix.cons_val, Nat.add_zero]; ring
    · rw [div_eq_iff (hg 2 i2), hf _ (ins _ _ _ (by omega) (by omega) (by omega)),
        hf _ (ins _ _ _ (by omega) (by omega) (by omega))]
      simp only [Matrix.cons_val, Nat.add_zero]; ring
end

end Viscid.Calc
