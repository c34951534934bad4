import Verif.Model.Arith
import Verif.Spec.Arith
import Verif.Props.Layout
import Verif.Props.Hdf5
import Mathlib.Data.List.Forall2
import Mathlib.Tactic.Linarith
/-!
# C159 arithmetic on fields
-/
namespace Viscid.Props
open Viscid.Arith Viscid.Spec.Arith
open Viscid.Layout (Arr prod reshape new detect)
open Viscid.Hdf5 (Center)

/-! ## broadcasting -/

theorem bcast1_self (a : Nat) : bcast1 a a = some a := by simp [bcast1]

theorem bcastRev_self (l : List Nat) : bcastRev l l = some l := by
  induction l with
  | nil => rfl
  | cons a l ih => simp [bcastRev, bcast1_self, ih]

theorem bcastRev_append (l : List Nat) (n : Nat) : bcastRev l (l ++ [n]) = some (l ++ [n]) := by
  induction l with
  | nil => rfl
  | cons a l ih => simp [bcastRev, bcast1_self, ih]

theorem bcastRev_one (l : List Nat) (n : Nat) : bcastRev (l ++ [n]) (l ++ [1]) = some (l ++ [n]) := by
  induction l with
  | nil =>
    simp only [List.nil_append, bcastRev, bcast1]
    by_cases h : n = 1 <;> simp [h]
  | cons a l ih => simp [bcastRev, bcast1_self, ih]

theorem bcast_self (s : List Nat) : bcast s s = some s := by simp [bcast, bcastRev_self]

theorem bcast_nil (s : List Nat) : bcast s [] = some s := by
  unfold bcast
  cases h : s.reverse with
  | nil => rw [List.reverse_eq_nil_iff] at h; subst h; rfl
  | cons a l =>
    simp only [List.reverse_nil, bcastRev, Option.map_some]
    rw [← h, List.reverse_reverse]

theorem bcast_flat_scalar (s : List Nat) (n : Nat) : bcast (n :: s) (1 :: s) = some (n :: s) := by
  simp [bcast, bcastRev_one]

theorem bcast_scalar_flat (s : List Nat) (n : Nat) : bcast s (n :: s) = some (n :: s) := by
  simp [bcast, bcastRev_append]

theorem bcast_inter_scalar (s : List Nat) (n : Nat) : bcast (s ++ [n]) (s ++ [1]) = some (s ++ [n]) := by
  unfold bcast
  simp only [List.reverse_append, List.reverse_cons, List.reverse_nil, List.nil_append, List.singleton_append, bcastRev, bcastRev_self]
  by_cases h : n = 1 <;> simp [bcast1, h]

theorem within_length {s idx : List Nat} (h : Within s idx) : idx.length = s.length := List.Forall₂.length_eq h

theorem bidx_self {s idx : List Nat} (h : Within s idx) : bidx s idx = idx := by
  unfold bidx
  rw [within_length h, Nat.sub_self, List.drop_zero]
  induction h with
  | nil => rfl
  | @cons i n idx s hi _ ih =>
    rw [List.zipWith_cons_cons, ih]
    by_cases hn : n = 1
    · simp only [if_pos hn, List.cons.injEq, and_true]; omega
    · rw [if_neg hn]

theorem bidx_nil (idx : List Nat) : bidx [] idx = [] := by simp [bidx]

theorem within_cons {s idx : List Nat} {n c : Nat} (hc : c < n) (h : Within s idx) : Within (n :: s) (c :: idx) := List.Forall₂.cons hc h

theorem within_snoc {s idx : List Nat} {n c : Nat} (hc : c < n) (h : Within s idx) : Within (s ++ [n]) (idx ++ [c]) :=
  List.rel_append h (List.Forall₂.cons hc .nil)

theorem within_split : ∀ (s l : List Nat) (n : Nat), Within (s ++ [n]) l → ∃ p q, Within s p ∧ q < n ∧ l = p ++ [q]
  | [], l, n, h => by
    cases h with
    | @cons i _ t _ h1 h2 => cases h2; exact ⟨[], i, .nil, h1, rfl⟩
  | a :: s, l, n, h => by
    cases h with
    | @cons i _ t _ h1 h2 =>
      obtain ⟨p, q, hp, hq, e⟩ := within_split s t n h2
      exact ⟨i :: p, q, .cons h1 hp, hq, by rw [e]; rfl⟩

theorem bidx_one_cons {s idx : List Nat} (c : Nat) (h : Within s idx) : bidx (1 :: s) (c :: idx) = 0 :: idx := by
  unfold bidx
  have := bidx_self h
  unfold bidx at this
  simp only [List.length_cons, within_length h, Nat.sub_self, List.drop_zero, List.zipWith_cons_cons, if_true] at this ⊢
  rw [this]

theorem bidx_drop_cons {s idx : List Nat} (c : Nat) (h : Within s idx) : bidx s (c :: idx) = idx := by
  have := bidx_self h
  unfold bidx at this ⊢
  rw [within_length h, Nat.sub_self, List.drop_zero] at this
  rw [List.length_cons, within_length h, Nat.add_sub_cancel_left, List.drop_succ_cons, List.drop_zero, this]

theorem zipWith_snoc (f : Nat → Nat → Nat) {s idx : List Nat} (h : idx.length = s.length) (a b : Nat) :
    List.zipWith f (s ++ [a]) (idx ++ [b]) = List.zipWith f s idx ++ [f a b] := by
  rw [List.zipWith_append h.symm]; rfl

theorem bidx_one_snoc {s idx : List Nat} (c : Nat) (h : Within s idx) : bidx (s ++ [1]) (idx ++ [c]) = idx ++ [0] := by
  have := bidx_self h
  unfold bidx at this ⊢
  rw [within_length h, Nat.sub_self, List.drop_zero] at this
  rw [List.length_append, List.length_append, within_length h, List.length_singleton, List.length_singleton, Nat.sub_self, List.drop_zero,
    zipWith_snoc _ (within_length h), this]
  rfl

/-! ## `wrap` -/

theorem prod_cons (n : Nat) (s : List Nat) : prod (n :: s) = n * prod s := rfl

theorem big_cons {n : Nat} (hn : 2 ≤ n) (s : List Nat) : prod (n :: s) ≠ 1 := by
  rw [prod_cons]
  intro h
  have := Nat.eq_one_of_mul_eq_one_right h
  omega

theorem big_snoc {n : Nat} (hn : 2 ≤ n) (s : List Nat) : prod (s ++ [n]) ≠ 1 := by
  rw [prod_swap]
  exact big_cons hn s

theorem wrap_number (vec : Bool) (c : Center) (axes : List (String × List ℚ)) (a : Arr α) (h : prod a.shape = 1) :
    wrapOn vec c axes a = .ok (.number (a.get (a.shape.map fun _ => 0))) := by
  unfold wrapOn
  rw [if_pos h]

theorem wrapOn_scalar_eq (vec : Bool) (c : Center) (axes : List (String × List ℚ)) (a : Arr α) (h : a.shape = points axes) (hp : prod a.shape ≠ 1) :
    wrapOn vec c axes a = .ok (.field ⟨axes, c, false, .default, a⟩) := by
  unfold wrapOn
  rw [if_neg hp]
  have : a.shape = axes.map fun a => a.2.length := h
  simp [this, Fld.nrComps]

theorem scalar_mk (c : Center) (axes : List (String × List ℚ)) (F : Layout.Layout) (a : Arr α) (h : a.shape = points axes) :
    Scalar ⟨axes, c, false, F, a⟩ a.get := by
  refine ⟨rfl, a, ?_, h, fun _ _ => rfl⟩
  unfold Fld.data reshape
  have : a.shape = (Fld.mk axes c false F a).sshape := h
  simp [this, lift]

theorem wrapOn_scalar (vec : Bool) (c : Center) (axes : List (String × List ℚ)) (a : Arr α) (h : a.shape = points axes) (hp : prod a.shape ≠ 1) :
    ∃ r, wrapOn vec c axes a = .ok (.field r) ∧ r.axes = axes ∧ r.center = c ∧ Scalar r a.get :=
  ⟨_, wrapOn_scalar_eq vec c axes a h hp, rfl, rfl, scalar_mk c axes .default a h⟩

theorem wrapOn_flat_eq (vec : Bool) (c : Center) (axes : List (String × List ℚ)) (a : Arr α) (n : Nat) (hn : 2 ≤ n) (h : a.shape = n :: points axes) :
    wrapOn vec c axes a = .ok (.field ⟨axes, c, true, .default, a⟩) := by
  obtain ⟨shape, g⟩ := a
  simp only at h
  subst h
  unfold wrapOn
  rw [if_neg (big_cons hn _)]
  have h1 : ¬ (n :: points axes = axes.map fun a => a.2.length) := by
    intro e
    have := congrArg List.length e
    simp [points] at this
  have h2 : (n :: points axes).tail = axes.map fun a => a.2.length := rfl
  simp only [if_neg h1, if_pos (Or.inl h2)]
  unfold Fld.nrComps
  have : (Fld.mk axes c true .default (⟨n :: points axes, g⟩ : Arr α)).sshape = points axes := rfl
  rw [this]
  simp only [if_true]
  have := nrComps_flat (points axes) n g .default none
  unfold new
  rw [this]
  simp only [lift]
  rw [if_neg (by omega)]

theorem flat_mk (c : Center) (axes : List (String × List ℚ)) (a : Arr α) (n : Nat) (h : a.shape = n :: points axes) :
    Flat ⟨axes, c, true, .default, a⟩ n (fun k idx => a.get (k :: idx)) := by
  obtain ⟨shape, g⟩ := a
  simp only at h
  subst h
  refine ⟨rfl, ?_, ⟨n :: points axes, g⟩, ?_, rfl, fun _ _ _ _ => rfl⟩
  · unfold Fld.layout
    have : (Fld.mk axes c true .default (⟨n :: points axes, g⟩ : Arr α)).sshape = points axes := rfl
    rw [this]
    simp [new, Layout.Fld.layout, (C55_detect (points axes) n).1]
  · unfold Fld.data
    have : (Fld.mk axes c true .default (⟨n :: points axes, g⟩ : Arr α)).sshape = points axes := rfl
    rw [this]
    simp only [if_true]
    rw [data_flat _ n g .default (.inl rfl)]
    rfl

theorem wrapOn_flat (vec : Bool) (c : Center) (axes : List (String × List ℚ)) (a : Arr α) (n : Nat) (hn : 2 ≤ n) (h : a.shape = n :: points axes) :
    ∃ r, wrapOn vec c axes a = .ok (.field r) ∧ r.axes = axes ∧ r.center = c ∧ Flat r n (fun k idx => a.get (k :: idx)) :=
  ⟨_, wrapOn_flat_eq vec c axes a n hn h, rfl, rfl, flat_mk c axes a n h⟩

theorem wrapOn_interlaced_eq (vec : Bool) (c : Center) (axes : List (String × List ℚ)) (a : Arr α) (n : Nat) (hn : 2 ≤ n)
    (h : a.shape = points axes ++ [n]) (hne : points axes ≠ List.replicate axes.length n) :
    wrapOn vec c axes a = .ok (.field ⟨axes, c, true, .default, a⟩) := by
  obtain ⟨shape, g⟩ := a
  simp only at h
  subst h
  have hlen : (points axes).length = axes.length := by simp [points]
  rw [← hlen] at hne
  unfold wrapOn
  rw [if_neg (big_snoc hn _)]
  have h1 : ¬ (points axes ++ [n] = axes.map fun a => a.2.length) := by
    intro e
    have := congrArg List.length e
    simp [points] at this
  have h2 : (points axes ++ [n]).dropLast = axes.map fun a => a.2.length := by rw [List.dropLast_concat]; rfl
  simp only [if_neg h1, if_pos (Or.inr h2)]
  unfold Fld.nrComps
  have : (Fld.mk axes c true .default (⟨points axes ++ [n], g⟩ : Arr α)).sshape = points axes := rfl
  rw [this]
  simp only [if_true]
  have := nrComps_interlaced (points axes) n g .default none hne
  unfold new
  rw [this]
  simp only [lift]
  rw [if_neg (by omega)]

theorem interlaced_mk (c : Center) (axes : List (String × List ℚ)) (a : Arr α) (n : Nat) (h : a.shape = points axes ++ [n])
    (hne : points axes ≠ List.replicate axes.length n) : Interlaced ⟨axes, c, true, .default, a⟩ n (fun k idx => a.get (idx ++ [k])) := by
  obtain ⟨shape, g⟩ := a
  simp only at h
  subst h
  have hlen : (points axes).length = axes.length := by simp [points]
  rw [← hlen] at hne
  refine ⟨rfl, ?_, ⟨points axes ++ [n], g⟩, ?_, rfl, fun _ _ _ _ => rfl⟩
  · unfold Fld.layout
    have : (Fld.mk axes c true .default (⟨points axes ++ [n], g⟩ : Arr α)).sshape = points axes := rfl
    rw [this]
    simp [new, Layout.Fld.layout, (C55_detect (points axes) n).2, hne]
  · unfold Fld.data
    have : (Fld.mk axes c true .default (⟨points axes ++ [n], g⟩ : Arr α)).sshape = points axes := rfl
    rw [this]
    simp only [if_true]
    rw [data_interlaced _ n g .default (.inl rfl) hne]
    rfl

theorem wrapOn_interlaced (vec : Bool) (c : Center) (axes : List (String × List ℚ)) (a : Arr α) (n : Nat) (hn : 2 ≤ n) (h : a.shape = points axes ++ [n])
    (hne : points axes ≠ List.replicate axes.length n) :
    ∃ r, wrapOn vec c axes a = .ok (.field r) ∧ r.axes = axes ∧ r.center = c ∧ Interlaced r n (fun k idx => a.get (idx ++ [k])) :=
  ⟨_, wrapOn_interlaced_eq vec c axes a n hn h hne, rfl, rfl, interlaced_mk c axes a n h hne⟩

/-! ## C159 -/

theorem _root_.Viscid.Spec.Arith.Scalar.congr {r : Fld α} {u v : List Nat → α} (h : Scalar r u) (e : ∀ idx, Within (points r.axes) idx → u idx = v idx) : Scalar r v := by
  obtain ⟨h1, a, h2, h3, h4⟩ := h
  exact ⟨h1, a, h2, h3, fun idx hi => (h4 idx hi).trans (e idx hi)⟩

theorem _root_.Viscid.Spec.Arith.Flat.congr {r : Fld α} {n : Nat} {u v : Nat → List Nat → α} (h : Flat r n u)
    (e : ∀ c idx, c < n → Within (points r.axes) idx → u c idx = v c idx) : Flat r n v := by
  obtain ⟨h1, h0, a, h2, h3, h4⟩ := h
  exact ⟨h1, h0, a, h2, h3, fun c idx hc hi => (h4 c idx hc hi).trans (e c idx hc hi)⟩

theorem _root_.Viscid.Spec.Arith.Interlaced.congr {r : Fld α} {n : Nat} {u v : Nat → List Nat → α} (h : Interlaced r n u)
    (e : ∀ c idx, c < n → Within (points r.axes) idx → u c idx = v c idx) : Interlaced r n v := by
  obtain ⟨h1, h0, a, h2, h3, h4⟩ := h
  exact ⟨h1, h0, a, h2, h3, fun c idx hc hi => (h4 c idx hc hi).trans (e c idx hc hi)⟩

/-- C159: an operator on two scalar fields on grids of the same size acts on the values at each point; the result is on the grid of the first -/
theorem C159_scalar (o : α → β → γ) (f : Fld α) (g : Fld β) (u : List Nat → α) (w : List Nat → β) (hf : Scalar f u) (hg : Scalar g w)
    (hs : points g.axes = points f.axes) (hp : prod (points f.axes) ≠ 1) :
    ∃ r, f.op o g = .ok (.field r) ∧ r.axes = f.axes ∧ r.center = f.center ∧ Scalar r (fun idx => o (u idx) (w idx)) := by
  obtain ⟨hv, a, ha, has, hau⟩ := hf
  obtain ⟨hv', b, hb, hbs, hbw⟩ := hg
  rw [hs] at hbs hbw
  obtain ⟨r, hr, hax, hc, hsc⟩ := wrapOn_scalar f.vector f.center f.axes
    (⟨points f.axes, fun idx => o (a.get (bidx (points f.axes) idx)) (b.get (bidx (points f.axes) idx))⟩ : Arr γ) rfl hp
  refine ⟨r, ?_, hax, hc, hsc.congr fun idx hi => ?_⟩
  · unfold Fld.op Fld.ow
    rw [ha, hb, hv]
    simp only [Bool.false_and, Bool.false_eq_true, if_false]
    unfold apply
    rw [has, hbs, bcast_self]
    exact hr
  · rw [hax] at hi
    simp only [bidx_self hi]
    rw [hau idx hi, hbw idx hi]

/-- C159: an operator with a number, or of one field alone, acts on every value -/
theorem C159_number (o : α → β → γ) (f : Fld α) (x : β) :
    (∀ u, Scalar f u → prod (points f.axes) ≠ 1 →
      ∃ r, f.opArr o ⟨[], fun _ => x⟩ = .ok (.field r) ∧ r.axes = f.axes ∧ r.center = f.center ∧ Scalar r (fun idx => o (u idx) x)) ∧
    (∀ n u, 2 ≤ n → Flat f n u →
      ∃ r, f.opArr o ⟨[], fun _ => x⟩ = .ok (.field r) ∧ r.axes = f.axes ∧ r.center = f.center ∧ Flat r n (fun c idx => o (u c idx) x)) ∧
    (∀ n u, 2 ≤ n → Interlaced f n u → points f.axes ≠ List.replicate f.axes.length n →
      ∃ r, f.opArr o ⟨[], fun _ => x⟩ = .ok (.field r) ∧ r.axes = f.axes ∧ r.center = f.center ∧ Interlaced r n (fun c idx => o (u c idx) x)) := by
  refine ⟨?_, ?_, ?_⟩
  · rintro u ⟨hv, a, ha, has, hau⟩ hp
    obtain ⟨r, hr, hax, hc, hsc⟩ := wrapOn_scalar f.vector f.center f.axes (⟨points f.axes, fun idx => o (a.get (bidx (points f.axes) idx)) x⟩ : Arr γ) rfl hp
    refine ⟨r, ?_, hax, hc, hsc.congr fun idx hi => ?_⟩
    · unfold Fld.opArr
      rw [ha]
      unfold apply
      simp only [has, bcast_nil]
      exact hr
    · rw [hax] at hi
      simp only [bidx_self hi]
      rw [hau idx hi]
  · rintro n u hn ⟨hv, hl, a, ha, has, hau⟩
    obtain ⟨r, hr, hax, hc, hsc⟩ := wrapOn_flat f.vector f.center f.axes
      (⟨n :: points f.axes, fun idx => o (a.get (bidx (n :: points f.axes) idx)) x⟩ : Arr γ) n hn rfl
    refine ⟨r, ?_, hax, hc, hsc.congr fun c idx hcn hi => ?_⟩
    · unfold Fld.opArr
      rw [ha]
      unfold apply
      simp only [has, bcast_nil]
      exact hr
    · rw [hax] at hi
      simp only [bidx_self (within_cons hcn hi)]
      rw [hau c idx hcn hi]
  · rintro n u hn ⟨hv, hl, a, ha, has, hau⟩ hne
    obtain ⟨r, hr, hax, hc, hsc⟩ := wrapOn_interlaced f.vector f.center f.axes
      (⟨points f.axes ++ [n], fun idx => o (a.get (bidx (points f.axes ++ [n]) idx)) x⟩ : Arr γ) n hn rfl hne
    refine ⟨r, ?_, hax, hc, hsc.congr fun c idx hcn hi => ?_⟩
    · unfold Fld.opArr
      rw [ha]
      unfold apply
      simp only [has, bcast_nil]
      exact hr
    · rw [hax] at hi
      simp only [bidx_self (within_snoc hcn hi)]
      rw [hau c idx hcn hi]

/-- C159: an operator on two vector fields with the same layout acts on the components at each point -/
theorem C159_vector_partial (o : α → β → γ) (f : Fld α) (g : Fld β) (n : Nat) (hn : 2 ≤ n) (u : Nat → List Nat → α) (w : Nat → List Nat → β)
    (hs : points g.axes = points f.axes) :
    (Flat f n u → Flat g n w →
      ∃ r, f.op o g = .ok (.field r) ∧ r.axes = f.axes ∧ r.center = f.center ∧ Flat r n (fun c idx => o (u c idx) (w c idx))) ∧
    (Interlaced f n u → Interlaced g n w → points f.axes ≠ List.replicate f.axes.length n →
      ∃ r, f.op o g = .ok (.field r) ∧ r.axes = f.axes ∧ r.center = f.center ∧ Interlaced r n (fun c idx => o (u c idx) (w c idx))) := by
  refine ⟨?_, ?_⟩
  · rintro ⟨hv, hl, a, ha, has, hau⟩ ⟨hv', hl', b, hb, hbs, hbw⟩
    rw [hs] at hbs hbw
    obtain ⟨r, hr, hax, hc, hsc⟩ := wrapOn_flat f.vector f.center f.axes
      (⟨n :: points f.axes, fun idx => o (a.get (bidx (n :: points f.axes) idx)) (b.get (bidx (n :: points f.axes) idx))⟩ : Arr γ) n hn rfl
    refine ⟨r, ?_, hax, hc, hsc.congr fun c idx hcn hi => ?_⟩
    · unfold Fld.op Fld.ow
      rw [ha, hb, hv']
      simp only [Bool.not_true, Bool.and_false, Bool.false_eq_true, if_false]
      unfold apply
      rw [has, hbs, bcast_self]
      exact hr
    · rw [hax] at hi
      simp only [bidx_self (within_cons hcn hi)]
      rw [hau c idx hcn hi, hbw c idx hcn hi]
  · rintro ⟨hv, hl, a, ha, has, hau⟩ ⟨hv', hl', b, hb, hbs, hbw⟩ hne
    rw [hs] at hbs hbw
    obtain ⟨r, hr, hax, hc, hsc⟩ := wrapOn_interlaced f.vector f.center f.axes
      (⟨points f.axes ++ [n], fun idx => o (a.get (bidx (points f.axes ++ [n]) idx)) (b.get (bidx (points f.axes ++ [n]) idx))⟩ : Arr γ) n hn rfl hne
    refine ⟨r, ?_, hax, hc, hsc.congr fun c idx hcn hi => ?_⟩
    · unfold Fld.op Fld.ow
      rw [ha, hb, hv']
      simp only [Bool.not_true, Bool.and_false, Bool.false_eq_true, if_false]
      unfold apply
      rw [has, hbs, bcast_self]
      exact hr
    · rw [hax] at hi
      simp only [bidx_self (within_snoc hcn hi)]
      rw [hau c idx hcn hi, hbw c idx hcn hi]

/-- C159: an operator on a vector field and a scalar field acts on each component with the scalar at the same point, whatever the layout -/
theorem C159_vector_scalar (o : α → β → γ) (f : Fld α) (g : Fld β) (n : Nat) (hn : 2 ≤ n) (u : Nat → List Nat → α) (w : List Nat → β)
    (hs : points g.axes = points f.axes) (hg : Scalar g w) :
    (Flat f n u → ∃ r, f.op o g = .ok (.field r) ∧ r.axes = f.axes ∧ r.center = f.center ∧ Flat r n (fun c idx => o (u c idx) (w idx))) ∧
    (Interlaced f n u → points f.axes ≠ List.replicate f.axes.length n →
      ∃ r, f.op o g = .ok (.field r) ∧ r.axes = f.axes ∧ r.center = f.center ∧ Interlaced r n (fun c idx => o (u c idx) (w idx))) := by
  obtain ⟨hv', b, hb, hbs, hbw⟩ := hg
  rw [hs] at hbs hbw
  refine ⟨?_, ?_⟩
  · rintro ⟨hv, hl, a, ha, has, hau⟩
    obtain ⟨r, hr, hax, hc, hsc⟩ := wrapOn_flat f.vector f.center f.axes
      (⟨n :: points f.axes, fun idx => o (a.get (bidx (n :: points f.axes) idx)) (b.get (bidx (1 :: points f.axes) idx).tail)⟩ : Arr γ) n hn rfl
    refine ⟨r, ?_, hax, hc, hsc.congr fun c idx hcn hi => ?_⟩
    · unfold Fld.op Fld.ow
      rw [ha, hb, hv', hv, hl]
      simp only [Bool.not_false, Bool.and_self, if_true]
      unfold apply
      simp only [has, hbs, bcast_flat_scalar]
      exact hr
    · rw [hax] at hi
      simp only [bidx_self (within_cons hcn hi), bidx_one_cons c hi, List.tail_cons]
      rw [hau c idx hcn hi, hbw idx hi]
  · rintro ⟨hv, hl, a, ha, has, hau⟩ hne
    obtain ⟨r, hr, hax, hc, hsc⟩ := wrapOn_interlaced f.vector f.center f.axes
      (⟨points f.axes ++ [n], fun idx => o (a.get (bidx (points f.axes ++ [n]) idx)) (b.get (bidx (points f.axes ++ [1]) idx).dropLast)⟩ : Arr γ) n hn rfl hne
    refine ⟨r, ?_, hax, hc, hsc.congr fun c idx hcn hi => ?_⟩
    · unfold Fld.op Fld.ow
      rw [ha, hb, hv', hv, hl]
      simp only [Bool.not_false, Bool.and_self, if_true]
      unfold apply
      simp only [has, hbs, bcast_inter_scalar]
      exact hr
    · rw [hax] at hi
      simp only [bidx_self (within_snoc hcn hi), bidx_one_snoc c hi, List.dropLast_concat]
      rw [hau c idx hcn hi, hbw idx hi]

/-- C159: an operator on a scalar field and a vector field with the components first does the same -/
theorem C159_scalar_vector_partial (o : α → β → γ) (f : Fld α) (g : Fld β) (n : Nat) (hn : 2 ≤ n) (u : List Nat → α) (w : Nat → List Nat → β)
    (hs : points g.axes = points f.axes) (hf : Scalar f u) (hg : Flat g n w) :
    ∃ r, f.op o g = .ok (.field r) ∧ r.axes = f.axes ∧ r.center = f.center ∧ Flat r n (fun c idx => o (u idx) (w c idx)) := by
  obtain ⟨hv, a, ha, has, hau⟩ := hf
  obtain ⟨hv', hl', b, hb, hbs, hbw⟩ := hg
  rw [hs] at hbs hbw
  obtain ⟨r, hr, hax, hc, hsc⟩ := wrapOn_flat f.vector f.center f.axes
    (⟨n :: points f.axes, fun idx => o (a.get (bidx (points f.axes) idx)) (b.get (bidx (n :: points f.axes) idx))⟩ : Arr γ) n hn rfl
  refine ⟨r, ?_, hax, hc, hsc.congr fun c idx hcn hi => ?_⟩
  · unfold Fld.op Fld.ow
    rw [ha, hb, hv]
    simp only [Bool.false_and, Bool.false_eq_true, if_false]
    unfold apply
    rw [has, hbs, bcast_scalar_flat]
    exact hr
  · rw [hax] at hi
    simp only [bidx_self (within_cons hcn hi), bidx_drop_cons c hi]
    rw [hau idx hi, hbw c idx hcn hi]

theorem bcast1_big {a b c : Nat} (ha : 2 ≤ a) (hb : 2 ≤ b) (h : bcast1 a b = some c) : a = b := by
  unfold bcast1 at h
  by_cases e : a = b
  · exact e
  · rw [if_neg e, if_neg (by omega), if_neg (by omega)] at h
    cases h

theorem bcastRev_shift : ∀ (l : List Nat) (n : Nat) (r : List Nat), 2 ≤ n → (∀ k ∈ l, 2 ≤ k) → bcastRev l (n :: l) = some r → l = List.replicate l.length n
  | [], n, r, hn, hl, h => rfl
  | a :: l, n, r, hn, hl, h => by
    simp only [bcastRev] at h
    have ha := hl a (by simp)
    cases h1 : bcast1 a n with
    | none => simp [h1] at h
    | some c =>
      have e := bcast1_big ha hn h1
      subst e
      cases h2 : bcastRev l (a :: l) with
      | none => simp [h2] at h
      | some r' =>
        have := bcastRev_shift l a r' ha (fun k hk => hl k (by simp [hk])) h2
        rw [List.length_cons, List.replicate_succ, ← this]

theorem bcastRev_same : ∀ (l m r : List Nat), (∀ k ∈ l, 2 ≤ k) → (∀ k ∈ m, 2 ≤ k) → l.length = m.length → bcastRev l m = some r → l = m
  | [], [], _, _, _, _, _ => rfl
  | [], b :: m, _, _, _, h, _ => by simp at h
  | a :: l, [], _, _, _, h, _ => by simp at h
  | a :: l, b :: m, r, hl, hm, hlen, h => by
    simp only [bcastRev] at h
    cases h1 : bcast1 a b with
    | none => simp [h1] at h
    | some c =>
      have e := bcast1_big (hl a (by simp)) (hm b (by simp)) h1
      cases h2 : bcastRev l m with
      | none => simp [h2] at h
      | some r' =>
        have := bcastRev_same l m r' (fun k hk => hl k (by simp [hk])) (fun k hk => hm k (by simp [hk])) (by simpa using hlen) h2
        rw [e, this]

theorem replicate_rev (s : List Nat) (n : Nat) (h : s.reverse = List.replicate s.reverse.length n) : s = List.replicate s.length n := by
  have := congrArg List.reverse h
  rwa [List.reverse_reverse, List.reverse_replicate, List.length_reverse] at this

/-- C159 is violated by a scalar field and a vector field with the components last: `s * v` is a ValueError, although `v * s` is the product -/
theorem C159_scalar_interlaced_violated (o : α → β → γ) (f : Fld α) (g : Fld β) (n : Nat) (hn : 2 ≤ n) (u : List Nat → α) (w : Nat → List Nat → β)
    (hs : points g.axes = points f.axes) (hf : Scalar f u) (hg : Interlaced g n w) (h2 : ∀ k ∈ points f.axes, 2 ≤ k)
    (hne : points f.axes ≠ List.replicate f.axes.length n) : f.op o g = .error .value := by
  obtain ⟨hv, a, ha, has, hau⟩ := hf
  obtain ⟨hv', hl', b, hb, hbs, hbw⟩ := hg
  rw [hs] at hbs
  unfold Fld.op Fld.ow
  rw [ha, hb, hv]
  simp only [Bool.false_and, Bool.false_eq_true, if_false]
  unfold apply
  rw [has, hbs]
  have : bcast (points f.axes) (points f.axes ++ [n]) = none := by
    unfold bcast
    rw [List.reverse_append]
    simp only [List.reverse_cons, List.reverse_nil, List.nil_append, List.singleton_append]
    cases hb : bcastRev (points f.axes).reverse (n :: (points f.axes).reverse) with
    | none => rfl
    | some r =>
      exfalso
      apply hne
      have := replicate_rev _ _ (bcastRev_shift _ n r hn (fun k hk => h2 k (by simpa using hk)) hb)
      rwa [show (points f.axes).length = f.axes.length by simp [points]] at this
  rw [this]

/-- C159: and on a grid with one point along the first of two axes it is something else: the scalar is taken at another point, given by the component -/
theorem C159_scalar_interlaced_wrong_violated (o : α → β → γ) (f : Fld α) (g : Fld β) (n : Nat) (hn : 2 ≤ n) (u : List Nat → α) (w : Nat → List Nat → β)
    (hs : points g.axes = [1, n]) (hs' : points f.axes = [1, n]) (hf : Scalar f u) (hg : Interlaced g n w) :
    ∃ r, f.op o g = .ok (.field r) ∧ r.axes = f.axes ∧ Interlaced r n (fun c idx => o (u [0, c]) (w c idx)) := by
  obtain ⟨hv, a, ha, has, hau⟩ := hf
  obtain ⟨hv', hl', b, hb, hbs, hbw⟩ := hg
  rw [hs] at hbs hbw
  rw [hs'] at has hau
  have hlen : f.axes.length = 2 := by
    have := congrArg List.length hs'
    simpa [points] using this
  obtain ⟨r, hr, hax, hc, hsc⟩ := wrapOn_interlaced f.vector f.center f.axes
    (⟨[1, n, n], fun idx => o (a.get (bidx [1, n] idx)) (b.get (bidx [1, n, n] idx))⟩ : Arr γ) n hn (by rw [hs']; rfl) (by
      rw [hs', hlen]
      intro e
      simp only [List.replicate_succ, List.replicate_zero, List.cons.injEq] at e
      omega)
  refine ⟨r, ?_, hax, hsc.congr fun c idx hcn hi => ?_⟩
  · unfold Fld.op Fld.ow
    rw [ha, hb, hv]
    simp only [Bool.false_and, Bool.false_eq_true, if_false]
    unfold apply
    rw [has, hbs]
    have : bcast [1, n] ([1, n] ++ [n]) = some [1, n, n] := by
      simp [bcast, bcastRev, bcast1]
      split <;> simp_all
    rw [this]
    exact hr
  · rw [hax, hs'] at hi
    have hi' := hi
    cases hi with
    | @cons i _ t _ h1 h3 =>
      cases h3 with
      | @cons j _ _ _ h4 h5 =>
        cases h5
        have e1 : bidx [1, n] ([i, j] ++ [c]) = [0, c] := by
          simp [bidx]
          omega
        have e2 : bidx [1, n, n] ([i, j] ++ [c]) = [i, j] ++ [c] := bidx_self (within_snoc hcn hi')
        simp only [e1, e2]
        rw [hau [0, c] (.cons (by omega) (.cons hcn .nil)), hbw c [i, j] hcn hi']

/-- C159 is violated by vector fields with different layouts: a ValueError -/
theorem C159_mixed_violated (o : α → β → γ) (f : Fld α) (g : Fld β) (n : Nat) (hn : 2 ≤ n) (u : Nat → List Nat → α) (w : Nat → List Nat → β)
    (hs : points g.axes = points f.axes) (hf : Flat f n u) (hg : Interlaced g n w) (h2 : ∀ k ∈ points f.axes, 2 ≤ k)
    (hne : points f.axes ≠ List.replicate f.axes.length n) : f.op o g = .error .value := by
  obtain ⟨hv, hl, a, ha, has, hau⟩ := hf
  obtain ⟨hv', hl', b, hb, hbs, hbw⟩ := hg
  rw [hs] at hbs
  unfold Fld.op Fld.ow
  rw [ha, hb, hv, hv']
  simp only [Bool.not_true, Bool.and_false, Bool.false_eq_true, if_false]
  unfold apply
  rw [has, hbs]
  have : bcast (n :: points f.axes) (points f.axes ++ [n]) = none := by
    unfold bcast
    cases hb : bcastRev (n :: points f.axes).reverse (points f.axes ++ [n]).reverse with
    | none => rfl
    | some r =>
      exfalso
      apply hne
      have hall : ∀ k ∈ n :: points f.axes, 2 ≤ k := by
        intro k hk
        rcases List.mem_cons.1 hk with rfl | hk
        · exact hn
        · exact h2 k hk
      have := bcastRev_same _ _ r (fun k hk => hall k (List.mem_reverse.1 hk)) (fun k hk => hall k (by
        simp only [List.mem_reverse, List.mem_append, List.mem_singleton] at hk
        rcases hk with hk | rfl
        · exact List.mem_cons_of_mem _ hk
        · exact List.mem_cons_self)) (by simp) hb
      have := List.reverse_injective this
      have := (rotate_eq n (points f.axes) n this.symm).2
      rwa [show (points f.axes).length = f.axes.length by simp [points]] at this
  rw [this]

/-- C159 is violated by fields on different grids of the same size: values at different places are combined, and the sum is on the grid of the first -/
theorem C159_places_violated (o : α → α → α) (f g : Fld α) (u w : List Nat → α) (hf : Scalar f u) (hg : Scalar g w)
    (hs : points g.axes = points f.axes) (hp : prod (points f.axes) ≠ 1) (hne : f.axes ≠ g.axes) :
    ∃ r r', f.op o g = .ok (.field r) ∧ g.op o f = .ok (.field r') ∧ r.axes = f.axes ∧ r'.axes = g.axes ∧ r.axes ≠ r'.axes ∧
      Scalar r (fun idx => o (u idx) (w idx)) := by
  obtain ⟨r, hr, hax, _, hsc⟩ := C159_scalar o f g u w hf hg hs hp
  obtain ⟨r', hr', hax', _, _⟩ := C159_scalar o g f w u hg hf hs.symm (by rw [hs]; exact hp)
  exact ⟨r, r', hr, hr', hax, hax', by rw [hax, hax']; exact hne, hsc⟩

/-- C159: `f + g` if `f` has one point along the first axis and `g` has more: the data of the result cannot be read, although `g + f` is fine -/
theorem C159_grow_violated (o : α → β → γ) (f : Fld α) (g : Fld β) (n : Nat) (hn : 2 ≤ n) (s : List Nat) (hpos : prod s ≠ 0)
    (u : List Nat → α) (w : List Nat → β) (hf : Scalar f u) (hg : Scalar g w) (h1 : points f.axes = 1 :: s) (h2 : points g.axes = n :: s) :
    (∃ r, f.op o g = .ok (.field r) ∧ r.data = .error .value) ∧
    ∃ r, g.op (fun b a => o a b) f = .ok (.field r) ∧ r.axes = g.axes ∧ Scalar r (fun idx => o (u (0 :: idx.tail)) (w idx)) := by
  obtain ⟨hv, a, ha, has, hau⟩ := hf
  obtain ⟨hv', b, hb, hbs, hbw⟩ := hg
  rw [h1] at has hau
  rw [h2] at hbs hbw
  constructor
  · have hb1 : bcast (1 :: s) (n :: s) = some (n :: s) := by
      have : ∀ l : List Nat, bcastRev (l ++ [1]) (l ++ [n]) = some (l ++ [n]) := by
        intro l
        induction l with
        | nil => simp only [List.nil_append, bcastRev, bcast1]; by_cases h : 1 = n <;> simp [h]
        | cons a l ih => simp [bcastRev, bcast1_self, ih]
      simp [bcast, this]
    refine ⟨⟨f.axes, f.center, false, .default, ⟨n :: s, fun idx => o (a.get (bidx (1 :: s) idx)) (b.get (bidx (n :: s) idx))⟩⟩, ?_, ?_⟩
    · unfold Fld.op Fld.ow
      rw [ha, hb, hv]
      simp only [Bool.false_and, Bool.false_eq_true, if_false]
      unfold apply
      rw [has, hbs, hb1]
      unfold Fld.wrap wrapOn
      have hcs : (f.axes.map fun a => a.2.length) = 1 :: s := h1
      simp only [hcs, hv]
      rw [if_neg (big_cons hn s)]
      have e1 : ¬ n :: s = 1 :: s := by
        intro e; rw [List.cons.injEq] at e; omega
      have e2 : ¬ ((n :: s).tail = 1 :: s ∨ (n :: s).dropLast = 1 :: s) := by
        rintro (e | e)
        · have := congrArg List.length e; simp at this
        · have := congrArg List.length e; simp at this
      simp only [if_neg e1, if_neg e2]
      simp [Fld.nrComps]
    · unfold Fld.data reshape
      have hss : (Fld.mk f.axes f.center false .default (⟨n :: s, fun idx => o (a.get (bidx (1 :: s) idx)) (b.get (bidx (n :: s) idx))⟩ : Arr γ)).sshape = 1 :: s := h1
      rw [hss]
      simp only [Bool.false_eq_true, if_false]
      rw [if_neg (by intro e; rw [List.cons.injEq] at e; omega), if_neg]
      · rfl
      · rw [prod_cons, prod_cons, Nat.one_mul]
        intro e
        have : (n - 1) * prod s = 0 := by
          rw [Nat.sub_mul]; omega
        rcases Nat.mul_eq_zero.1 this with h | h
        · omega
        · exact hpos h
  · obtain ⟨r, hr, hax, hc, hsc⟩ := wrapOn_scalar g.vector g.center g.axes
      (⟨n :: s, fun idx => o (a.get (bidx (1 :: s) idx)) (b.get (bidx (n :: s) idx))⟩ : Arr γ) h2.symm (big_cons hn s)
    refine ⟨r, ?_, hax, hsc.congr fun idx hi => ?_⟩
    · unfold Fld.op Fld.ow
      rw [ha, hb, hv']
      simp only [Bool.false_and, Bool.false_eq_true, if_false]
      unfold apply
      rw [has, hbs, bcast_flat_scalar]
      exact hr
    · rw [hax, h2] at hi
      have hi' := hi
      cases hi with
      | @cons i _ t _ h3 h4 =>
        simp only [bidx_one_cons i h4, bidx_self hi', List.tail_cons]
        rw [hau _ (within_cons (by omega) h4), hbw _ hi']

/-- C159 is violated by vector fields with the components last if there are as many points along each axis as components: the result takes them
to be first -/
theorem C159_cube_violated (o : α → γ) (f : Fld α) (n : Nat) (hn : 2 ≤ n) (u : Nat → List Nat → α) (hf : Interlaced f n u)
    (hc : points f.axes = List.replicate f.axes.length n) :
    ∃ r, f.op1 o = .ok (.field r) ∧ r.axes = f.axes ∧ Flat r n (fun c idx => o (u ((c :: idx).getLast (by simp)) (c :: idx).dropLast)) := by
  obtain ⟨hv, hl, a, ha, has, hau⟩ := hf
  have hsw : points f.axes ++ [n] = n :: points f.axes := by
    rw [hc, ← List.replicate_succ, List.replicate_succ']
  obtain ⟨r, hr, hax, hcn, hsc⟩ := wrapOn_flat f.vector f.center f.axes (⟨a.shape, fun idx => o (a.get idx)⟩ : Arr γ) n hn (by rw [has, hsw])
  refine ⟨r, ?_, hax, hsc.congr fun c idx hcn hi => ?_⟩
  · unfold Fld.op1
    rw [ha]
    exact hr
  · rw [hax] at hi
    have hw := within_cons hcn hi
    rw [← hsw] at hw
    obtain ⟨p, q, hp, hq, e⟩ := within_split _ _ _ hw
    simp only [e]
    rw [hau q p hq hp]
    simp

/-- C159: grids of different size with no axis of one point: a ValueError -/
theorem C159_sizes (o : α → β → γ) (f : Fld α) (g : Fld β) (u : List Nat → α) (w : List Nat → β) (hf : Scalar f u) (hg : Scalar g w)
    (h1 : ∀ k ∈ points f.axes, 2 ≤ k) (h2 : ∀ k ∈ points g.axes, 2 ≤ k) (hlen : f.axes.length = g.axes.length)
    (hne : points f.axes ≠ points g.axes) : f.op o g = .error .value := by
  obtain ⟨hv, a, ha, has, hau⟩ := hf
  obtain ⟨hv', b, hb, hbs, hbw⟩ := hg
  unfold Fld.op Fld.ow
  rw [ha, hb, hv]
  simp only [Bool.false_and, Bool.false_eq_true, if_false]
  unfold apply
  rw [has, hbs]
  have : bcast (points f.axes) (points g.axes) = none := by
    unfold bcast
    cases hb : bcastRev (points f.axes).reverse (points g.axes).reverse with
    | none => rfl
    | some r =>
      exact absurd (List.reverse_injective (bcastRev_same _ _ r (fun k hk => h1 k (List.mem_reverse.1 hk)) (fun k hk => h2 k (List.mem_reverse.1 hk))
        (by simp [points, hlen]) hb)) hne
  rw [this]

/-- C159: a single value comes back as a number, not as a field -/
theorem C159_single (o : α → β → γ) (f : Fld α) (g : Fld β) (u : List Nat → α) (w : List Nat → β) (hf : Scalar f u) (hg : Scalar g w)
    (hs : points g.axes = points f.axes) (hp : prod (points f.axes) = 1) :
    f.op o g = .ok (.number (o (u (f.axes.map fun _ => 0)) (w (f.axes.map fun _ => 0)))) := by
  obtain ⟨hv, a, ha, has, hau⟩ := hf
  obtain ⟨hv', b, hb, hbs, hbw⟩ := hg
  rw [hs] at hbs hbw
  have hone : ∀ s : List Nat, prod s = 1 → Within s (s.map fun _ => 0) := by
    intro s
    induction s with
    | nil => intro _; exact .nil
    | cons n s ih =>
      intro h
      rw [prod_cons] at h
      have h1 := Nat.eq_one_of_mul_eq_one_right h
      have h2 := Nat.eq_one_of_mul_eq_one_left h
      exact .cons (by show 0 < n; omega) (ih h2)
  have hz := hone _ hp
  have hz' : ((points f.axes).map fun _ => 0) = f.axes.map fun _ => 0 := by rw [points, List.map_map]; rfl
  unfold Fld.op Fld.ow
  rw [ha, hb, hv]
  simp only [Bool.false_and, Bool.false_eq_true, if_false]
  unfold apply
  rw [has, hbs, bcast_self]
  simp only
  unfold Fld.wrap
  rw [wrap_number _ _ _ _ (by exact hp)]
  show Except.ok (Ret.number (o (a.get (bidx (points f.axes) ((points f.axes).map fun _ => 0))) (b.get (bidx (points f.axes) ((points f.axes).map fun _ => 0))))) = _
  rw [bidx_self hz, hau _ hz, hbw _ hz, hz']

section
private def exF : Fld ℚ := ⟨[("x", [0, 1, 3]), ("y", [0, 2])], .node, false, .default, ⟨[3, 2], fun idx => (idx.getD 0 0 : ℚ) + 10 * idx.getD 1 0⟩⟩
private def exG : Fld ℚ := ⟨[("x", [0, 1, 3]), ("y", [0, 5])], .node, false, .default, ⟨[3, 2], fun _ => 7⟩⟩
private def exV : Fld ℚ := ⟨[("x", [0, 1, 3]), ("y", [0, 2])], .node, true, .default, ⟨[3, 2, 3], fun idx => idx.getLastD 0⟩⟩
private def exW : Fld ℚ := ⟨[("x", [0, 1, 3]), ("y", [0, 2])], .node, true, .default, ⟨[3, 3, 2], fun idx => idx.headD 0⟩⟩

example : ∃ u w, Scalar exF u ∧ Scalar exG w ∧ points exG.axes = points exF.axes ∧ prod (points exF.axes) ≠ 1 ∧ exF.axes ≠ exG.axes :=
  ⟨_, _, scalar_mk _ _ _ _ rfl, scalar_mk _ _ _ _ rfl, rfl, by decide, by decide +kernel⟩
example : ∃ u, Interlaced exV 3 u ∧ points exV.axes ≠ List.replicate exV.axes.length 3 ∧ (∀ k ∈ points exV.axes, 2 ≤ k) :=
  ⟨_, interlaced_mk _ _ _ 3 rfl (by decide), by decide, by decide⟩
example : ∃ u, Flat exW 3 u := ⟨_, flat_mk _ _ _ 3 rfl⟩
/-- a field of 2 by 2 points with two components whose layout was changed -/
example : Interlaced (⟨[("x", [0, 1]), ("y", [0, 2])], .node, true, .interlaced, ⟨[2, 2, 2], fun idx => idx⟩⟩ : Fld (List Nat)) 2
    (fun c idx => c :: idx) := by
  refine ⟨rfl, rfl, _, rfl, rfl, ?_⟩
  intro c idx _ _
  show (idx ++ [c]).getLastD 0 :: (idx ++ [c]).dropLast = c :: idx
  simp
end

end Viscid.Props
