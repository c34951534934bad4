import Verif.Model.Separator
import Verif.Spec.Separator
import Mathlib.Tactic.Ring
import Mathlib.Data.List.Nodup
import Mathlib.Data.List.GetD
import Mathlib.Tactic.FieldSimp
import Mathlib.Tactic.Linarith
/-!
# Lemmas for C97 to C102
-/
namespace Viscid.Separator
open Viscid.Spec.Separator

def box (r : Rect) : Box := ⟨r.xl, r.xh, r.yl, r.yh⟩

/-! ## lines and walks -/

theorem seg_eq (x0 x1 y0 y1 : ℚ) (n : Nat) : seg x0 x1 y0 y1 n =
    (List.range n).map fun (i : Nat) => (x0 + (i : ℚ) * ((x1 - x0) / ((n : ℚ) - 1)), y0 + (i : ℚ) * ((y1 - y0) / ((n : ℚ) - 1))) := by
  unfold seg linspace
  rw [List.zip_map', ]

theorem cut_flatten (f : ℚ × ℚ → Nat) (s : List (List (ℚ × ℚ))) :
    cut (s.map List.length) (s.flatten.map f) = s.map (List.map f) := by
  induction s with
  | nil => rfl
  | cons a s ih =>
    simp only [List.map_cons, List.flatten_cons, List.map_append, cut]
    rw [List.take_left' (by simp), List.drop_left' (by simp), ih]

theorem snip_seg (f : ℚ × ℚ → Nat) (x0 x1 y0 y1 : ℚ) (n : Nat) : snip ((seg x0 x1 y0 y1 n).map f) =
    ((List.range (n - 1)).map fun (i : Nat) => (x0 + (x1 - x0) * ((i : ℚ) / ((n - 1 : Nat) : ℚ)),
      y0 + (y1 - y0) * ((i : ℚ) / ((n - 1 : Nat) : ℚ)))).map f := by
  unfold snip
  rw [seg_eq, List.map_map, List.map_map]
  cases n with
  | zero => rfl
  | succ n =>
    rw [List.range_succ, List.map_append, List.map_singleton, List.dropLast_concat]
    refine List.map_congr_left fun i _ => ?_
    show f _ = f _
    have : ((n + 1 : Nat) : ℚ) - 1 = (n : ℚ) := by push_cast; ring
    rw [this, Nat.add_sub_cancel]
    refine congrArg f (Prod.ext ?_ ?_) <;> (dsimp only; ring)

theorem snipRev_seg (f : ℚ × ℚ → Nat) (x0 x1 y0 y1 : ℚ) (n : Nat) : snipRev ((seg x0 x1 y0 y1 n).map f) =
    ((List.range (n - 1)).map fun (i : Nat) => (x1 + (x0 - x1) * ((i : ℚ) / ((n - 1 : Nat) : ℚ)),
      y1 + (y0 - y1) * ((i : ℚ) / ((n - 1 : Nat) : ℚ)))).map f := by
  unfold snipRev
  rw [seg_eq]
  refine List.ext_getElem (by simp) fun k h1 h2 => ?_
  have hk : k < n - 1 := by simpa using h2
  have hn : ((n - 1 : Nat) : ℚ) = (n : ℚ) - 1 := by push_cast [show 1 ≤ n by omega]; ring
  have hn0 : (n : ℚ) - 1 ≠ 0 := by
    rw [← hn]
    have : 0 < n - 1 := by omega
    positivity
  simp only [List.getElem_reverse, List.getElem_drop, List.getElem_map, List.getElem_range, List.length_drop, List.length_map,
    List.length_range]
  have : ((1 + (n - 1 - 1 - k) : Nat) : ℚ) = (n : ℚ) - 1 - k := by
    have : 1 + (n - 1 - 1 - k) = n - 1 - k := by omega
    rw [this]
    push_cast [show k ≤ n - 1 by omega, show 1 ≤ n by omega]
    ring
  rw [this, hn]
  refine congrArg f (Prod.ext ?_ ?_) <;> (dsimp only; field_simp; ring)

theorem walk_eq (R : Box) (n m : Nat) : walk R n m =
    ((List.range (n - 1)).map fun (i : Nat) => (R.l + (R.r - R.l) * ((i : ℚ) / ((n - 1 : Nat) : ℚ)), R.b)) ++
    ((List.range (m - 1)).map fun (i : Nat) => (R.r, R.b + (R.t - R.b) * ((i : ℚ) / ((m - 1 : Nat) : ℚ)))) ++
    ((List.range (n - 1)).map fun (i : Nat) => (R.r + (R.l - R.r) * ((i : ℚ) / ((n - 1 : Nat) : ℚ)), R.t)) ++
    ((List.range (m - 1)).map fun (i : Nat) => (R.l, R.t + (R.b - R.t) * ((i : ℚ) / ((m - 1 : Nat) : ℚ)))) := by
  simp only [walk, side, List.map_map, Function.comp_def]

theorem limits_append (q : Quad) (d : Nat) (ext : Rect) : limits (q ++ [d]) ext = sub (limits q ext) d := by
  simp [limits, List.foldl_append]

/-- Around each quadrant: the topologies along a walk around it -/
theorem quadTopo_walk (c : Cfg) (base : Quad) (mask i : Nat) (hm : mask = 0 ∨ mask = 8) (hi : i < 4) :
    (quadTopo (lines c base mask)).getD i [] =
      (walk (box (limits (base ++ [i ||| mask]) c.ext)) (c.nx / 2) (c.ny / 2)).map c.topo := by
  have key : ∀ j, lines c base mask j = ((segments (limits (base ++ [0 ||| mask]) c.ext).xl
      (limits (base ++ [0 ||| mask]) c.ext).xh (limits (base ++ [3 ||| mask]) c.ext).xh
      (limits (base ++ [0 ||| mask]) c.ext).yl (limits (base ++ [0 ||| mask]) c.ext).yh
      (limits (base ++ [3 ||| mask]) c.ext).yh (c.nx / 2) (c.ny / 2)).map (List.map c.topo)).getD j [] := by
    intro j
    unfold lines
    rw [cut_flatten]
  simp only [quadTopo, key, segments, List.map_cons, List.getD_cons_zero, List.getD_cons_succ, List.map_nil]
  simp only [limits_append]
  generalize limits base c.ext = R
  rw [walk_eq]
  have hi' : i = 0 ∨ i = 1 ∨ i = 2 ∨ i = 3 := by omega
  rcases hm with rfl | rfl <;> rcases hi' with rfl | rfl | rfl | rfl <;>
    simp [sub, midpt, unevenMask, box, snip_seg, snipRev_seg, List.map_append]

/-! ## rectangles -/

structure Ordered (r : Rect) : Prop where
  x : r.xl ≤ r.xh
  y : r.yl ≤ r.yh

theorem midpt_cases (d : Nat) : midpt d = 13 / 20 ∨ midpt d = 1 / 2 := by
  unfold midpt
  split
  · exact .inl rfl
  · exact .inr rfl

structure Shrinks (f : ℚ) (S R : Rect) : Prop where
  within : Within (box S) (box R)
  width : S.xh - S.xl ≤ f * (R.xh - R.xl)
  height : S.yh - S.yl ≤ f * (R.yh - R.yl)

theorem sub_ordered {R : Rect} (h : Ordered R) (d : Nat) : Ordered (sub R d) := by
  obtain ⟨hx, hy⟩ := h
  constructor <;> unfold sub <;> dsimp only <;> rcases midpt_cases d with e | e <;> rw [e] <;> split <;> linarith

theorem sub_shrinks {R : Rect} (h : Ordered R) (d : Nat) : Shrinks (13 / 20) (sub R d) R := by
  obtain ⟨hx, hy⟩ := h
  constructor
  · unfold sub box Within
    dsimp only
    rcases midpt_cases d with e | e <;> rw [e] <;> split <;> split <;> refine ⟨?_, ?_, ?_, ?_⟩ <;> linarith
  · unfold sub; dsimp only; rcases midpt_cases d with e | e <;> rw [e] <;> split <;> linarith
  · unfold sub; dsimp only; rcases midpt_cases d with e | e <;> rw [e] <;> split <;> linarith

theorem within_trans {A B C : Box} (h : Within A B) (g : Within B C) : Within A C := by
  unfold Within at *
  refine ⟨?_, ?_, ?_, ?_⟩ <;> linarith [h.1, h.2.1, h.2.2.1, h.2.2.2, g.1, g.2.1, g.2.2.1, g.2.2.2]

theorem apart_within {A B A' B' : Box} (h : Apart A B) (hA : Within A' A) (hB : Within B' B) : Apart A' B' := by
  obtain ⟨a1, a2, a3, a4⟩ := hA
  obtain ⟨b1, b2, b3, b4⟩ := hB
  rcases h with h | h | h | h
  · exact .inl (by linarith)
  · exact .inr (.inl (by linarith))
  · exact .inr (.inr (.inl (by linarith)))
  · exact .inr (.inr (.inr (by linarith)))

theorem limits_ordered {R : Rect} (h : Ordered R) (q : Quad) : Ordered (limits q R) := by
  induction q generalizing R with
  | nil => exact h
  | cons d q ih => exact ih (sub_ordered h d)

theorem limits_shrinks {R : Rect} (h : Ordered R) (q : Quad) : Shrinks ((13 / 20) ^ q.length) (limits q R) R := by
  induction q generalizing R with
  | nil =>
    refine ⟨⟨le_refl _, le_refl _, le_refl _, le_refl _⟩, ?_, ?_⟩ <;> simp [limits]
  | cons d q ih =>
    have h1 := ih (sub_ordered h d)
    have h2 := sub_shrinks h d
    have hp : (0 : ℚ) ≤ (13 / 20) ^ q.length := by positivity
    show Shrinks _ (limits q (sub R d)) R
    refine ⟨within_trans h1.within h2.within, ?_, ?_⟩
    · have := mul_le_mul_of_nonneg_left h2.width hp
      rw [List.length_cons, pow_succ]
      linarith [h1.width]
    · have := mul_le_mul_of_nonneg_left h2.height hp
      rw [List.length_cons, pow_succ]
      linarith [h1.height]

theorem apart_sub {R : Rect} (mask i j : Nat) (hm : mask = 0 ∨ mask = 8) (hi : i < 4) (hj : j < 4) (hij : i ≠ j) :
    Apart (box (sub R (i ||| mask))) (box (sub R (j ||| mask))) := by
  have hi' : i = 0 ∨ i = 1 ∨ i = 2 ∨ i = 3 := by omega
  have hj' : j = 0 ∨ j = 1 ∨ j = 2 ∨ j = 3 := by omega
  rcases hm with rfl | rfl <;> rcases hi' with rfl | rfl | rfl | rfl <;> rcases hj' with rfl | rfl | rfl | rfl <;>
    first
      | exact absurd rfl hij
      | (refine .inl ?_; simp [sub, box, midpt, unevenMask]; done)
      | (refine .inr (.inl ?_); simp [sub, box, midpt, unevenMask]; done)
      | (refine .inr (.inr (.inl ?_)); simp [sub, box, midpt, unevenMask]; done)
      | (refine .inr (.inr (.inr ?_)); simp [sub, box, midpt, unevenMask])

theorem limits_append_list (q s : Quad) (ext : Rect) : limits (q ++ s) ext = limits s (limits q ext) := by
  simp [limits, List.foldl_append]

/-! ## the search -/

/-- The walk around a quadrant passes the check. -/
def Cfg.Ok (c : Cfg) (R : Box) : Prop := c.check ((walk R (c.nx / 2) (c.ny / 2)).map c.topo) = true

/-- One quadrant: what the loop at separator.py:426-437 adds to the result. -/
def branch (c : Cfg) (fuel : Nat) (base : Quad) (mask i : Nat) : Option (List Quad) :=
  if c.check ((quadTopo (lines c base mask)).getD i []) then bisect c fuel (base ++ [i ||| mask]) 0 else some []

theorem bisect_succ (c : Cfg) (fuel : Nat) (base : Quad) (mask : Nat) (h : (base.length : Int) ≠ c.maxDepth) :
    bisect c (fuel + 1) base mask =
      match branch c fuel base mask 0, branch c fuel base mask 1, branch c fuel base mask 2, branch c fuel base mask 3 with
      | some r0, some r1, some r2, some r3 =>
        if (r0 ++ r1 ++ r2 ++ r3).length = 0 then
          if mask ≠ 0 then
            if (base.length : Int) > c.minDepth then some [base] else some []
          else if c.check (perimeter (lines c base mask)) then bisect c fuel base unevenMask
          else some []
        else some (r0 ++ r1 ++ r2 ++ r3)
      | _, _, _, _ => none := by
  rw [bisect, if_neg h]
  rfl

theorem bisect_end (c : Cfg) (fuel : Nat) (base : Quad) (mask : Nat) (h : (base.length : Int) = c.maxDepth) :
    bisect c (fuel + 1) base mask = some [base] := by
  rw [bisect, if_pos h]

theorem branch_ok {c : Cfg} {fuel : Nat} {base : Quad} {mask i : Nat} {r : List Quad} (hm : mask = 0 ∨ mask = 8) (hi : i < 4)
    (h : branch c fuel base mask i = some r) :
    r = [] ∨ (c.Ok (box (limits (base ++ [i ||| mask]) c.ext)) ∧ bisect c fuel (base ++ [i ||| mask]) 0 = some r) := by
  unfold branch at h
  rw [quadTopo_walk c base mask i hm hi] at h
  split at h
  · exact .inr ⟨by assumption, h⟩
  · exact .inl (by simpa using h.symm)

/-- What is known of a quadrant found below `base` -/
structure Found (c : Cfg) (base q : Quad) : Prop where
  below : ∃ s, q = base ++ s
  ok : q = base ∨ c.Ok (box (limits q c.ext))
  depth : (q.length : Int) = c.maxDepth ∨ c.minDepth < q.length

def ApartQ (c : Cfg) (q r : Quad) : Prop := Apart (box (limits q c.ext)) (box (limits r c.ext))

theorem below_within {c : Cfg} (he : Ordered c.ext) {base q : Quad} (h : ∃ s, q = base ++ s) :
    Within (box (limits q c.ext)) (box (limits base c.ext)) := by
  obtain ⟨s, rfl⟩ := h
  rw [limits_append_list]
  exact (limits_shrinks (limits_ordered he base) s).within

theorem bisect_sound (c : Cfg) (he : Ordered c.ext) : ∀ fuel base mask ret, (mask = 0 ∨ mask = 8) →
    bisect c fuel base mask = some ret → (∀ q ∈ ret, Found c base q) ∧ ret.Pairwise (ApartQ c) := by
  intro fuel
  induction fuel with
  | zero => intro base mask ret _ h; simp [bisect] at h
  | succ fuel ih =>
    intro base mask ret hm h
    by_cases hd : (base.length : Int) = c.maxDepth
    · rw [bisect_end c fuel base mask hd] at h
      obtain rfl : [base] = ret := by simpa using h
      refine ⟨fun q hq => ?_, by simp⟩
      obtain rfl : q = base := by simpa using hq
      exact ⟨⟨[], by simp⟩, .inl rfl, .inl hd⟩
    · rw [bisect_succ c fuel base mask hd] at h
      split at h
      · rename_i r0 r1 r2 r3 h0 h1 h2 h3
        split at h
        · split at h
          · split at h
            · rename_i hmin
              obtain rfl : [base] = ret := by simpa using h
              refine ⟨fun q hq => ?_, by simp⟩
              obtain rfl : q = base := by simpa using hq
              exact ⟨⟨[], by simp⟩, .inl rfl, .inr hmin⟩
            · obtain rfl : [] = ret := by simpa using h
              simp
          · split at h
            · exact ih base unevenMask ret (.inr rfl) h
            · obtain rfl : [] = ret := by simpa using h
              simp
        · obtain rfl : r0 ++ r1 ++ r2 ++ r3 = ret := by simpa using h
          have main : ∀ i r, i < 4 → branch c fuel base mask i = some r →
              (∀ q ∈ r, (∃ s, q = (base ++ [i ||| mask]) ++ s) ∧ Found c base q) ∧ r.Pairwise (ApartQ c) := by
            intro i r hi hr
            rcases branch_ok hm hi hr with rfl | ⟨hok, hb⟩
            · simp
            · obtain ⟨f, pw⟩ := ih _ 0 r (.inl rfl) hb
              refine ⟨fun q hq => ⟨(f q hq).below, ?_⟩, pw⟩
              obtain ⟨s, hs⟩ := (f q hq).below
              refine ⟨⟨(i ||| mask) :: s, by simp [hs]⟩, ?_, (f q hq).depth⟩
              rcases (f q hq).ok with rfl | h
              · exact .inr hok
              · exact .inr h
          have cross : ∀ i j ri rj, i < 4 → j < 4 → i ≠ j → branch c fuel base mask i = some ri →
              branch c fuel base mask j = some rj → ∀ a ∈ ri, ∀ b ∈ rj, ApartQ c a b := by
            intro i j ri rj hi hj hij hri hrj a ha b hb
            have wa := below_within he ((main i ri hi hri).1 a ha).1
            have wb := below_within he ((main j rj hj hrj).1 b hb).1
            rw [limits_append] at wa wb
            exact apart_within (apart_sub mask i j hm hi hj hij) wa wb
          refine ⟨fun q hq => ?_, ?_⟩
          · simp only [List.mem_append] at hq
            rcases hq with ((hq | hq) | hq) | hq
            · exact ((main 0 r0 (by omega) h0).1 q hq).2
            · exact ((main 1 r1 (by omega) h1).1 q hq).2
            · exact ((main 2 r2 (by omega) h2).1 q hq).2
            · exact ((main 3 r3 (by omega) h3).1 q hq).2
          · rw [List.pairwise_append, List.pairwise_append, List.pairwise_append]
            refine ⟨⟨⟨(main 0 r0 (by omega) h0).2, (main 1 r1 (by omega) h1).2, ?_⟩, (main 2 r2 (by omega) h2).2, ?_⟩,
              (main 3 r3 (by omega) h3).2, ?_⟩
            · exact cross 0 1 r0 r1 (by omega) (by omega) (by omega) h0 h1
            · intro a ha b hb
              rcases List.mem_append.mp ha with ha | ha
              · exact cross 0 2 r0 r2 (by omega) (by omega) (by omega) h0 h2 a ha b hb
              · exact cross 1 2 r1 r2 (by omega) (by omega) (by omega) h1 h2 a ha b hb
            · intro a ha b hb
              simp only [List.mem_append] at ha
              rcases ha with (ha | ha) | ha
              · exact cross 0 3 r0 r3 (by omega) (by omega) (by omega) h0 h3 a ha b hb
              · exact cross 1 3 r1 r3 (by omega) (by omega) (by omega) h1 h3 a ha b hb
              · exact cross 2 3 r2 r3 (by omega) (by omega) (by omega) h2 h3 a ha b hb
      · cases h

/-! ## nothing is missed -/

/-- A box as a rectangle -/
def rect (R : Box) : Rect := ⟨R.l, R.r, R.b, R.t⟩

theorem parts_sub (mask : Nat) (hm : mask = 0 ∨ mask = 8) (R : Rect) {S : Box}
    (h : S ∈ parts (midpt mask) (box R)) : ∃ i, i < 4 ∧ S = box (sub R (i ||| mask)) := by
  simp only [parts, List.mem_cons, List.not_mem_nil, or_false] at h
  rcases hm with rfl | rfl <;> rcases h with rfl | rfl | rfl | rfl
  · exact ⟨0, by omega, by simp [sub, box, midpt, unevenMask]⟩
  · exact ⟨1, by omega, by simp [sub, box, midpt, unevenMask]⟩
  · exact ⟨2, by omega, by simp [sub, box, midpt, unevenMask]⟩
  · exact ⟨3, by omega, by simp [sub, box, midpt, unevenMask]⟩
  · exact ⟨0, by omega, by simp [sub, box, midpt, unevenMask]⟩
  · exact ⟨1, by omega, by simp [sub, box, midpt, unevenMask]⟩
  · exact ⟨2, by omega, by simp [sub, box, midpt, unevenMask]⟩
  · exact ⟨3, by omega, by simp [sub, box, midpt, unevenMask]⟩

theorem branch_mem {c : Cfg} {fuel : Nat} {base : Quad} {mask : Nat} {ret : List Quad} (hm : mask = 0 ∨ mask = 8)
    (hd : (base.length : Int) ≠ c.maxDepth) (h : bisect c (fuel + 1) base mask = some ret) (i : Nat) (hi : i < 4)
    (hok : c.Ok (box (limits (base ++ [i ||| mask]) c.ext))) (hne : ∀ r, bisect c fuel (base ++ [i ||| mask]) 0 = some r → r ≠ []) :
    ∃ r, bisect c fuel (base ++ [i ||| mask]) 0 = some r ∧ ∀ q ∈ r, q ∈ ret := by
  have hb : branch c fuel base mask i = bisect c fuel (base ++ [i ||| mask]) 0 := by
    unfold branch
    rw [quadTopo_walk c base mask i hm hi]
    exact if_pos hok
  rw [bisect_succ c fuel base mask hd] at h
  split at h
  · rename_i r0 r1 r2 r3 h0 h1 h2 h3
    have hi' : i = 0 ∨ i = 1 ∨ i = 2 ∨ i = 3 := by omega
    have : ∃ r, branch c fuel base mask i = some r ∧ ∀ q ∈ r, q ∈ r0 ++ r1 ++ r2 ++ r3 := by
      rcases hi' with rfl | rfl | rfl | rfl
      · exact ⟨r0, h0, fun q hq => by simp [hq]⟩
      · exact ⟨r1, h1, fun q hq => by simp [hq]⟩
      · exact ⟨r2, h2, fun q hq => by simp [hq]⟩
      · exact ⟨r3, h3, fun q hq => by simp [hq]⟩
    obtain ⟨r, hr, hq⟩ := this
    have hr' := hr
    rw [hb] at hr'
    refine ⟨r, hr', ?_⟩
    split at h
    · rename_i hz
      exfalso
      obtain ⟨a, ha⟩ := List.exists_mem_of_ne_nil r (hne r hr')
      have := hq a ha
      rw [List.eq_nil_of_length_eq_zero hz] at this
      cases this
    · obtain rfl : r0 ++ r1 ++ r2 ++ r3 = ret := by simpa using h
      exact hq
  · cases h

theorem bisect_chain (c : Cfg) : ∀ d fuel base ret T, ((base.length + d : Nat) : Int) = c.maxDepth →
    bisect c fuel base 0 = some ret → Chain c.Ok (box (limits base c.ext)) d T →
    ∃ q ∈ ret, box (limits q c.ext) = T ∧ ∃ s, q = base ++ s ∧ s.length = d ∧ ∀ x ∈ s, x < 4 := by
  intro d
  induction d with
  | zero =>
    intro fuel base ret T hd h hc
    cases fuel with
    | zero => simp [bisect] at h
    | succ fuel =>
      rw [bisect_end c fuel base 0 hd] at h
      obtain rfl : [base] = ret := by simpa using h
      cases hc
      exact ⟨base, by simp, rfl, [], by simp, rfl, by simp⟩
  | succ d ih =>
    intro fuel base ret T hd h hc
    cases fuel with
    | zero => simp [bisect] at h
    | succ fuel =>
      cases hc with
      | succ _ S _ _ hS hok hT =>
      obtain ⟨i, hi, rfl⟩ := parts_sub 0 (.inl rfl) (limits base c.ext) hS
      rw [← limits_append] at hok hT
      have hrec : ∀ r, bisect c fuel (base ++ [i ||| 0]) 0 = some r →
          ∃ q ∈ r, box (limits q c.ext) = T ∧ ∃ s, q = (base ++ [i ||| 0]) ++ s ∧ s.length = d ∧ ∀ x ∈ s, x < 4 :=
        fun r hr => ih fuel _ r T (by rw [← hd]; simp; omega) hr hT
      obtain ⟨r, hr, hsub⟩ := branch_mem (.inl rfl) (by rw [← hd]; push_cast; omega) h i hi hok (by
        rintro r hr rfl
        obtain ⟨q, hq, _⟩ := hrec [] hr
        cases hq)
      obtain ⟨q, hq, hlim, s, hs, hl, hall⟩ := hrec r hr
      refine ⟨q, hsub q hq, hlim, (i ||| 0) :: s, by simp [hs], by simp [hl], ?_⟩
      intro x hx
      rcases List.mem_cons.mp hx with rfl | hx
      · simpa using hi
      · exact hall x hx

/-! ## the search ends -/

theorem bisect_ends (c : Cfg) : ∀ d fuel base, ((base.length + d : Nat) : Int) = c.maxDepth →
    (2 * d + 1 ≤ fuel → ∃ r, bisect c fuel base 8 = some r) ∧ (2 * d + 2 ≤ fuel → ∃ r, bisect c fuel base 0 = some r) := by
  intro d
  induction d with
  | zero =>
    intro fuel base hd
    constructor <;> intro hf <;> obtain ⟨k, rfl⟩ := Nat.exists_eq_add_of_le' (show 1 ≤ fuel by omega) <;>
      exact ⟨_, bisect_end c k base _ hd⟩
  | succ d ih =>
    intro fuel base hd
    have br : ∀ k mask i, 2 * d + 2 ≤ k → ∃ r, branch c k base mask i = some r := by
      intro k mask i hk
      unfold branch
      split
      · exact (ih k (base ++ [i ||| mask]) (by rw [← hd]; simp; omega)).2 hk
      · exact ⟨_, rfl⟩
    have hne : (base.length : Int) ≠ c.maxDepth := by rw [← hd]; push_cast; omega
    have h8 : ∀ fuel, 2 * (d + 1) + 1 ≤ fuel → ∃ r, bisect c fuel base 8 = some r := by
      intro fuel hf
      obtain ⟨k, rfl⟩ := Nat.exists_eq_add_of_le' (show 1 ≤ fuel by omega)
      obtain ⟨r0, h0⟩ := br k 8 0 (by omega)
      obtain ⟨r1, h1⟩ := br k 8 1 (by omega)
      obtain ⟨r2, h2⟩ := br k 8 2 (by omega)
      obtain ⟨r3, h3⟩ := br k 8 3 (by omega)
      rw [bisect_succ c k base 8 hne, h0, h1, h2, h3]
      dsimp only
      split
      · rw [if_pos (by omega)]
        split <;> exact ⟨_, rfl⟩
      · exact ⟨_, rfl⟩
    refine ⟨h8 fuel, fun hf => ?_⟩
    obtain ⟨k, rfl⟩ := Nat.exists_eq_add_of_le' (show 1 ≤ fuel by omega)
    obtain ⟨r0, h0⟩ := br k 0 0 (by omega)
    obtain ⟨r1, h1⟩ := br k 0 1 (by omega)
    obtain ⟨r2, h2⟩ := br k 0 2 (by omega)
    obtain ⟨r3, h3⟩ := br k 0 3 (by omega)
    rw [bisect_succ c k base 0 hne, h0, h1, h2, h3]
    dsimp only
    split
    · rw [if_neg (by simp)]
      split
      · exact h8 k (by omega)
      · exact ⟨_, rfl⟩
    · exact ⟨_, rfl⟩

theorem mapM_forall₂ {α β ε : Type} (f : α → Except ε β) : ∀ l r, l.mapM f = .ok r → List.Forall₂ (fun a b => f a = .ok b) l r := by
  intro l
  induction l with
  | nil => intro r h; obtain rfl : [] = r := by simpa [pure, Except.pure] using h
           exact .nil
  | cons a l ih =>
    intro r h
    rw [List.mapM_cons] at h
    cases ha : f a with
    | error e => simp [ha, bind, Except.bind] at h
    | ok b =>
      cases hl : l.mapM f with
      | error e => simp [ha, hl, bind, Except.bind] at h
      | ok r' =>
        obtain rfl : b :: r' = r := by simpa [ha, hl, bind, Except.bind, pure, Except.pure] using h
        exact .cons ha (ih r' hl)

theorem mapM_ok {α β ε : Type} (f : α → Except ε β) : ∀ l : List α, (∀ a ∈ l, ∃ b, f a = .ok b) → ∃ r, l.mapM f = .ok r := by
  intro l
  induction l with
  | nil => intro _; exact ⟨[], rfl⟩
  | cons a l ih =>
    intro h
    obtain ⟨b, hb⟩ := h a (by simp)
    obtain ⟨r, hr⟩ := ih fun x hx => h x (by simp [hx])
    exact ⟨b :: r, by simp [List.mapM_cons, hb, hr, bind, Except.bind, pure, Except.pure]⟩

theorem outer_ok {c : Cfg} {fuel : Nat} {u : Bool} {pts : List (ℚ × ℚ)} (h : outer c fuel u = .ok (.points pts)) :
    c.maxDepth ≠ 0 ∧ ∃ ret, bisect c fuel [] (if u then unevenMask else 0) = some ret ∧
      List.Forall₂ (fun q p => center q c.ext = .ok p) ret pts := by
  unfold outer at h
  split at h
  · simp at h
  · rename_i hd
    refine ⟨hd, ?_⟩
    split at h
    · simp at h
    · rename_i ret hret
      refine ⟨ret, hret, ?_⟩
      cases hm : ret.mapM fun q => center q c.ext with
      | error e => simp [hm, bind, Except.bind] at h
      | ok r =>
        obtain rfl : r = pts := by simpa [hm, bind, Except.bind] using h
        exact mapM_forall₂ _ _ _ hm

theorem getSep_ok {c : Cfg} {fuel : Nat} {o : Out} (h : getSepPtsBisect c fuel = .ok o) :
    ∃ e u, outer { c with minDepth := 0, maxDepth := 2 } fuel false = .ok (.points e) ∧
      outer { c with minDepth := 0, maxDepth := 2 } fuel true = .ok (.points u) ∧
      outer c fuel (decide (e.length < u.length)) = .ok o := by
  unfold getSepPtsBisect at h
  cases he : outer { c with minDepth := 0, maxDepth := 2 } fuel false with
  | error e => simp [he, bind, Except.bind] at h
  | ok e =>
    cases hu : outer { c with minDepth := 0, maxDepth := 2 } fuel true with
    | error e => simp [he, hu, bind, Except.bind] at h
    | ok u =>
      cases e with
      | strings e => simp [he, hu, bind, Except.bind, Out.count] at h
      | points e =>
        cases u with
        | strings u => simp [he, hu, bind, Except.bind, Out.count] at h
        | points u =>
          refine ⟨e, u, rfl, rfl, ?_⟩
          simp only [he, hu, bind, Except.bind, Out.count] at h
          rw [← h]
          by_cases g : e.length < u.length <;> simp [g]

theorem mask_cases (u : Bool) : (if u then unevenMask else 0) = 0 ∨ (if u then unevenMask else 0) = 8 := by
  cases u
  · exact .inl rfl
  · exact .inr rfl

theorem center_inside {q : Quad} {ext : Rect} (h : Ordered ext) {p : ℚ × ℚ} (hp : center q ext = .ok p) :
    Inside p (box (limits q ext)) := by
  unfold center at hp
  split at hp
  · cases hp
  · rename_i d _
    obtain ⟨hx, hy⟩ := limits_ordered h q
    obtain rfl := Except.ok.inj hp
    unfold Inside box
    dsimp only
    rcases midpt_cases d with e | e <;> rw [e] <;> refine ⟨?_, ?_, ?_, ?_⟩ <;> linarith

theorem center_middle {q s : Quad} {d : Nat} {ext : Rect} (hq : q = s ++ [d]) (hd : d < 4) :
    center q ext = .ok (middle (box (limits q ext))) := by
  have hm : midpt d = 1 / 2 := by
    have : d = 0 ∨ d = 1 ∨ d = 2 ∨ d = 3 := by omega
    rcases this with rfl | rfl | rfl | rfl <;> simp [midpt, unevenMask]
  unfold center
  rw [hq, List.getLast?_concat]
  simp only [hm, middle, box]
  congr 2
  · ring
  · ring

theorem outer_ends (c : Cfg) (d fuel : Nat) (u : Bool) (hd : c.maxDepth = d) (hpos : 0 < d) (hmin : 0 ≤ c.minDepth)
    (he : Ordered c.ext) (hf : 2 * d + 2 ≤ fuel) : ∃ pts, outer c fuel u = .ok (.points pts) := by
  have : ∃ ret, bisect c fuel [] (if u then unevenMask else 0) = some ret := by
    cases u
    · exact (bisect_ends c d fuel [] (by simp [hd])).2 hf
    · exact (bisect_ends c d fuel [] (by simp [hd])).1 (by omega)
  obtain ⟨ret, hret⟩ := this
  have hs := (bisect_sound c he fuel [] _ ret (mask_cases u) hret).1
  obtain ⟨pts, hp⟩ := mapM_ok (fun q => center q c.ext) ret (by
    intro q hq
    have hne : q ≠ [] := by
      rintro rfl
      rcases (hs [] hq).depth with h | h
      · rw [hd] at h; simp at h; omega
      · simp at h; omega
    unfold center
    rw [List.getLast?_eq_some_getLast hne]
    exact ⟨_, rfl⟩)
  refine ⟨pts, ?_⟩
  unfold outer
  rw [if_neg (by rw [hd]; omega), hret]
  simp [hp, bind, Except.bind]

/-! ## windows -/

theorem merge_union (a : Grid) (k : Nat) (i j : Nat) (f : Nat → Nat → Nat)
    (h : ∀ i j, Union f k i j (a.get i j)) : Union f (k + 1) i j ((merge a).get i j) := by
  intro b
  unfold merge
  simp only [Nat.testBit_or, Bool.or_eq_true, (h i j b), (h i (j + 1) b), (h (i + 1) j b), (h (i + 1) (j + 1) b)]
  constructor
  · rintro (((⟨di, h1, dj, h2, h3⟩ | ⟨di, h1, dj, h2, h3⟩) | ⟨di, h1, dj, h2, h3⟩) | ⟨di, h1, dj, h2, h3⟩)
    · exact ⟨di, by omega, dj, by omega, h3⟩
    · exact ⟨di, by omega, dj + 1, by omega, by rwa [show j + (dj + 1) = j + 1 + dj by omega]⟩
    · exact ⟨di + 1, by omega, dj, by omega, by rwa [show i + (di + 1) = i + 1 + di by omega]⟩
    · exact ⟨di + 1, by omega, dj + 1, by omega, by
        rwa [show i + (di + 1) = i + 1 + di by omega, show j + (dj + 1) = j + 1 + dj by omega]⟩
  · rintro ⟨di, h1, dj, h2, h3⟩
    by_cases e1 : di ≤ k <;> by_cases e2 : dj ≤ k
    · exact .inl (.inl (.inl ⟨di, e1, dj, e2, h3⟩))
    · obtain rfl : dj = k + 1 := by omega
      exact .inl (.inl (.inr ⟨di, e1, k, le_refl _, by rwa [show j + 1 + k = j + (k + 1) by omega]⟩))
    · obtain rfl : di = k + 1 := by omega
      exact .inl (.inr ⟨k, le_refl _, dj, e2, by rwa [show i + 1 + k = i + (k + 1) by omega]⟩)
    · obtain rfl : dj = k + 1 := by omega
      obtain rfl : di = k + 1 := by omega
      exact .inr ⟨k, le_refl _, k, le_refl _, by
        rwa [show i + 1 + k = i + (k + 1) by omega, show j + 1 + k = j + (k + 1) by omega]⟩

theorem union_unique {f : Nat → Nat → Nat} {k i j v w : Nat} (h : Union f k i j v) (g : Union f k i j w) : v = w := by
  refine Nat.eq_of_testBit_eq fun b => ?_
  rw [Bool.eq_iff_iff, h b, g b]

theorem union_zero (f : Nat → Nat → Nat) (i j : Nat) : Union f 0 i j (f i j) := by
  intro b
  constructor
  · intro h
    exact ⟨0, le_refl _, 0, le_refl _, h⟩
  · rintro ⟨di, h1, dj, h2, h3⟩
    obtain rfl : di = 0 := by omega
    obtain rfl : dj = 0 := by omega
    exact h3

theorem mem_whereEq (a : Grid) (v i j : Nat) : (i, j) ∈ whereEq a v ↔ i < a.n ∧ j < a.m ∧ a.get i j = v := by
  unfold whereEq
  simp only [List.mem_flatMap, List.mem_map, List.mem_filter, List.mem_range, Prod.mk.injEq, decide_eq_true_eq]
  constructor
  · rintro ⟨i', hi, j', ⟨hj, hv⟩, rfl, rfl⟩
    exact ⟨hi, hj, hv⟩
  · rintro ⟨hi, hj, hv⟩
    exact ⟨i, hi, j, ⟨hj, hv⟩, rfl, rfl⟩

theorem whereEq_nodup (a : Grid) (v : Nat) : (whereEq a v).Nodup := by
  unfold whereEq
  rw [List.nodup_flatMap]
  refine ⟨fun i _ => ?_, ?_⟩
  · exact (List.nodup_range.filter _).map (fun a b h => by simpa using h)
  · refine List.nodup_range.imp ?_
    intro i i' hne p hp hp'
    simp only [List.mem_map] at hp hp'
    obtain ⟨_, _, rfl⟩ := hp
    obtain ⟨_, _, h⟩ := hp'
    simp only [Prod.mk.injEq] at h
    exact hne h.1.symm

theorem mids_length (x : List ℚ) : (mids x).length = x.length - 1 := by simp [mids]

theorem mids_get (x : List ℚ) (i : Nat) (h : i + 1 < x.length) : (mids x).getD i 0 = (x.getD i 0 + x.getD (i + 1) 0) / 2 := by
  have h1 : i < (mids x).length := by rw [mids_length]; omega
  have h2 : i < x.length := by omega
  rw [List.getD_eq_getElem _ _ h1, List.getD_eq_getElem _ _ h, List.getD_eq_getElem _ _ h2]
  simp only [mids, List.getElem_zipWith, List.getElem_drop, List.getElem_dropLast, Nat.add_comm 1 i]
  ring

/-- The state of the loop after `k` turns on a grid that is not periodic -/
structure After (f : Nat → Nat → Nat) (n m : Nat) (x y : List ℚ) (k : Nat) (s : Grid × List ℚ × List ℚ) : Prop where
  rows : s.1.n = n - k
  cols : s.1.m = m - k
  union : ∀ i j, Union f k i j (s.1.get i j)
  xs : s.2.1 = mids^[k] x
  ys : s.2.2 = mids^[k] y

theorem after_sweep {f : Nat → Nat → Nat} {n m : Nat} {x y : List ℚ} {k : Nat} {s : Grid × List ℚ × List ℚ}
    (h : After f n m x y k s) : ∃ s', sweep (.off, .off) s = .ok s' ∧ After f n m x y (k + 1) s' := by
  refine ⟨(merge s.1, mids s.2.1, mids s.2.2), by simp [sweep, bind, Except.bind], ?_, ?_, ?_, ?_, ?_⟩
  · show s.1.n - 1 = _
    rw [h.rows]; omega
  · show s.1.m - 1 = _
    rw [h.cols]; omega
  · intro i j
    exact merge_union s.1 k i j f h.union
  · rw [Function.iterate_succ_apply', ← h.xs]
  · rw [Function.iterate_succ_apply', ← h.ys]

theorem loop_off (f : Nat → Nat → Nat) (n m : Nat) (x y : List ℚ) (minDepth sepVal : Nat) : ∀ left i s,
    After f n m x y i s → 0 < left → ∃ k s', i < k ∧ k ≤ i + left ∧ After f n m x y k s' ∧
      (k = i + left ∨ (minDepth ≤ k ∧ whereEq s'.1 sepVal ≠ [])) ∧
      (∀ k', i < k' → k' < k → minDepth ≤ k' → ∀ a b, a + k' < n → b + k' < m → ¬ Union f k' a b sepVal) ∧
      loop minDepth sepVal (.off, .off) false left i s = .ok (whereEq s'.1 sepVal, s') := by
  intro left
  induction left with
  | zero => intro i s _ h; omega
  | succ left ih =>
    intro i s hs _
    obtain ⟨s', h1, h2⟩ := after_sweep hs
    by_cases hb : i + 1 ≥ minDepth ∧ whereEq s'.1 sepVal ≠ []
    · refine ⟨i + 1, s', by omega, by omega, h2, .inr hb, by intro k' h3 h4; omega, ?_⟩
      rw [loop, h1]
      simp only [bind, Except.bind]
      rw [if_neg (by simp), if_pos hb]
    · have hn : ∀ a b, a + (i + 1) < n → b + (i + 1) < m → minDepth ≤ i + 1 → ¬ Union f (i + 1) a b sepVal := by
        intro a b ha hbm hmin hu
        refine hb ⟨hmin, ?_⟩
        refine List.ne_nil_of_mem ((mem_whereEq s'.1 sepVal a b).mpr ⟨?_, ?_, union_unique (h2.union a b) hu⟩)
        · rw [h2.rows]; omega
        · rw [h2.cols]; omega
      by_cases hl : left = 0
      · subst hl
        refine ⟨i + 1, s', by omega, by omega, h2, .inl rfl, by intro k' h3 h4; omega, ?_⟩
        rw [loop, h1]
        simp only [bind, Except.bind]
        rw [if_neg (by simp), if_neg hb, loop]
      · obtain ⟨k, s'', g1, g2, g3, g4, g5, g6⟩ := ih (i + 1) s' h2 (by omega)
        refine ⟨k, s'', by omega, by omega, g3, ?_, ?_, ?_⟩
        · rcases g4 with g4 | g4
          · exact .inl (by omega)
          · exact .inr g4
        · intro k' a1 a2 a3 a b ha hbm
          by_cases e : k' = i + 1
          · subst e
            exact hn a b ha hbm a3
          · exact g5 k' (by omega) a2 a3 a b ha hbm
        · rw [loop, h1]
          simp only [bind, Except.bind]
          rw [if_neg (by simp), if_neg hb, g6]

theorem mids_iter_length (k : Nat) (x : List ℚ) : (mids^[k] x).length = x.length - k := by
  induction k with
  | zero => rfl
  | succ k ih => rw [Function.iterate_succ_apply', mids_length, ih]; omega

theorem mids_iter_uniform (k : Nat) (x : List ℚ) (x0 h : ℚ) (hx : ∀ i, i < x.length → x.getD i 0 = x0 + i * h) :
    ∀ i, i + k < x.length → (mids^[k] x).getD i 0 = (x.getD i 0 + x.getD (i + k) 0) / 2 := by
  have key : ∀ i, i + k < x.length → (mids^[k] x).getD i 0 = x0 + ((i : ℚ) + k / 2) * h := by
    induction k with
    | zero => intro i hi; simpa using hx i hi
    | succ k ih =>
      intro i hi
      rw [Function.iterate_succ_apply', mids_get _ _ (by rw [mids_iter_length]; omega), ih i (by omega), ih (i + 1) (by omega)]
      push_cast
      ring
  intro i hi
  rw [key i hi, hx i (by omega), hx (i + k) hi]
  push_cast
  ring

theorem mids_iter_between (k : Nat) (x : List ℚ) (hx : ∀ i j, i ≤ j → j < x.length → x.getD i 0 ≤ x.getD j 0) :
    ∀ i, i + k < x.length → x.getD i 0 ≤ (mids^[k] x).getD i 0 ∧ (mids^[k] x).getD i 0 ≤ x.getD (i + k) 0 := by
  induction k with
  | zero => intro i hi; exact ⟨le_refl _, le_refl _⟩
  | succ k ih =>
    intro i hi
    rw [Function.iterate_succ_apply', mids_get _ _ (by rw [mids_iter_length]; omega)]
    have h1 := ih i (by omega)
    have h2 := ih (i + 1) (by omega)
    have h3 := hx i (i + 1) (by omega) (by omega)
    have h4 := hx (i + k) (i + (k + 1)) (by omega) (by omega)
    rw [show i + 1 + k = i + (k + 1) by omega] at h2
    constructor <;> linarith [h1.1, h1.2, h2.1, h2.2]

/-! ## separators on spheres -/

theorem loop_ptBnds (minDepth sepVal : Nat) (per : Cluster.Per × Cluster.Per) (left i : Nat) (s : Grid × List ℚ × List ℚ)
    (hn : s.1.n ≠ 0) (hm : s.1.m ≠ 0) : loop minDepth sepVal per true (left + 1) i s = .error .typeError := by
  have : ∃ s', sweep per s = .ok s' := by
    unfold sweep wrapRows wrapCols
    by_cases h1 : per.1 ≠ .off <;> by_cases h2 : per.2 ≠ .off <;>
      simp [h1, h2, hn, hm, bind, Except.bind]
  obtain ⟨s', hs⟩ := this
  rw [loop, hs]
  rfl

/-- The loop goes through on arrays that are large enough, and what it finds is in range. -/
theorem loop_sized (minDepth sepVal : Nat) (per : Cluster.Per × Cluster.Per) : ∀ left i s,
    left < s.1.n → left < s.1.m → s.2.1.length = s.1.n → s.2.2.length = s.1.m →
    ∃ s', loop minDepth sepVal per false left i s = .ok (whereEq s'.1 sepVal, s') ∧ 0 < s'.1.n ∧ 0 < s'.1.m ∧
      s'.2.1.length = s'.1.n ∧ s'.2.2.length = s'.1.m := by
  intro left
  induction left with
  | zero => intro i s h1 h2 h3 h4; exact ⟨s, rfl, h1, h2, h3, h4⟩
  | succ left ih =>
    intro i s h1 h2 h3 h4
    have : ∃ s', sweep per s = .ok s' ∧ s'.1.n = s.1.n - 1 ∧ s'.1.m = s.1.m - 1 ∧ s'.2 = (mids s.2.1, mids s.2.2) := by
      unfold sweep wrapRows wrapCols
      have hn : s.1.n ≠ 0 := by omega
      have hm : s.1.m ≠ 0 := by omega
      by_cases h1 : per.1 ≠ .off <;> by_cases h2 : per.2 ≠ .off <;>
        simp [h1, h2, hn, hm, bind, Except.bind, merge]
    obtain ⟨s', hs, e1, e2, e3⟩ := this
    have l1 : s'.2.1.length = s'.1.n := by rw [e3, e1]; simp [mids_length, h3]
    have l2 : s'.2.2.length = s'.1.m := by rw [e3, e2]; simp [mids_length, h4]
    rw [loop, hs]
    simp only [bind, Except.bind]
    rw [if_neg (by simp)]
    split
    · exact ⟨s', rfl, by omega, by omega, l1, l2⟩
    · exact ih (i + 1) s' (by omega) (by omega) l1 l2

/-! ## separator lines -/

def Tracer.next (t : Tracer) (a b : Pt) : Option Pt := (t.ahead a b).head?

theorem follows_append (next : P → P → Option P) (u v c : P) : ∀ l0, Follows next (l0 ++ [u, v]) → next u v = some c →
    Follows next (l0 ++ [u, v, c]) := by
  intro l0
  induction l0 with
  | nil => intro _ h; exact ⟨h, trivial⟩
  | cons a l ih =>
    intro h hc
    match l, ih, h with
    | [], _, h => exact ⟨h.1, hc, trivial⟩
    | [b], ih, h => exact ⟨h.1, ih h.2 hc⟩
    | b :: d :: l, ih, h => exact ⟨h.1, ih h.2 hc⟩

/-- The end of a line (given in reverse): nothing ahead, or the next point is close to another null. -/
def EndOk (t : Tracer) (nulls : List Pt) : List Pt → Prop
  | v :: u :: _ => t.ahead u v = [] ∨ ∃ p, t.next u v = some p ∧ ∃ n ∈ nulls, t.close n p = true
  | _ => False

/-- A stub (in reverse) that branches off a line (in reverse) -/
def BranchOf (t : Tracer) (line stub : List Pt) : Prop :=
  ∃ u v q, stub = [q, v] ∧ [v, u] <:+: line ∧ q ∈ (t.ahead u v).tail

theorem follow_ok (t : Tracer) (nulls : List Pt) : ∀ fuel sep stubs sep' stubs', Follows t.next sep.reverse →
    follow t nulls fuel sep stubs = some (.ok (sep', stubs')) →
    sep <:+ sep' ∧ Follows t.next sep'.reverse ∧ EndOk t nulls sep' ∧
      ∃ news, stubs' = news ++ stubs ∧ ∀ s ∈ news, BranchOf t sep' s := by
  intro fuel
  induction fuel with
  | zero => intro sep stubs sep' stubs' _ h; simp [follow] at h
  | succ fuel ih =>
    intro sep stubs sep' stubs' hf h
    match sep, hf, h with
    | [], _, h => simp [follow] at h
    | [_], _, h => simp [follow] at h
    | last :: prev :: rest, hf, h =>
      rw [follow] at h
      split at h
      · rename_i ha
        obtain ⟨rfl, rfl⟩ : last :: prev :: rest = sep' ∧ stubs = stubs' := by simpa using h
        exact ⟨List.suffix_refl _, hf, .inl ha, [], by simp, by simp⟩
      · rename_i p ps ha
        split at h
        · cases h
        · split at h
          · rename_i hn hc
            obtain ⟨rfl, rfl⟩ : last :: prev :: rest = sep' ∧ stubs = stubs' := by simpa using h
            refine ⟨List.suffix_refl _, hf, .inr ⟨p, by simp [Tracer.next, ha], ?_⟩, [], by simp, by simp⟩
            simpa using hc
          · have hf' : Follows t.next (p :: last :: prev :: rest).reverse := by
              have := follows_append t.next prev last p rest.reverse (by simpa using hf) (by simp [Tracer.next, ha])
              simpa using this
            obtain ⟨h1, h2, h3, news, h4, h5⟩ := ih _ _ _ _ hf' h
            refine ⟨(List.suffix_cons p _).trans h1, h2, h3, news ++ (ps.map fun q => [q, last]).reverse, by simp [h4], ?_⟩
            intro s hs
            rcases List.mem_append.mp hs with hs | hs
            · exact h5 s hs
            · simp only [List.mem_reverse, List.mem_map] at hs
              obtain ⟨q, hq, rfl⟩ := hs
              refine ⟨prev, last, q, rfl, ?_, by simp [ha, hq]⟩
              refine List.IsInfix.trans ?_ h1.isInfix
              exact ⟨[p], rest, by simp⟩

/-- Where a stub comes from -/
def Origin (t : Tracer) (p0 : Pt) (lines : List (List Pt)) (stub : List Pt) : Prop :=
  (∃ q ∈ t.around p0, stub = [q, p0]) ∨ ∃ l ∈ lines, BranchOf t l stub

theorem Origin.mono {t : Tracer} {p0 : Pt} {L M : List (List Pt)} {s : List Pt} (h : Origin t p0 L s) (hs : ∀ l ∈ L, l ∈ M) :
    Origin t p0 M s := by
  rcases h with h | ⟨l, hl, h⟩
  · exact .inl h
  · exact .inr ⟨l, hs l hl, h⟩

/-- What is known of a finished line (in reverse) -/
def LineOk (t : Tracer) (nulls : List Pt) (p0 : Pt) (lines : List (List Pt)) (l : List Pt) : Prop :=
  Follows t.next l.reverse ∧ EndOk t nulls l ∧ ∃ s, s <:+ l ∧ Origin t p0 lines s

theorem drain_ok (t : Tracer) (nulls : List Pt) (p0 : Pt) : ∀ fuel stubs done seps,
    (∀ s ∈ stubs, Origin t p0 done s) → (∀ l ∈ done, LineOk t nulls p0 done l) →
    drain t nulls fuel stubs done = some (.ok seps) → ∀ l ∈ seps, LineOk t nulls p0 seps l := by
  intro fuel
  induction fuel with
  | zero =>
    intro stubs done seps hs hd h
    cases stubs with
    | nil => obtain rfl : done = seps := by simpa [drain] using h
             exact hd
    | cons _ _ => simp [drain] at h
  | succ fuel ih =>
    intro stubs done seps hs hd h
    cases stubs with
    | nil => obtain rfl : done = seps := by simpa [drain] using h
             exact hd
    | cons stub stubs =>
      rw [drain] at h
      split at h
      · cases h
      · cases h
      · rename_i sep stubs' hf
        have hstub := hs stub (by simp)
        have hfol : Follows t.next stub.reverse := by
          rcases hstub with ⟨q, _, rfl⟩ | ⟨_, _, u, v, q, rfl, _⟩ <;> exact trivial
        obtain ⟨h1, h2, h3, news, rfl, h5⟩ := follow_ok t nulls _ _ _ _ _ hfol hf
        have mono : ∀ l ∈ done, l ∈ done ++ [sep] := fun l hl => by simp [hl]
        refine ih _ (done ++ [sep]) seps ?_ ?_ h
        · intro s hs'
          rcases List.mem_append.mp hs' with hs' | hs'
          · exact .inr ⟨sep, by simp, h5 s hs'⟩
          · exact (hs s (by simp [hs'])).mono mono
        · intro l hl
          rcases List.mem_append.mp hl with hl | hl
          · obtain ⟨a, b, s, hs1, hs2⟩ := hd l hl
            exact ⟨a, b, s, hs1, hs2.mono mono⟩
          · obtain rfl : l = sep := by simpa using hl
            exact ⟨h2, h3, stub, h1, hstub.mono mono⟩

theorem argmin_lt : ∀ l : List ℚ, l ≠ [] → argmin l < l.length := by
  intro l
  induction l with
  | nil => intro h; exact absurd rfl h
  | cons a l ih =>
    intro _
    cases l with
    | nil => simp [argmin]
    | cons b l =>
      rw [argmin]
      split
      · simp
      · have := ih (by simp)
        simp only [List.length_cons] at this ⊢
        omega

theorem argmin_le : ∀ l : List ℚ, ∀ x ∈ l, l.getD (argmin l) 0 ≤ x := by
  intro l
  induction l with
  | nil => intro x hx; cases hx
  | cons a l ih =>
    intro x hx
    cases l with
    | nil =>
      obtain rfl : x = a := by simpa using hx
      simp [argmin]
    | cons b l =>
      rw [argmin]
      split
      · rename_i h
        rcases List.mem_cons.mp hx with rfl | hx
        · simp
        · exact le_trans (by simpa using h) (ih x hx)
      · rename_i h
        rw [List.getD_cons_succ]
        rcases List.mem_cons.mp hx with rfl | hx
        · linarith
        · exact ih x hx

end Viscid.Separator
