import Verif.Model.Timeit
import Verif.Spec.Timeit
import Mathlib.Tactic.Linarith
import Mathlib.Tactic.Ring
import Mathlib.Algebra.Order.Field.Basic
/-!
# C251: timing
-/
namespace Viscid.Props
open Viscid.Timeit Viscid.Spec.Timeit

namespace TI

variable {S A V R E : Type}

/-- the times of rounds -/
def diffs (clock : Nat → ℚ) (k n : Nat) : List ℚ := (List.range n).map fun i => clock (k + 2 * i + 1) - clock (k + 2 * i)

theorem diffs_succ (clock : Nat → ℚ) (k n : Nat) : diffs clock k (n + 1) = (clock (k + 1) - clock k) :: diffs clock (k + 2) n := by
  unfold diffs
  rw [List.range_succ_eq_map, List.map_cons, List.map_map]
  congr 1
  apply List.map_congr_left
  intro i _
  simp only [Function.comp, Nat.succ_eq_add_one]
  rw [show k + 2 * (i + 1) + 1 = k + 2 + 2 * i + 1 by omega, show k + 2 * (i + 1) = k + 2 + 2 * i by omega]

theorem rounds_ok (f : Fn S A V R E) (args : List A) (kwargs : List (String × V)) (clock : Nat → ℚ) (show1 : Bool) :
    ∀ (n : Nat) (o : Out S R) (r : R) (s' : S), Calls (f args kwargs) n o.state r s' →
      rounds f args kwargs clock show1 (n + 1) o = (.ok (), ⟨some r, o.times ++ diffs clock o.reads (n + 1), s', o.reads + 2 * (n + 1),
        o.lines + if show1 then n + 1 else 0⟩)
  | 0, o, r, s', .one _ _ _ h => by
    rw [rounds]
    simp only [h]
    rw [rounds, diffs_succ]
    cases show1 <;> simp [diffs]
  | n + 1, o, r, s', .more _ _ s1 _ r1 _ h h' => by
    rw [rounds]
    simp only [h]
    rw [rounds_ok f args kwargs clock show1 n _ r s' h', diffs_succ clock o.reads]
    cases show1
    · simp only [List.append_assoc, List.cons_append, List.nil_append, Bool.false_eq_true, if_false]
      congr 2; omega
    · simp only [List.append_assoc, List.cons_append, List.nil_append, if_true]
      congr 2 <;> omega

theorem rounds_err (f : Fn S A V R E) (args : List A) (kwargs : List (String × V)) (clock : Nat → ℚ) (show1 : Bool) :
    ∀ (n m : Nat) (o : Out S R) (e : E) (s' : S), Raises (f args kwargs) n o.state e s' →
      ∃ o', rounds f args kwargs clock show1 (n + 1 + m) o = (.error e, o') ∧ o'.state = s'
  | 0, m, o, e, s', .now _ _ _ h => by
    rw [show 0 + 1 + m = m + 1 by omega, rounds]
    simp only [h]
    exact ⟨_, rfl, rfl⟩
  | n + 1, m, o, e, s', .later _ _ s1 _ r1 _ h h' => by
    rw [show n + 1 + 1 + m = (n + 1 + m) + 1 by omega, rounds]
    simp only [h]
    exact rounds_err f args kwargs clock show1 n m _ e s' h'

theorem fold_min : ∀ (l : List ℚ) (t : ℚ), l.foldl min t ∈ t :: l ∧ ∀ x ∈ t :: l, l.foldl min t ≤ x
  | [], t => by simp
  | a :: l, t => by
    obtain ⟨h1, h2⟩ := fold_min l (min t a)
    rw [List.foldl_cons]
    constructor
    · rcases List.mem_cons.1 h1 with h | h
      · rw [h]; rcases min_choice t a with e | e <;> rw [e] <;> simp
      · simp [h]
    · intro x hx
      have h0 := h2 _ List.mem_cons_self
      simp only [List.mem_cons] at hx
      rcases hx with rfl | rfl | hx
      · exact h0.trans (min_le_left _ _)
      · exact h0.trans (min_le_right _ _)
      · exact h2 x (by simp [hx])

theorem fold_max : ∀ (l : List ℚ) (t : ℚ), l.foldl max t ∈ t :: l ∧ ∀ x ∈ t :: l, x ≤ l.foldl max t
  | [], t => by simp
  | a :: l, t => by
    obtain ⟨h1, h2⟩ := fold_max l (max t a)
    rw [List.foldl_cons]
    constructor
    · rcases List.mem_cons.1 h1 with h | h
      · rw [h]; rcases max_choice t a with e | e <;> rw [e] <;> simp
      · simp [h]
    · intro x hx
      have h0 := h2 _ List.mem_cons_self
      simp only [List.mem_cons] at hx
      rcases hx with rfl | rfl | hx
      · exact (le_max_left _ _).trans h0
      · exact (le_max_right _ _).trans h0
      · exact h2 x (by simp [hx])

theorem sum_le : ∀ (l : List ℚ) (a : ℚ), (∀ x ∈ l, x ≤ a) → l.sum ≤ l.length * a
  | [], a, _ => by simp
  | x :: l, a, h => by
    have := sum_le l a (fun y hy => h y (by simp [hy]))
    have hx := h x (by simp)
    rw [List.sum_cons, List.length_cons]
    push_cast
    linarith

theorem le_sum : ∀ (l : List ℚ) (a : ℚ), (∀ x ∈ l, a ≤ x) → l.length * a ≤ l.sum
  | [], a, _ => by simp
  | x :: l, a, h => by
    have := le_sum l a (fun y hy => h y (by simp [hy]))
    have hx := h x (by simp)
    rw [List.sum_cons, List.length_cons]
    push_cast
    linarith

/-- of a sorted list, those up to index `k` are at most the value there -/
theorem count_le (s : List ℚ) (hs : s.Pairwise (· ≤ ·)) (k : Nat) (hk : k < s.length) (m : ℚ) (hm : s[k] ≤ m) :
    k + 1 ≤ (s.filter (· ≤ m)).length := by
  have h1 : ((s.take (k + 1)).filter (· ≤ m)) = s.take (k + 1) := by
    rw [List.filter_eq_self]
    intro x hx
    obtain ⟨i, hi, rfl⟩ := List.mem_iff_getElem.1 hx
    rw [List.length_take] at hi
    rw [List.getElem_take]
    rcases Nat.lt_or_ge i k with h | h
    · simpa using (List.pairwise_iff_getElem.1 hs i k (by omega) hk h).trans hm
    · have : i = k := by omega
      subst this; simpa using hm
  have h2 : ((s.take (k + 1)).filter (· ≤ m)).length ≤ (s.filter (· ≤ m)).length :=
    ((List.take_sublist _ _).filter _).length_le
  rw [h1, List.length_take] at h2
  omega

theorem count_ge (s : List ℚ) (hs : s.Pairwise (· ≤ ·)) (k : Nat) (hk : k < s.length) (m : ℚ) (hm : m ≤ s[k]) :
    s.length - k ≤ (s.filter (m ≤ ·)).length := by
  have h1 : ((s.drop k).filter (m ≤ ·)) = s.drop k := by
    rw [List.filter_eq_self]
    intro x hx
    obtain ⟨i, hi, rfl⟩ := List.mem_iff_getElem.1 hx
    rw [List.length_drop] at hi
    rw [List.getElem_drop]
    rcases Nat.eq_zero_or_pos i with h | h
    · subst h; simpa using hm
    · simpa using hm.trans (List.pairwise_iff_getElem.1 hs k (k + i) hk (by omega) (by omega))
  have h2 : ((s.drop k).filter (m ≤ ·)).length ≤ (s.filter (m ≤ ·)).length :=
    ((List.drop_sublist _ _).filter _).length_le
  rw [h1, List.length_drop] at h2
  omega

theorem median_spec (l : List ℚ) (hl : l ≠ []) : Middle l (median l) ∧ (∃ a ∈ l, ∃ b ∈ l, a ≤ median l ∧ median l ≤ b) := by
  have hp : (l.mergeSort (· ≤ ·)).Perm l := List.mergeSort_perm _ _
  have hs : (l.mergeSort (· ≤ ·)).Pairwise (· ≤ ·) := by
    have := List.pairwise_mergeSort (le := fun (a b : ℚ) => decide (a ≤ b)) (fun a b c h1 h2 => by simp at *; exact h1.trans h2)
      (fun a b => by simpa using le_total a b) l
    exact this.imp (by simp)
  unfold Middle median
  generalize l.mergeSort (· ≤ ·) = s at hp hs
  have hlen : s.length = l.length := hp.length_eq
  have hpos : 0 < s.length := by rw [hlen]; exact List.length_pos_iff.2 hl
  have f1 : ∀ m : ℚ, (l.filter (· ≤ m)).length = (s.filter (· ≤ m)).length := fun m => ((hp.filter _).length_eq).symm
  have f2 : ∀ m : ℚ, (l.filter (m ≤ ·)).length = (s.filter (m ≤ ·)).length := fun m => ((hp.filter _).length_eq).symm
  simp only [f1, f2, ← hlen]
  have hmid : s.length / 2 < s.length := by omega
  have g : ∀ k (h : k < s.length), s.getD k 0 = s[k] := fun k h => by simp [h]
  by_cases ho : s.length % 2 = 1
  · rw [if_pos ho, g _ hmid]
    have a := count_le s hs _ hmid _ le_rfl
    have b := count_ge s hs _ hmid _ le_rfl
    have hm : s[s.length / 2] ∈ l := hp.mem_iff.1 (List.getElem_mem _)
    exact ⟨⟨by omega, by omega⟩, _, hm, _, hm, le_rfl, le_rfl⟩
  · have hmid' : s.length / 2 - 1 < s.length := by omega
    rw [if_neg ho, g _ hmid, g _ hmid']
    have hle : s[s.length / 2 - 1] ≤ s[s.length / 2] := List.pairwise_iff_getElem.1 hs _ _ _ _ (by omega)
    have e1 : s[s.length / 2 - 1] ≤ (s[s.length / 2 - 1] + s[s.length / 2]) / 2 := by linarith
    have e2 : (s[s.length / 2 - 1] + s[s.length / 2]) / 2 ≤ s[s.length / 2] := by linarith
    have a := count_le s hs _ hmid' _ e1
    have b := count_ge s hs _ hmid _ e2
    exact ⟨⟨by omega, by omega⟩, _, hp.mem_iff.1 (List.getElem_mem hmid'), _, hp.mem_iff.1 (List.getElem_mem hmid), e1, e2⟩

theorem own_iff (k : String) : own.contains k = true ↔ k = "timeit_repeat" ∨ k = "timeit_print_stats" ∨ k = "timeit_quiet" ∨ k = "timeit_stats" := by
  simp [own]

end TI

/-- C251: the function is called as often as asked, one call after the other, with all the arguments and with exactly the keywords that
do not belong to `timeit`; the result is that of the last call, and the state is that after it. -/
theorem C251_calls {S A V R E : Type} (f : Fn S A V R E) (args : List A) (kwargs mine : List (String × V)) (clock : Nat → ℚ) (n : Nat)
    (printStats quiet : Bool) (s s' : S) (r : R)
    (hm : ∀ x, x ∈ mine ↔ x ∈ kwargs ∧ x.1 ≠ "timeit_repeat" ∧ x.1 ≠ "timeit_print_stats" ∧ x.1 ≠ "timeit_quiet" ∧ x.1 ≠ "timeit_stats")
    (hsub : mine.Sublist kwargs) (hnd : kwargs.Nodup) (h : Calls (f args mine) n s r s') :
    ∃ st lines, timeitCall f args kwargs clock (n + 1) printStats quiet s = (.ok (r, st, lines), s') ∧ st.rep = n + 1 := by
  have hmine : passed kwargs = mine := by
    have hp : (passed kwargs).Perm mine := by
      unfold passed
      rw [List.perm_ext_iff_of_nodup (hnd.sublist List.filter_sublist) (hnd.sublist hsub)]
      intro x
      rw [hm, List.mem_filter, Bool.not_eq_true', ← Bool.not_eq_true, TI.own_iff]
      simp [not_or]
    have key : ∀ (l a b : List (String × V)), l.Nodup → a.Sublist l → b.Sublist l → (∀ x, x ∈ a ↔ x ∈ b) → a = b := by
      intro l
      induction l with
      | nil => intro a b _ ha hb _; rw [List.sublist_nil.1 ha, List.sublist_nil.1 hb]
      | cons c l ih =>
        intro a b hn ha hb hab
        rw [List.nodup_cons] at hn
        by_cases hc : c ∈ a
        · have hcb := (hab c).1 hc
          have split : ∀ d : List (String × V), d.Sublist (c :: l) → c ∈ d → ∃ d', d = c :: d' ∧ d'.Sublist l := by
            intro d hd hcd
            cases hd with
            | cons _ hd => exact absurd (hd.subset hcd) hn.1
            | cons_cons _ hd => exact ⟨_, rfl, hd⟩
          obtain ⟨a', rfl, ha'⟩ := split a ha hc
          obtain ⟨b', rfl, hb'⟩ := split b hb hcb
          rw [ih a' b' hn.2 ha' hb' (fun x => ?_)]
          constructor
          · intro hx
            rcases List.mem_cons.1 ((hab x).1 (List.mem_cons_of_mem _ hx)) with e | h
            · exact absurd (ha'.subset (e ▸ hx)) hn.1
            · exact h
          · intro hx
            rcases List.mem_cons.1 ((hab x).2 (List.mem_cons_of_mem _ hx)) with e | h
            · exact absurd (hb'.subset (e ▸ hx)) hn.1
            · exact h
        · have hcb : c ∉ b := fun h => hc ((hab c).2 h)
          have split : ∀ d : List (String × V), d.Sublist (c :: l) → c ∉ d → d.Sublist l := by
            intro d hd hcd
            cases hd with
            | cons _ hd => exact hd
            | cons_cons _ hd => exact absurd List.mem_cons_self hcd
          exact ih a b hn.2 (split a ha hc) (split b hb hcb) hab
    exact key kwargs _ _ hnd List.filter_sublist hsub (fun x => hp.mem_iff)
  unfold timeitCall
  rw [hmine, TI.rounds_ok f args mine clock _ n ⟨none, [], s, 0, 0⟩ r s' h]
  simp only [List.nil_append]
  rw [TI.diffs_succ]
  refine ⟨_, _, rfl, ?_⟩
  simp [TI.diffs]

/-- C251: the statistics are those of the time taken by each call: the least and the greatest are times of calls, the mean is their sum over
their number and between these, and the median has at least half of the times on either side. -/
theorem C251_stats {S A V R E : Type} (f : Fn S A V R E) (args : List A) (kwargs : List (String × V)) (clock : Nat → ℚ) (n lines : Nat)
    (printStats quiet : Bool) (s s' : S) (r : R) (st : Stats)
    (h : Calls (f args (kwargs.filter fun x => !(["timeit_repeat", "timeit_print_stats", "timeit_quiet", "timeit_stats"] : List String).contains x.1)) n s r s')
    (he : (timeitCall f args kwargs clock (n + 1) printStats quiet s).1 = .ok (r, st, lines)) :
    ∃ times : List ℚ, times.length = n + 1 ∧ (∀ i < n + 1, times[i]? = some (clock (2 * i + 1) - clock (2 * i))) ∧
      st.min ∈ times ∧ st.max ∈ times ∧ (∀ t ∈ times, st.min ≤ t ∧ t ≤ st.max) ∧ st.mean * (n + 1) = times.sum ∧
      st.min ≤ st.mean ∧ st.mean ≤ st.max ∧ Middle times st.median ∧ st.min ≤ st.median ∧ st.median ≤ st.max := by
  have h' : Calls (f args (passed kwargs)) n s r s' := h
  unfold timeitCall at he
  rw [TI.rounds_ok f args _ clock _ n ⟨none, [], s, 0, 0⟩ r s' h'] at he
  simp only [List.nil_append] at he
  have hlen : (TI.diffs clock 0 (n + 1)).length = n + 1 := by simp [TI.diffs]
  have hget : ∀ i < n + 1, (TI.diffs clock 0 (n + 1))[i]? = some (clock (2 * i + 1) - clock (2 * i)) := by
    intro i hi
    simp [TI.diffs, hi]
  refine ⟨TI.diffs clock 0 (n + 1), hlen, hget, ?_⟩
  generalize TI.diffs clock 0 (n + 1) = l at he hlen
  cases l with
  | nil => cases hlen
  | cons t ts =>
    simp only [stats, Except.ok.injEq, Prod.mk.injEq, true_and] at he
    obtain ⟨rfl, _⟩ := he
    obtain ⟨m1, m2⟩ := TI.fold_min ts t
    obtain ⟨x1, x2⟩ := TI.fold_max ts t
    have hpos : (0 : ℚ) < ((t :: ts).length : ℚ) := by rw [hlen]; positivity
    have hq : ((n : ℚ) + 1) = ((t :: ts).length : ℚ) := by rw [hlen]; push_cast; ring
    obtain ⟨d1, a, ha, b, hb, d2, d3⟩ := TI.median_spec (t :: ts) (by simp)
    refine ⟨m1, x1, fun y hy => ⟨m2 y hy, x2 y hy⟩, ?_, ?_, ?_, d1, (m2 a ha).trans d2, d3.trans (x2 b hb)⟩
    · simp only
      rw [hq, div_mul_cancel₀ _ (ne_of_gt hpos)]
    · simp only
      rw [le_div_iff₀ hpos, mul_comm]
      exact TI.le_sum _ _ m2
    · simp only
      rw [div_le_iff₀ hpos, mul_comm]
      exact TI.sum_le _ _ x2

/-- C251: an exception of the function goes through, after exactly the calls before it; no call asked for is an error. -/
theorem C251_errors {S A V R E : Type} (f : Fn S A V R E) (args : List A) (kwargs : List (String × V)) (clock : Nat → ℚ) (n m : Nat)
    (printStats quiet : Bool) (s s' : S) (e : E)
    (h : Raises (f args (kwargs.filter fun x => !(["timeit_repeat", "timeit_print_stats", "timeit_quiet", "timeit_stats"] : List String).contains x.1)) n s e s') :
    timeitCall f args kwargs clock (n + 1 + m) printStats quiet s = (.error (.raised e), s') ∧
    timeitCall f args kwargs clock 0 printStats quiet s = (.error .valueError, s) := by
  have h' : Raises (f args (passed kwargs)) n s e s' := h
  obtain ⟨o', h1, h2⟩ := TI.rounds_err f args (passed kwargs) clock (!quiet && (n + 1 + m == 1 || !printStats)) n m ⟨none, [], s, 0, 0⟩ e s' h'
  constructor
  · unfold timeitCall; rw [h1]; simp only [h2]
  · rfl

/-- C251: `quiet` prints nothing; else one call prints one line; many print two lines of statistics, or if these are not wanted one line each. -/
theorem C251_lines {S A V R E : Type} (f : Fn S A V R E) (args : List A) (kwargs : List (String × V)) (clock : Nat → ℚ) (n lines : Nat)
    (printStats quiet : Bool) (s s' : S) (r r' : R) (st : Stats)
    (h : Calls (f args (kwargs.filter fun x => !(["timeit_repeat", "timeit_print_stats", "timeit_quiet", "timeit_stats"] : List String).contains x.1)) n s r s')
    (he : (timeitCall f args kwargs clock (n + 1) printStats quiet s).1 = .ok (r', st, lines)) :
    (quiet = true → lines = 0) ∧ (quiet = false → n = 0 → lines = 1) ∧ (quiet = false → 0 < n → printStats = true → lines = 2) ∧
    (quiet = false → printStats = false → lines = n + 1) := by
  have h' : Calls (f args (passed kwargs)) n s r s' := h
  unfold timeitCall at he
  rw [TI.rounds_ok f args _ clock _ n ⟨none, [], s, 0, 0⟩ r s' h', TI.diffs_succ] at he
  simp only [List.nil_append, stats, Except.ok.injEq, Prod.mk.injEq] at he
  obtain ⟨_, _, rfl⟩ := he
  rcases Nat.eq_zero_or_pos n with hn | hn
  · subst hn; cases quiet <;> cases printStats <;> simp
  · have h0 : n ≠ 0 := by omega
    cases quiet <;> cases printStats <;> simp [hn, h0]

/-- C251: `timereps` calls as often as asked, and gives the least, greatest and mean time; without calls it is an error. -/
theorem C251_timereps {S A V R E : Type} (f : Fn S A V R E) (args : List A) (kwargs : List (String × V)) (clock : Nat → ℚ) (n : Nat)
    (s s' : S) (r : R) (h : Calls (f args kwargs) n s r s') :
    (∃ times : List ℚ, ∃ a b c, timereps (n + 1) f args kwargs clock s = (.ok (a, b, c), s') ∧ times.length = n + 1 ∧
      (∀ i < n + 1, times[i]? = some (clock (2 * i + 1) - clock (2 * i))) ∧ a ∈ times ∧ b ∈ times ∧ (∀ t ∈ times, a ≤ t ∧ t ≤ b) ∧
      c * (n + 1) = times.sum) ∧
    timereps 0 f args kwargs clock s = (.error .valueError, s) := by
  refine ⟨?_, rfl⟩
  unfold timereps
  rw [TI.rounds_ok f args kwargs clock _ n ⟨none, [], s, 0, 0⟩ r s' h]
  simp only [List.nil_append]
  have hlen : (TI.diffs clock 0 (n + 1)).length = n + 1 := by simp [TI.diffs]
  have hget : ∀ i < n + 1, (TI.diffs clock 0 (n + 1))[i]? = some (clock (2 * i + 1) - clock (2 * i)) := by
    intro i hi
    simp [TI.diffs, hi]
  refine ⟨TI.diffs clock 0 (n + 1), ?_⟩
  generalize TI.diffs clock 0 (n + 1) = l at hlen hget
  cases l with
  | nil => cases hlen
  | cons t ts =>
    obtain ⟨m1, m2⟩ := TI.fold_min ts t
    obtain ⟨x1, x2⟩ := TI.fold_max ts t
    refine ⟨_, _, _, rfl, hlen, hget, m1, x1, fun y hy => ⟨m2 y hy, x2 y hy⟩, ?_⟩
    have hpos : (0 : ℚ) < (((n + 1 : Nat)) : ℚ) := by positivity
    rw [show ((n : ℚ) + 1) = ((n + 1 : Nat) : ℚ) by push_cast; ring, div_mul_cancel₀ _ (ne_of_gt hpos)]

/-- C251 is violated: the keyword that is documented to quiet all output, `timeit_quet`, is passed on to the function, and quiets nothing. -/
theorem C251_quet_violated {V : Type} (kwargs : List (String × V)) (v : V) (h : ("timeit_quet", v) ∈ kwargs) :
    ("timeit_quet", v) ∈ passed kwargs ∧
    ∀ {S A R E : Type} (f : Fn S A V R E) (args : List A) (clock : Nat → ℚ) (s s' : S) (e : E),
      f args (passed kwargs) s = (.error e, s') → timeitCall f args kwargs clock 1 true false s = (.error (.raised e), s') := by
  refine ⟨List.mem_filter.2 ⟨h, by simp [own]⟩, fun f args clock s s' e he => ?_⟩
  unfold timeitCall
  rw [show (1 : Nat) = 0 + 1 from rfl, rounds]
  simp only [he]

namespace TI
/-- counts its calls; clock of squares -/
def counter : Fn Nat Nat Nat Nat Unit := fun args _ s => (.ok (s + args.sum), s + 1)
end TI

example : Calls (TI.counter [5] []) 2 0 7 3 :=
  .more 1 0 1 3 5 7 rfl (.more 0 1 2 3 6 7 rfl (.one 2 3 7 rfl))

example : (timeitCall TI.counter [5] [("timeit_repeat", 3)] (fun n => (n : ℚ) * n) 3 true false 0).1.toOption.map (fun x => (x.1, x.2.2)) = some (7, 2) := by
  decide +kernel

end Viscid.Props
