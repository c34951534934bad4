import Verif.Lemmas.NpTime
/-!
# C103 to C105: units of times
-/
namespace Viscid.Props
open Viscid.NpTime Viscid.Spec.NpTime

/-- What `regularize_time` does when it manages to convert all the times: with `st` the unit asked for, the times are rounded
down to the finest unit `w`, not finer than `st`, that can hold them all (numpy permitting); with `most_precise` the
rounded times are then expressed, without further change, in the finest unit `u` that can hold them. Nothing overflows
silently. `allow_rounding=False` means `w` is the unit asked for, `allow0=False` that nothing is rounded to 0. -/
theorem C103_one_unit_partial (big : U → U → Bool) (hb : Sane big) (ts ret : List Time) (unit : Option U)
    (finest allowRounding allow0 : Bool) (hv : ∀ t ∈ ts, Valid t) (hne : ts ≠ [])
    (h : regularize big ts unit finest allowRounding allow0 = .ok ret) (hlen : ret.length = ts.length) :
    ∃ st w u : U, Start ts unit st ∧ st.idx ≤ w.idx ∧ u.idx ≤ w.idx ∧
      (allowRounding = false → w = st) ∧ (finest = false → u = w) ∧
      (∀ x, st.idx ≤ x.idx → x.idx < w.idx → Blocked big ts x) ∧
      (finest = true → ∀ x, x.idx + 1 = u.idx → Blocked big ret x) ∧
      List.Forall₂ (fun t t' => Valid t' ∧ t'.delta = t.delta ∧ t'.unit = u ∧
        ∃ m, Floor w t m ∧ (∀ a, Is m a → Is t' a) ∧ (allow0 = false → Is m 0 → Is t 0)) ts ret := by
  unfold regularize at h
  cases hs : startUnit ts unit with
  | error e => rw [hs] at h; cases h
  | ok st =>
    rw [hs] at h
    simp only at h
    cases hc : coarsen big allowRounding allow0 ts st (units.drop st.idx) [] with
    | error e => rw [hc] at h; cases h
    | ok p =>
      obtain ⟨r0, w⟩ := p
      rw [hc] at h
      simp only at h
      have h0 : ([] : List Time).length < ts.length := by
        cases ts with
        | nil => exact absurd rfl hne
        | cons _ _ => simp
      have hr : ∀ us r0, refine big allow0 us r0 = .ok ret → ret.length = r0.length := by
        intro us
        induction us with
        | nil => intro r0 h; injection h with h; rw [h]
        | cons u us ih =>
          intro r0 h
          rw [NpTime.refine] at h
          split at h
          · rename_i n hn
            rw [ih n h, ← (adjustAll_none hn).length_eq]
          · injection h with h; rw [h]
          · cases h
      rcases coarsen_ok _ _ h0 hc with ⟨hshort, _⟩ | ⟨pre, post, hu, hpre, hroll, hok⟩
      · cases finest with
        | false => simp at h; subst h; omega
        | true => rw [if_pos rfl] at h; have := hr _ _ h; omega
      · obtain ⟨hle, hfirst, hmem⟩ := drop_first hu
        have hok2 : List.Forall₂ (fun t m => Floor w t m ∧ Valid m ∧ (allow0 = false → Is m 0 → Is t 0)) ts r0 := by
          refine (forall2_mem hok).imp ?_
          rintro t m ⟨ht, hadj⟩
          obtain ⟨hfl, hv', _, hex, hz⟩ := adjust_ok hb (hv t ht) hadj
          refine ⟨hfl, hv', fun ha hm => ?_⟩
          by_cases hlt : t.unit.idx < w.idx
          · exact hz ha hlt hm
          · obtain ⟨v, hv0, _⟩ := hv t ht
            obtain ⟨_, h1, h2⟩ := hex (by omega) _ ⟨v, hv0, rfl⟩
            obtain ⟨_, h3, h4⟩ := hm
            rw [h1] at h3
            injection h3 with h3
            subst h3
            exact ⟨v, hv0, by rw [← h2, h4]⟩
        cases finest with
        | false =>
          simp only [Bool.false_eq_true, if_false] at h
          injection h with h
          subst h
          refine ⟨st, w, w, startUnit_ok hs, hle, le_refl _, fun h => hfirst (hroll h), fun _ => rfl,
            fun x h1 h2 => hpre x (hmem x h1 h2), by simp, ?_⟩
          exact hok2.imp fun t m ⟨h1, h2, h3⟩ => ⟨h2, h1.1, h1.2.1, m, h1, fun _ h => h, h3⟩
        | true =>
          rw [if_pos rfl] at h
          have hall : ∀ t ∈ r0, Valid t ∧ t.unit = w := by
            intro m hm
            obtain ⟨t, _, h1⟩ := forall2_right hok2 m hm
            exact ⟨h1.2.1, h1.1.2.1⟩
          obtain ⟨u, hu1, _, hu3, hu4⟩ := refine_ok hb _ w r0 ret hall
            (List.pairwise_reverse.mpr units_pairwise.take) (fun x hx => mem_take.mp hx) h
          refine ⟨st, w, u, startUnit_ok hs, hle, hu1, fun h => hfirst (hroll h), by simp,
            fun x h1 h2 => hpre x (hmem x h1 h2), fun _ x hx => ?_, ?_⟩
          · exact hu3 x (mem_take.mpr (by omega)) (by omega) fun y _ hy => by omega
          · refine (forall2_comp hok2 hu4).imp ?_
            rintro t t' ⟨m, ⟨h1, h2, h3⟩, h4, h5, h6, h7⟩
            exact ⟨h5, by rw [h4, h1.1], h6, m, h1, h7, h3⟩

/-- ... and it manages to, or raises, unless no unit from the one asked for upwards will do. -/
theorem C103_short_only_if_blocked (big : U → U → Bool) (ts ret : List Time) (unit : Option U)
    (finest allowRounding allow0 : Bool) (hne : ts ≠ [])
    (h : regularize big ts unit finest allowRounding allow0 = .ok ret) (hlen : ret.length ≠ ts.length) :
    ∃ st, Start ts unit st ∧ ∀ x : U, st.idx ≤ x.idx → Blocked big ts x := by
  unfold regularize at h
  cases hs : startUnit ts unit with
  | error e => rw [hs] at h; cases h
  | ok st =>
    rw [hs] at h
    simp only at h
    cases hc : coarsen big allowRounding allow0 ts st (units.drop st.idx) [] with
    | error e => rw [hc] at h; cases h
    | ok p =>
      obtain ⟨r0, w⟩ := p
      rw [hc] at h
      simp only at h
      have h0 : ([] : List Time).length < ts.length := by
        cases ts with
        | nil => exact absurd rfl hne
        | cons _ _ => simp
      have hr : ∀ us r0, refine big allow0 us r0 = .ok ret → ret.length = r0.length := by
        intro us
        induction us with
        | nil => intro r0 h; injection h with h; rw [h]
        | cons u us ih =>
          intro r0 h
          rw [NpTime.refine] at h
          split at h
          · rename_i n hn
            rw [ih n h, ← (adjustAll_none hn).length_eq]
          · injection h with h; rw [h]
          · cases h
      rcases coarsen_ok _ _ h0 hc with ⟨_, hbl⟩ | ⟨_, _, _, _, _, hok⟩
      · exact ⟨st, startUnit_ok hs, fun x hx => hbl x (mem_drop hx)⟩
      · exfalso
        cases finest with
        | false => simp at h; subst h; exact hlen hok.length_eq.symm
        | true => rw [if_pos rfl] at h; exact hlen (by rw [hr _ _ h, hok.length_eq])

/-- C103 fails: asked to round attoseconds to days, `regularize_time` tries days and weeks, numpy refuses both, and a list
without the time is returned (IndexError for a single time). Of every time in attoseconds and every version of numpy. -/
theorem C103_lost_violated (big : U → U → Bool) (hb : Sane big) (v : Int) (delta : Bool) :
    regularize big [⟨delta, .as, some v⟩] (some .D) false true true = .ok [] ∧
    regularize1 big ⟨delta, .as, some v⟩ (some .D) false true true = .error .index := by
  have h1 := (hb .D .as (by decide)).2
  have h2 := (hb .W .as (by decide)).2
  have h : regularize big [⟨delta, .as, some v⟩] (some .D) false true true = .ok [] := by
    simp [regularize, startUnit, units, U.idx, coarsen, adjustAll, adjust, NpTime.cast, h1, h2]
  exact ⟨h, by rw [regularize1, h]⟩

/-- numpy 1.x: factors of 2^56 and more are refused -/
def numpyBig (a b : U) : Bool := decide (2 ^ 56 * b.size ≤ a.size) || decide (2 ^ 56 * a.size ≤ b.size)

/-- the assumption on numpy holds of it -/
example : Sane numpyBig := by
  intro a b h
  have h1 : 2 ^ 56 * b.size ≤ a.size := by have := size_pos b; omega
  norm_num at h1
  simp [numpyBig, h1]

/-- a date and 1536 as: both in nanoseconds, the attoseconds rounded to 1 ns -/
def exTimes : List Time := [⟨false, .D, some 14781⟩, ⟨true, .as, some 1536000000⟩]

example : (∀ t ∈ exTimes, Valid t) ∧ regularize numpyBig exTimes none false true true =
    .ok [⟨false, .ns, some 1277078400000000000⟩, ⟨true, .ns, some 1⟩] := by
  refine ⟨?_, by decide +kernel⟩
  intro t ht
  simp only [exTimes, List.mem_cons, List.not_mem_nil, or_false] at ht
  rcases ht with rfl | rfl
  · exact ⟨_, rfl, by decide, by decide⟩
  · exact ⟨_, rfl, by decide, by decide⟩

/-- C104: `round_time` leaves the times in units at least as coarse as `unit` alone and rounds the others down to it;
with `allow0=False` no other time becomes 0. -/
theorem C104_down_partial (big : U → U → Bool) (hb : Sane big) (unit : U) (allow0 : Bool) :
    ∀ (ts ret : List Time), (∀ t ∈ ts, Valid t) → roundTime big allow0 unit ts = .ok ret →
    List.Forall₂ (fun t t' => (unit.idx ≤ t.unit.idx → t' = t) ∧ (t.unit.idx < unit.idx → Floor unit t t' ∧ Valid t' ∧
      (allow0 = false → Is t' 0 → Is t 0))) ts ret := by
  intro ts
  induction ts with
  | nil => intro ret _ h; injection h with h; subst h; exact .nil
  | cons t ts ih =>
    intro ret hv h
    rw [roundTime] at h
    cases hx : (if t.unit.idx ≥ unit.idx then .ok t else adjust big allow0 t unit : Except Err Time) with
    | error e => rw [hx] at h; cases h
    | ok r =>
      rw [hx] at h
      simp only at h
      cases hrs : roundTime big allow0 unit ts with
      | error e => rw [hrs] at h; cases h
      | ok rs =>
        rw [hrs] at h
        injection h with h
        subst h
        refine .cons ?_ (ih rs (fun t ht => hv t (List.mem_cons_of_mem _ ht)) hrs)
        split at hx
        · injection hx with hx
          exact ⟨fun _ => hx.symm, fun h => by omega⟩
        · obtain ⟨h1, h2, _, _, h5⟩ := adjust_ok hb (hv t (by simp)) hx
          exact ⟨fun h => by omega, fun h => ⟨h1, h2, fun ha => h5 ha h⟩⟩

/-- ... and it raises PrecisionError only if asked to, because of a time that is not 0 but less than one unit -/
theorem C104_precision (big : U → U → Bool) (unit : U) (allow0 : Bool) : ∀ (ts : List Time),
    roundTime big allow0 unit ts = .error .precision →
    allow0 = false ∧ ∃ t ∈ ts, ∃ a, Is t a ∧ 0 < a ∧ a < unit.size := by
  intro ts
  induction ts with
  | nil => intro h; cases h
  | cons t ts ih =>
    intro h
    rw [roundTime] at h
    cases hx : (if t.unit.idx ≥ unit.idx then .ok t else adjust big allow0 t unit : Except Err Time) with
    | error e =>
      rw [hx] at h
      injection h with h
      subst h
      split at hx
      · cases hx
      · rcases adjust_err hx with h | ⟨_, h0, hlt, _, hnz, hz⟩
        · cases h
        · refine ⟨h0, t, by simp, ?_⟩
          cases hval : t.val with
          | none => rw [hval] at hz; cases hz
          | some v =>
            rw [hval] at hz hnz
            simp only [Option.map_some, Option.some.injEq] at hz
            have hv0 : v ≠ 0 := fun h => hnz (by rw [h])
            have hf := factor_pos (a := t.unit) (b := unit) (by omega)
            have hd := size_dvd (a := t.unit) (b := unit) (by omega)
            have hp := size_pos t.unit
            have hmod := Int.emod_add_mul_ediv v (unit.size / t.unit.size)
            have hm1 := Int.emod_nonneg v (by omega : unit.size / t.unit.size ≠ 0)
            have hm2 := Int.emod_lt_of_pos v hf
            rw [hz, mul_zero, add_zero] at hmod
            rw [hmod] at hm1 hm2
            refine ⟨_, ⟨v, hval, rfl⟩, Int.mul_pos (by omega) hp, ?_⟩
            rw [← hd]
            exact Int.mul_lt_mul_of_pos_right hm2 hp
    | ok r =>
      rw [hx] at h
      simp only at h
      cases hrs : roundTime big allow0 unit ts with
      | error e =>
        rw [hrs] at h
        injection h with h
        subst h
        obtain ⟨h0, t', ht', h⟩ := ih hrs
        exact ⟨h0, t', by simp [ht'], h⟩
      | ok rs => rw [hrs] at h; cases h

/-- C104 fails: 1999 ms are rounded to 1 s -/
theorem C104_nearest_violated : roundTime numpyBig true .s [⟨true, .ms, some 1999⟩] = .ok [⟨true, .s, some 1⟩] := by
  decide +kernel

example : roundTime numpyBig false .s [⟨true, .ms, some 999⟩] = .error .precision ∧
    roundTime numpyBig false .s [⟨true, .ms, some (-1)⟩, ⟨true, .h, some 3⟩] = .ok [⟨true, .s, some (-1)⟩, ⟨true, .h, some 3⟩] := by
  decide +kernel

/-- C105: `time_diff`, when it returns and the difference fits into 64 bits, is the difference of the two times, each rounded
down to one unit (and expressed in a finer one, with `most_precise`). -/
theorem C105_diff_partial (big : U → U → Bool) (hb : Sane big) (t1 t2 r : Time) (unit : Option U) (finest : Bool)
    (h1 : Valid t1) (h2 : Valid t2) (h : timeDiff big t1 t2 unit finest = .ok r) :
    ∃ (st w u : U) (m1 m2 : Time) (a b : Int), Start [t1, t2] unit st ∧ st.idx ≤ w.idx ∧ u.idx ≤ w.idx ∧
      (finest = false → u = w) ∧ (∀ x, st.idx ≤ x.idx → x.idx < w.idx → Blocked big [t1, t2] x) ∧
      Floor w t1 m1 ∧ Floor w t2 m2 ∧ Is m1 a ∧ Is m2 b ∧ r.delta = true ∧ r.unit = u ∧
      (-2 ^ 63 * u.size < a - b → a - b < 2 ^ 63 * u.size → Is r (a - b)) := by
  unfold timeDiff at h
  cases hr : regularize big [t1, t2] unit finest true true with
  | error e => rw [hr] at h; cases h
  | ok l =>
    rw [hr] at h
    match l, h, hr with
    | [x, y], h, hr =>
      obtain ⟨st, w, u, hst, hsw, huw, _, hf, hbl, _, hall⟩ :=
        C103_one_unit_partial big hb [t1, t2] [x, y] unit finest true true (by simp [h1, h2]) (by simp) hr rfl
      injection h with h
      subst h
      obtain ⟨⟨_, _, hx, m1, hm1, hm1x, _⟩, hrest⟩ := List.forall₂_cons.mp hall
      obtain ⟨⟨_, _, hy, m2, hm2, hm2y, _⟩, _⟩ := List.forall₂_cons.mp hrest
      have ⟨_, _, _, a, _, ha, _⟩ := hm1
      have ⟨_, _, _, b, _, hb', _⟩ := hm2
      refine ⟨st, w, u, m1, m2, a, b, hst, hsw, huw, hf, hbl, hm1, hm2, ha, hb', rfl, hx, ?_⟩
      intro l1 l2
      obtain ⟨p, hp, hpa⟩ := hm1x a ha
      obtain ⟨q, hq, hqb⟩ := hm2y b hb'
      rw [hx] at hpa
      rw [hy] at hqb
      have e : (p - q) * u.size = a - b := by rw [Int.sub_mul, hpa, hqb]
      rw [← e] at l1 l2
      have hu := size_pos u
      refine ⟨p - q, ?_, by show (p - q) * x.unit.size = _; rw [hx, e]⟩
      show (match x.val, y.val with | some x, some y => toI64 (x - y) | _, _ => none) = _
      rw [hp, hq]
      exact toI64_exact (lt_of_mul_lt_mul_right l1 (by omega)) (lt_of_mul_lt_mul_right l2 (by omega))

/-- C105, `time_sum` likewise -/
theorem C105_sum_partial (big : U → U → Bool) (hb : Sane big) (t1 t2 r : Time) (unit : Option U)
    (finest allowRounding allow0 : Bool) (h1 : Valid t1) (h2 : Valid t2)
    (h : timeSum big t1 t2 unit finest allowRounding allow0 = .ok r) :
    ∃ (st w u : U) (m1 m2 : Time) (a b : Int), Start [t1, t2] unit st ∧ st.idx ≤ w.idx ∧ u.idx ≤ w.idx ∧
      (allowRounding = false → w = st) ∧
      (finest = false → u = w) ∧ (∀ x, st.idx ≤ x.idx → x.idx < w.idx → Blocked big [t1, t2] x) ∧
      Floor w t1 m1 ∧ Floor w t2 m2 ∧ Is m1 a ∧ Is m2 b ∧ r.delta = t1.delta ∧ r.unit = u ∧
      (allow0 = false → Is m2 0 → Is t2 0) ∧
      (-2 ^ 63 * u.size < a + b → a + b < 2 ^ 63 * u.size → Is r (a + b)) := by
  unfold timeSum at h
  cases hr : regularize big [t1, t2] unit finest allowRounding allow0 with
  | error e => rw [hr] at h; cases h
  | ok l =>
    rw [hr] at h
    match l, h, hr with
    | [x, y], h, hr =>
      obtain ⟨st, w, u, hst, hsw, huw, har, hf, hbl, _, hall⟩ :=
        C103_one_unit_partial big hb [t1, t2] [x, y] unit finest allowRounding allow0 (by simp [h1, h2]) (by simp) hr rfl
      injection h with h
      subst h
      obtain ⟨⟨_, hdx, hx, m1, hm1, hm1x, _⟩, hrest⟩ := List.forall₂_cons.mp hall
      obtain ⟨⟨_, _, hy, m2, hm2, hm2y, hz⟩, _⟩ := List.forall₂_cons.mp hrest
      have ⟨_, _, _, a, _, ha, _⟩ := hm1
      have ⟨_, _, _, b, _, hb', _⟩ := hm2
      refine ⟨st, w, u, m1, m2, a, b, hst, hsw, huw, har, hf, hbl, hm1, hm2, ha, hb', hdx, hx, hz, ?_⟩
      intro l1 l2
      obtain ⟨p, hp, hpa⟩ := hm1x a ha
      obtain ⟨q, hq, hqb⟩ := hm2y b hb'
      rw [hx] at hpa
      rw [hy] at hqb
      have e : (p + q) * u.size = a + b := by rw [Int.add_mul, hpa, hqb]
      rw [← e] at l1 l2
      have hu := size_pos u
      refine ⟨p + q, ?_, by show (p + q) * x.unit.size = _; rw [hx, e]⟩
      show (match x.val, y.val with | some x, some y => toI64 (x + y) | _, _ => none) = _
      rw [hp, hq]
      exact toI64_exact (lt_of_mul_lt_mul_right l1 (by omega)) (lt_of_mul_lt_mul_right l2 (by omega))

/-- C105 fails: with `most_precise`, the difference between the years 2200 and 1700 (7258118400 s and -8520336000 s) is
negative: both fit into nanoseconds, their difference does not. Likewise a date in 2200 plus a hundred years, in ns. -/
theorem C105_overflow_violated :
    timeDiff numpyBig ⟨false, .s, some 7258118400⟩ ⟨false, .s, some (-8520336000)⟩ none true =
      .ok ⟨true, .ns, some (-2668289673709551616)⟩ ∧
    timeSum numpyBig ⟨false, .ns, some 7258118400000000000⟩ ⟨true, .ns, some 3155760000000000000⟩ none false true true =
      .ok ⟨false, .ns, some (-8032865673709551616)⟩ := by
  decide +kernel

example : timeDiff numpyBig ⟨false, .D, some 14781⟩ ⟨false, .s, some 1277078399⟩ none false = .ok ⟨true, .s, some 1⟩ ∧
    timeSum numpyBig ⟨false, .D, some 14781⟩ ⟨true, .us, some 121⟩ none false true true =
      .ok ⟨false, .us, some 1277078400000121⟩ := by
  decide +kernel

end Viscid.Props
