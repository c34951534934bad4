import Verif.Spec.NpTime
import Mathlib.Tactic.Linarith
import Mathlib.Data.List.Forall2
import Mathlib.Tactic.Ring
/-!
# Lemmas for C103 to C105
-/
namespace Viscid.NpTime
open Viscid.Spec.NpTime

theorem size_pos (u : U) : 0 < u.size := by cases u <;> decide

theorem idx_inj {a b : U} (h : a.idx = b.idx) : a = b := by
  cases a <;> cases b <;> first | rfl | (simp [U.idx] at h)

theorem size_dvd {a b : U} (h : a.idx ≤ b.idx) : b.size / a.size * a.size = b.size := by
  cases a <;> cases b <;> first | (simp [U.idx] at h; done) | decide

theorem factor_pos {a b : U} (h : a.idx ≤ b.idx) : 0 < b.size / a.size := by
  cases a <;> cases b <;> first | (simp [U.idx] at h; done) | decide

theorem toI64_some {z w : Int} (h : toI64 z = some w) : -2 ^ 63 < w ∧ w < 2 ^ 63 ∧ ∃ k, w = z - k * 2 ^ 64 := by
  unfold toI64 at h
  split at h
  · cases h
  · rename_i hne
    injection h with h
    subst h
    unfold wrap at *
    refine ⟨by omega, by omega, (z + 2 ^ 63) / 2 ^ 64, by omega⟩

theorem toI64_exact {z : Int} (h1 : -2 ^ 63 < z) (h2 : z < 2 ^ 63) : toI64 z = some z := by
  have : wrap z = z := by unfold wrap; omega
  unfold toI64
  rw [this, if_neg (by omega)]

theorem small_factor {big : U → U → Bool} (hb : Sane big) {a b : U} (h : b.idx ≤ a.idx) (hn : big a b = false) :
    a.size / b.size < 2 ^ 63 := by
  by_contra hc
  have h1 := size_dvd h
  have h2 := size_pos b
  have : 2 ^ 63 * b.size ≤ a.size := by rw [← h1]; exact Int.mul_le_mul_of_nonneg_right (by omega) (by omega)
  rw [(hb a b this).1] at hn
  cases hn

/-- the round trip of `_adjust_t_unit` notices every overflow -/
theorem wrap_detect {v f k : Int} (hf : 0 < f) (hf2 : f < 2 ^ 63) (h : (v * f - k * 2 ^ 64) / f = v) : k = 0 := by
  have h1 := Int.emod_add_mul_ediv (v * f - k * 2 ^ 64) f
  have h2 := Int.emod_nonneg (v * f - k * 2 ^ 64) (by omega : f ≠ 0)
  have h3 := Int.emod_lt_of_pos (v * f - k * 2 ^ 64) hf
  rw [h] at h1
  have : f * v = v * f := Int.mul_comm _ _
  omega

theorem adjust_ok {big : U → U → Bool} (hb : Sane big) {allow0 : Bool} {t t' : Time} {u : U} (hv : Valid t)
    (h : adjust big allow0 t u = .ok t') :
    Floor u t t' ∧ Valid t' ∧ (t.unit ≠ u → big t.unit u = false) ∧
      (u.idx ≤ t.unit.idx → ∀ a, Is t a → Is t' a) ∧
      (allow0 = false → t.unit.idx < u.idx → Is t' 0 → Is t 0) := by
  obtain ⟨v, hv0, hv1, hv2⟩ := hv
  unfold adjust at h
  split at h
  · rename_i hu
    injection h with h
    subst h
    refine ⟨⟨rfl, hu, _, _, ⟨v, hv0, rfl⟩, ⟨v, hv0, rfl⟩, le_refl _, ?_⟩, ⟨v, hv0, hv1, hv2⟩, fun h => absurd hu h,
      fun _ _ h => h, fun _ _ h => h⟩
    have := size_pos u
    omega
  · rename_i hne
    split at h
    · rename_i hfine
      unfold cast at h
      cases hbig : big t.unit u with
      | true => rw [hbig] at h; simp at h
      | false =>
        rw [hbig, if_neg (by simp), if_pos (by omega), hv0] at h
        simp only [Option.bind_some] at h
        cases hbig2 : big u t.unit with
        | true => rw [hbig2] at h; simp at h
        | false =>
          rw [hbig2, if_neg (by simp), if_neg (by omega)] at h
          simp only at h
          cases hw : toI64 (v * (t.unit.size / u.size)) with
          | none => rw [hw] at h; simp [eqTime, hv0] at h
          | some w =>
            rw [hw] at h
            obtain ⟨w1, w2, k, hk⟩ := toI64_some hw
            simp only [eqTime, hv0, Option.map_some] at h
            split at h
            · rename_i heq
              have heq : v = w / (t.unit.size / u.size) := by simpa using heq
              have hf := factor_pos (a := u) (b := t.unit) (by omega)
              have hs := small_factor hb (a := t.unit) (b := u) (by omega) hbig
              have hk0 : k = 0 := wrap_detect (v := v) hf hs (by rw [← hk]; exact heq.symm)
              injection h with h
              subst h
              have hd := size_dvd (a := u) (b := t.unit) (by omega)
              have hval : w * u.size = v * t.unit.size := by
                calc w * u.size = v * (t.unit.size / u.size * u.size) := by rw [hk, hk0]; ring
                  _ = _ := by rw [hd]
              have hp := size_pos u
              refine ⟨⟨rfl, rfl, _, _, ⟨v, hv0, rfl⟩, ⟨w, rfl, rfl⟩, ?_, ?_⟩, ⟨w, rfl, w1, w2⟩, fun _ => rfl, ?_, ?_⟩
              · show w * u.size ≤ _
                omega
              · show _ < w * u.size + u.size
                omega
              · rintro _ a ⟨x, hx, hxa⟩
                rw [hv0] at hx
                injection hx with hx
                subst hx
                exact ⟨w, rfl, by rw [← hxa]; exact hval⟩
              · intro _ h0
                omega
            · cases h
    · rename_i hco
      unfold cast at h
      cases hbig : big t.unit u with
      | true => rw [hbig] at h; simp at h
      | false =>
        have hlt : t.unit.idx < u.idx := by
          have : t.unit.idx ≠ u.idx := fun h => hne (idx_inj h)
          omega
        rw [hbig, if_neg (by simp), if_neg (by omega), hv0] at h
        simp only [Option.map_some] at h
        split at h
        · cases h
        · rename_i hz
          injection h with h
          subst h
          have hf := factor_pos (a := t.unit) (b := u) (by omega)
          have hd := size_dvd (a := t.unit) (b := u) (by omega)
          have hp := size_pos t.unit
          have hmod := Int.emod_add_mul_ediv v (u.size / t.unit.size)
          have hm1 := Int.emod_nonneg v (by omega : u.size / t.unit.size ≠ 0)
          have hm2 := Int.emod_lt_of_pos v hf
          set f := u.size / t.unit.size with hfdef
          have e : v * t.unit.size = v / f * u.size + v % f * t.unit.size := by
            rw [← hd]
            nth_rewrite 1 [← hmod]
            ring
          have hm3 : v % f * t.unit.size < u.size := by
            rw [← hd]
            exact Int.mul_lt_mul_of_pos_right hm2 hp
          have hm4 : 0 ≤ v % f * t.unit.size := Int.mul_nonneg hm1 (by omega)
          refine ⟨⟨rfl, rfl, _, _, ⟨v, hv0, rfl⟩, ⟨v / f, rfl, rfl⟩, ?_, ?_⟩, ⟨v / f, rfl, ?_, ?_⟩, fun _ => rfl, ?_, ?_⟩
          · show v / f * u.size ≤ _
            omega
          · show _ < v / f * u.size + u.size
            omega
          · have : v / f ≥ -2 ^ 63 + 1 := by
              rw [ge_iff_le, Int.le_ediv_iff_mul_le hf]
              nlinarith
            omega
          · have : v / f ≤ 2 ^ 63 - 1 := by
              apply Int.ediv_le_of_le_mul hf
              nlinarith
            omega
          · intro h
            omega
          · rintro h0 _ ⟨x, hx, hx0⟩
            simp only [Option.some.injEq] at hx
            subst hx
            have hq : v / f = 0 := by
              rcases Int.mul_eq_zero.mp hx0 with h | h
              · exact h
              · exact absurd h (by have := size_pos u; simp only; omega)
            have : v = 0 := by
              by_contra hv
              apply hz
              simp [h0, hq, hv]
            exact ⟨v, hv0, by rw [this]; simp⟩

/-- `_adjust_t_unit` only refuses what does not fit -/
theorem adjust_overflow {big : U → U → Bool} {allow0 : Bool} {t : Time} {u : U}
    (h : adjust big allow0 t u = .error .overflow) :
    big t.unit u = true ∨ big u t.unit = true ∨ ¬ Fits u t := by
  cases hbig : big t.unit u with
  | true => simp
  | false =>
    cases hbig2 : big u t.unit with
    | true => simp
    | false =>
      refine Or.inr (Or.inr ?_)
      rintro ⟨t', ⟨hd', hu', a, b, ⟨v, hv0, ha⟩, ⟨w, hw0, hb⟩, hle, hlt⟩, ⟨w', hw', w1, w2⟩⟩
      rw [hw0] at hw'
      injection hw' with hw'
      subst hw'
      rw [hu'] at hb
      unfold adjust at h
      split at h
      · cases h
      · rename_i hne
        split at h
        · rename_i hfine
          have hd := size_dvd (a := u) (b := t.unit) (by omega)
          have hf := factor_pos (a := u) (b := t.unit) (by omega)
          have hp := size_pos u
          have hx : v * (t.unit.size / u.size) = w := by
            have h1 : (v * (t.unit.size / u.size)) * u.size = a := by rw [mul_assoc, hd, ha]
            have h2 : w * u.size ≤ v * (t.unit.size / u.size) * u.size := by rw [h1, hb]; exact hle
            have h3 : v * (t.unit.size / u.size) * u.size < (w + 1) * u.size := by
              rw [h1, add_mul, hb, one_mul]; exact hlt
            have := Int.le_of_mul_le_mul_right h2 hp
            have := Int.lt_of_mul_lt_mul_right h3 (by omega)
            omega
          unfold cast at h
          rw [hbig, if_neg (by simp), if_pos (by omega), hv0] at h
          simp only [Option.bind_some] at h
          rw [hbig2, if_neg (by simp), if_neg (by omega), hx, toI64_exact w1 w2] at h
          simp only [eqTime, hv0, Option.map_some] at h
          rw [← hx, Int.mul_ediv_cancel _ (by omega)] at h
          simp at h
        · rename_i hco
          have : t.unit.idx ≠ u.idx := fun h => hne (idx_inj h)
          unfold cast at h
          rw [hbig, if_neg (by simp), if_neg (by omega)] at h
          simp only at h
          split at h <;> cases h

theorem adjust_err {big : U → U → Bool} {allow0 : Bool} {t : Time} {u : U} {e : Err}
    (h : adjust big allow0 t u = .error e) : e = .overflow ∨ (e = .precision ∧ allow0 = false ∧ t.unit.idx < u.idx ∧
      big t.unit u = false ∧ t.val ≠ some 0 ∧ t.val.map (fun v => v / (u.size / t.unit.size)) = some 0) := by
  unfold adjust at h
  split at h
  · cases h
  · rename_i hne
    have hn : t.unit.idx ≠ u.idx := fun h => hne (idx_inj h)
    split at h
    · rename_i hfine
      refine Or.inl ?_
      unfold cast at h
      cases hbig : big t.unit u with
      | true => rw [hbig] at h; simpa using h.symm
      | false =>
        rw [hbig, if_neg (by simp), if_pos (by omega)] at h
        cases hbig2 : big u t.unit with
        | true => simp only at h; rw [hbig2] at h; simpa using h.symm
        | false =>
          simp only at h
          rw [hbig2, if_neg (by simp), if_neg (by omega)] at h
          simp only at h
          split at h
          · cases h
          · injection h with h; exact h.symm
    · unfold cast at h
      cases hbig : big t.unit u with
      | true => rw [hbig] at h; exact Or.inl (by simpa using h.symm)
      | false =>
        rw [hbig, if_neg (by simp), if_neg (by omega)] at h
        simp only at h
        split at h
        · rename_i hz
          injection h with h
          have h0 : allow0 = false := by simpa using hz.1
          exact Or.inr ⟨h.symm, h0, by omega, rfl, hz.2.2, hz.2.1⟩
        · cases h

/-! ### lists -/

theorem forall2_mem {α β : Type} {R : α → β → Prop} {l : List α} {l' : List β} (h : List.Forall₂ R l l') :
    List.Forall₂ (fun a b => a ∈ l ∧ R a b) l l' := by
  induction h with
  | nil => exact .nil
  | cons h _ ih => exact .cons ⟨by simp, h⟩ (ih.imp fun a b ⟨h1, h2⟩ => ⟨by simp [h1], h2⟩)

theorem forall2_right {α β : Type} {R : α → β → Prop} {l : List α} {l' : List β} (h : List.Forall₂ R l l') :
    ∀ b ∈ l', ∃ a ∈ l, R a b := by
  induction h with
  | nil => simp
  | cons h _ ih =>
    intro b hb
    rcases List.mem_cons.mp hb with rfl | hb
    · exact ⟨_, by simp, h⟩
    · obtain ⟨a, ha, hr⟩ := ih b hb
      exact ⟨a, by simp [ha], hr⟩

theorem forall2_comp {α β γ : Type} {R : α → β → Prop} {S : β → γ → Prop} {l : List α} {l' : List β} {l'' : List γ}
    (h : List.Forall₂ R l l') (h' : List.Forall₂ S l' l'') : List.Forall₂ (fun a c => ∃ b, R a b ∧ S b c) l l'' := by
  induction h generalizing l'' with
  | nil => cases h'; exact .nil
  | cons h _ ih =>
    cases h' with
    | cons h1 h2 => exact .cons ⟨_, h, h1⟩ (ih h2)

theorem adjustAll_none {big : U → U → Bool} {allow0 : Bool} {u : U} : ∀ {ts ret : List Time},
    adjustAll big allow0 u ts = (ret, none) → List.Forall₂ (fun t t' => adjust big allow0 t u = .ok t') ts ret := by
  intro ts
  induction ts with
  | nil => intro ret h; simp [adjustAll] at h; subst h; exact .nil
  | cons t ts ih =>
    intro ret h
    rw [adjustAll] at h
    cases ha : adjust big allow0 t u with
    | error e => rw [ha] at h; simp at h
    | ok r =>
      rw [ha] at h
      injection h with h1 h2
      subst h1
      exact .cons ha (ih (Prod.ext rfl h2))

theorem adjustAll_some {big : U → U → Bool} {allow0 : Bool} {u : U} {e : Err} : ∀ {ts ret : List Time},
    adjustAll big allow0 u ts = (ret, some e) → ret.length < ts.length ∧ ∃ t ∈ ts, adjust big allow0 t u = .error e := by
  intro ts
  induction ts with
  | nil => intro ret h; simp [adjustAll] at h
  | cons t ts ih =>
    intro ret h
    rw [adjustAll] at h
    cases ha : adjust big allow0 t u with
    | error e' =>
      rw [ha] at h
      injection h with h1 h2
      injection h2 with h2
      subst h1 h2
      exact ⟨by simp, t, by simp, ha⟩
    | ok r =>
      rw [ha] at h
      injection h with h1 h2
      obtain ⟨hl, t', ht', he⟩ := ih (ret := (adjustAll big allow0 u ts).1) (Prod.ext rfl h2)
      subst h1
      exact ⟨by simpa using hl, t', by simp [ht'], he⟩

theorem coarsen_ok {big : U → U → Bool} {ar allow0 : Bool} {ts : List Time} {unit w : U}
    {ret : List Time} : ∀ (us : List U) (r0 : List Time), r0.length < ts.length →
    coarsen big ar allow0 ts unit us r0 = .ok (ret, w) →
    (ret.length < ts.length ∧ ∀ x ∈ us, Blocked big ts x) ∨
    ∃ pre post, us = pre ++ w :: post ∧ (∀ x ∈ pre, Blocked big ts x) ∧ (ar = false → pre = []) ∧
      List.Forall₂ (fun t t' => adjust big allow0 t w = .ok t') ts ret := by
  intro us
  induction us with
  | nil =>
    intro r0 hr h
    injection h with h
    injection h with h1 h2
    subst h1
    exact Or.inl ⟨hr, by simp⟩
  | cons u us ih =>
    intro r0 _ h
    rw [coarsen] at h
    split at h
    · rename_i r hr
      injection h with h
      injection h with h1 h2
      subst h1 h2
      exact Or.inr ⟨[], us, rfl, by simp, fun _ => rfl, adjustAll_none hr⟩
    · rename_i r hr
      split at h
      · rename_i har
        obtain ⟨hl, t, ht, he⟩ := adjustAll_some hr
        have hbl : Blocked big ts u := ⟨t, ht, adjust_overflow he⟩
        rcases ih r hl h with ⟨h1, h2⟩ | ⟨pre, post, h1, h2, _, h3⟩
        · refine Or.inl ⟨h1, fun x hx => ?_⟩
          rcases List.mem_cons.mp hx with rfl | hx
          · exact hbl
          · exact h2 x hx
        · refine Or.inr ⟨u :: pre, post, by rw [h1]; rfl, fun x hx => ?_, fun h => absurd har (by simp [h]), h3⟩
          rcases List.mem_cons.mp hx with rfl | hx
          · exact hbl
          · exact h2 x hx
      · cases h
    · cases h

theorem refine_ok {big : U → U → Bool} (hb : Sane big) {allow0 : Bool} : ∀ (us : List U) (w : U) (r0 ret : List Time),
    (∀ t ∈ r0, Valid t ∧ t.unit = w) → (us.Pairwise fun a b => b.idx < a.idx) → (∀ x ∈ us, x.idx < w.idx) →
    refine big allow0 us r0 = .ok ret →
    ∃ u : U, u.idx ≤ w.idx ∧ (u = w ∨ u ∈ us) ∧ (∀ x ∈ us, x.idx < u.idx → (∀ y ∈ us, y.idx < u.idx → y.idx ≤ x.idx) → Blocked big ret x) ∧
      List.Forall₂ (fun t t' => t'.delta = t.delta ∧ Valid t' ∧ t'.unit = u ∧ ∀ a, Is t a → Is t' a) r0 ret := by
  intro us
  induction us with
  | nil =>
    intro w r0 ret hr _ _ h
    injection h with h
    subst h
    refine ⟨w, le_refl _, Or.inl rfl, by simp, ?_⟩
    rw [List.forall₂_same]
    exact fun t ht => ⟨rfl, (hr t ht).1, (hr t ht).2, fun _ h => h⟩
  | cons u us ih =>
    intro w r0 ret hr hp hlt h
    obtain ⟨hp1, hp2⟩ := List.pairwise_cons.mp hp
    have huw := hlt u (by simp)
    rw [refine] at h
    split at h
    · rename_i nxt hn
      have hf := adjustAll_none hn
      have hok : List.Forall₂ (fun t t' => t ∈ r0 ∧ t'.delta = t.delta ∧ Valid t' ∧ t'.unit = u ∧ ∀ a, Is t a → Is t' a) r0 nxt := by
        refine (forall2_mem hf).imp ?_
        rintro t t' ⟨ht, hadj⟩
        obtain ⟨hfl, hv', _, hex, _⟩ := adjust_ok hb (hr t ht).1 hadj
        refine ⟨ht, hfl.1, hv', hfl.2.1, hex ?_⟩
        rw [(hr t ht).2]
        omega
      have hall : ∀ t' ∈ nxt, Valid t' ∧ t'.unit = u := by
        intro t' ht'
        obtain ⟨t, _, h⟩ := forall2_right hok t' ht'
        exact ⟨h.2.2.1, h.2.2.2.1⟩
      obtain ⟨x, hx1, hx2, hx3, hx4⟩ := ih u nxt ret hall hp2 hp1 h
      refine ⟨x, by omega, ?_, ?_, ?_⟩
      · rcases hx2 with rfl | h
        · exact Or.inr (by simp)
        · exact Or.inr (by simp [h])
      · intro y hy hyx hmax
        rcases List.mem_cons.mp hy with rfl | hy
        · omega
        · exact hx3 y hy hyx fun z hz hzx => hmax z (by simp [hz]) hzx
      · refine (forall2_comp hok hx4).imp ?_
        rintro a c ⟨b, ⟨_, h1, _, _, h4⟩, h5, h6, h7, h8⟩
        exact ⟨by rw [h5, h1], h6, h7, fun x hx => h8 x (h4 x hx)⟩
    · rename_i r hr2
      injection h with h
      subst h
      obtain ⟨_, t, ht, he⟩ := adjustAll_some hr2
      refine ⟨w, le_refl _, Or.inl rfl, ?_, ?_⟩
      · intro x hx hxw hmax
        have : x = u := by
          rcases List.mem_cons.mp hx with rfl | hx'
          · rfl
          · have := hp1 x hx'
            have := hmax u (by simp) huw
            omega
        subst this
        exact ⟨t, ht, adjust_overflow he⟩
      · rw [List.forall₂_same]
        exact fun t ht => ⟨rfl, (hr t ht).1, (hr t ht).2, fun _ h => h⟩
    · cases h

theorem units_pairwise : units.Pairwise fun a b => a.idx < b.idx := by decide

theorem mem_drop {st x : U} (h : st.idx ≤ x.idx) : x ∈ units.drop st.idx := by
  cases st <;> cases x <;> first | (simp [U.idx] at h; done) | decide

theorem mem_take {w x : U} : x ∈ (units.take w.idx).reverse ↔ x.idx < w.idx := by
  cases w <;> cases x <;> decide

theorem drop_first {st w : U} {pre post : List U} (h : units.drop st.idx = pre ++ w :: post) :
    st.idx ≤ w.idx ∧ (pre = [] → w = st) ∧ ∀ x : U, st.idx ≤ x.idx → x.idx < w.idx → x ∈ pre := by
  have hp : (units.drop st.idx).Pairwise fun a b => a.idx < b.idx := units_pairwise.drop
  have hst : ∃ l, units.drop st.idx = st :: l := by
    cases st <;> exact ⟨_, rfl⟩
  obtain ⟨l, hl⟩ := hst
  have hmin : ∀ x ∈ units.drop st.idx, st.idx ≤ x.idx := by
    intro x hx
    rw [hl] at hx hp
    rcases List.mem_cons.mp hx with rfl | hx
    · exact le_refl _
    · exact le_of_lt ((List.pairwise_cons.mp hp).1 x hx)
  refine ⟨hmin w (by rw [h]; simp), ?_, ?_⟩
  · rintro rfl
    rw [hl] at h
    injection h with h
    exact h.symm
  · intro x h1 h2
    have hx := mem_drop h1
    rw [h] at hx hp
    have hp2 := (List.pairwise_append.mp hp).2.1
    rcases List.mem_append.mp hx with hx | hx
    · exact hx
    · rcases List.mem_cons.mp hx with rfl | hx
      · omega
      · have := (List.pairwise_cons.mp hp2).1 x hx
        omega

theorem mostPrecise_ok : ∀ {ts : List Time} {u : U}, mostPrecise ts = .ok u →
    (∃ t ∈ ts, t.unit = u) ∧ ∀ t ∈ ts, u.idx ≤ t.unit.idx := by
  intro ts
  induction ts with
  | nil => intro u h; cases h
  | cons t ts ih =>
    intro u h
    cases ts with
    | nil => injection h with h; subst h; simp
    | cons t2 ts =>
      rw [mostPrecise] at h
      cases hm : mostPrecise (t2 :: ts) with
      | error e => rw [hm] at h; cases h
      | ok x =>
        rw [hm] at h
        injection h with h
        obtain ⟨⟨y, hy, hyx⟩, hall⟩ := ih hm
        split at h
        · rename_i hle
          subst h
          refine ⟨⟨t, by simp, rfl⟩, fun z hz => ?_⟩
          rcases List.mem_cons.mp hz with rfl | hz
          · exact le_refl _
          · exact le_trans hle (hall z hz)
        · subst h
          refine ⟨⟨y, List.mem_cons_of_mem _ hy, hyx⟩, fun z hz => ?_⟩
          rcases List.mem_cons.mp hz with rfl | hz
          · omega
          · exact hall z hz
      all_goals simp

/-- the unit `regularize_time` starts with -/
theorem startUnit_ok {ts : List Time} {unit : Option U} {st : U} (h : startUnit ts unit = .ok st) : Start ts unit st := by
  cases unit with
  | some u => injection h with h; subst h; exact Or.inl rfl
  | none => exact Or.inr ⟨rfl, mostPrecise_ok h⟩

end Viscid.NpTime
