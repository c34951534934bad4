import Verif.Spec.PlotNorm
import Verif.Props.Plot2d
import Mathlib.Tactic.NormNum
import Mathlib.Tactic.Linarith
/-! # C215: limits of colour scales -/
namespace Viscid.Props
open Viscid.PlotNorm Viscid.Spec.PlotNorm

namespace PN

theorem overlay_get (c l : List Lim) (i : Nat) : (overlay c l)[i]? = (l[i]?).or c[i]? := by
  unfold overlay
  by_cases h : i < l.length
  · rw [List.getElem?_append_left h, List.getElem?_eq_getElem h]; rfl
  · rw [List.getElem?_append_right (by omega), List.getElem?_drop, List.getElem?_eq_none (show l.length ≤ i by omega)]
    simp only [Option.none_or]
    congr 1; omega

theorem overlay_length (c l : List Lim) (h : l.length ≤ c.length) : (overlay c l).length = c.length := by
  unfold overlay; simp; omega

theorem put_get (c : List Lim) (o : Opt) (i : Nat) : (put c o)[i]? = (entry (some o) i).or c[i]? := by
  cases o with
  | yes => rfl
  | val x =>
    simp only [put, overlay_get, entry]
    cases i <;> simp
  | list l => simp [put, overlay_get, entry]

theorem put_length (c : List Lim) (o : Opt) (hc : c.length = 2) (h : ∀ l, o = .list l → l.length ≤ 2) : (put c o).length = 2 := by
  cases o with
  | yes => exact hc
  | val x => rw [put, overlay_length _ _ (by simp [hc])]; exact hc
  | list l => rw [put, overlay_length _ _ (by rw [hc]; exact h l rfl)]; exact hc

theorem unNone_means (x : Option Lim) : Means x (unNone (x.getD .none)) := by
  cases x with
  | none => rfl
  | some x =>
    cases x with
    | none => rfl
    | num q => rfl
    | text s => simp only [Means, Option.getD_some, unNone]; split <;> simp

theorem foldl_none (op : ℚ → ℚ → ℚ) (l : List (Option ℚ)) (h : ∀ x, some x ∉ l) :
    l.foldl (fun a x => match a, x with | none, x => x | a, none => a | some a, some x => some (op a x)) none = none := by
  induction l with
  | nil => rfl
  | cons x l ih =>
    cases x with
    | none => exact ih fun x hx => h x (by simp [hx])
    | some x => exact absurd (by simp) (h x)

/-- a fold that keeps the better of two -/
theorem fold_best (op : ℚ → ℚ → ℚ) (R : ℚ → ℚ → Prop) (hr : ∀ a, R a a) (ht : ∀ a b c, R a b → R b c → R a c)
    (h1 : ∀ a b, op a b = a ∨ op a b = b) (h2 : ∀ a b, R (op a b) a ∧ R (op a b) b) (l : List (Option ℚ)) (a : Option ℚ)
    (h : a ≠ none ∨ ∃ x, some x ∈ l) :
    ∃ m, l.foldl (fun a x => match a, x with | none, x => x | a, none => a | some a, some x => some (op a x)) a = some m ∧
      (a = some m ∨ some m ∈ l) ∧ (∀ b, a = some b → R m b) ∧ ∀ x, some x ∈ l → R m x := by
  induction l generalizing a with
  | nil =>
    rcases h with h | ⟨x, h⟩
    · obtain ⟨b, rfl⟩ := Option.ne_none_iff_exists'.1 h
      exact ⟨b, rfl, .inl rfl, fun c e => by cases e; exact hr _, by simp⟩
    · simp at h
  | cons x l ih =>
    rw [List.foldl_cons]
    cases a with
    | none =>
      have h' : x ≠ none ∨ ∃ y, some y ∈ l := by
        rcases h with h | ⟨y, h⟩
        · exact absurd rfl h
        · rcases List.mem_cons.1 h with h | h
          · exact .inl (by rw [← h]; simp)
          · exact .inr ⟨y, h⟩
      obtain ⟨m, e, i1, i2, i3⟩ := ih x h'
      refine ⟨m, e, ?_, by simp, ?_⟩
      · rcases i1 with i1 | i1
        · exact .inr (by simp [i1])
        · exact .inr (by simp [i1])
      · intro y hy
        rcases List.mem_cons.1 hy with hy | hy
        · exact i2 y hy.symm
        · exact i3 y hy
    | some a =>
      cases x with
      | none =>
        obtain ⟨m, e, i1, i2, i3⟩ := ih (some a) (.inl (by simp))
        refine ⟨m, e, ?_, i2, ?_⟩
        · rcases i1 with i1 | i1
          · exact .inl i1
          · exact .inr (by simp [i1])
        · intro y hy
          rcases List.mem_cons.1 hy with hy | hy
          · cases hy
          · exact i3 y hy
      | some x =>
        obtain ⟨m, e, i1, i2, i3⟩ := ih (some (op a x)) (.inl (by simp))
        have ha := i2 _ rfl
        refine ⟨m, e, ?_, ?_, ?_⟩
        · rcases i1 with i1 | i1
          · rcases h1 a x with h | h
            · left; rw [← i1, h]
            · right; rw [← i1, h]; simp
          · exact .inr (by simp [i1])
        · intro b e; cases e; exact ht _ _ _ ha (h2 a x).1
        · intro y hy
          rcases List.mem_cons.1 hy with hy | hy
          · cases hy; exact ht _ _ _ ha (h2 a x).2
          · exact i3 y hy

theorem min_best (l : List (Option ℚ)) (h : ∃ x, some x ∈ l) : ∃ m, nanmin l = .ok (some m) ∧ some m ∈ l ∧ ∀ x, some x ∈ l → m ≤ x := by
  have hne : l ≠ [] := by rintro rfl; obtain ⟨x, h⟩ := h; simp at h
  obtain ⟨m, e, h1, _, h3⟩ := fold_best min (· ≤ ·) (fun a => le_refl a) (fun a b c => le_trans)
    (fun a b => min_choice a b) (fun a b => ⟨min_le_left a b, min_le_right a b⟩) l none (.inr h)
  refine ⟨m, ?_, by simpa using h1, h3⟩
  unfold nanmin; rw [if_neg hne]; exact congrArg Except.ok e

theorem max_best (l : List (Option ℚ)) (h : ∃ x, some x ∈ l) : ∃ m, nanmax l = .ok (some m) ∧ some m ∈ l ∧ ∀ x, some x ∈ l → x ≤ m := by
  have hne : l ≠ [] := by rintro rfl; obtain ⟨x, h⟩ := h; simp at h
  obtain ⟨m, e, h1, _, h3⟩ := fold_best max (· ≥ ·) (fun a => le_refl a) (fun a b c h1 h2 => le_trans h2 h1)
    (fun a b => max_choice a b) (fun a b => ⟨le_max_left a b, le_max_right a b⟩) l none (.inr h)
  refine ⟨m, ?_, by simpa using h1, h3⟩
  unfold nanmax; rw [if_neg hne]; exact congrArg Except.ok e

theorem min_none (l : List (Option ℚ)) (hne : l ≠ []) (h : ∀ x, some x ∉ l) : nanmin l = .ok none := by
  unfold nanmin; rw [if_neg hne]; exact congrArg Except.ok (foldl_none min l h)
theorem max_none (l : List (Option ℚ)) (hne : l ≠ []) (h : ∀ x, some x ∉ l) : nanmax l = .ok none := by
  unfold nanmax; rw [if_neg hne]; exact congrArg Except.ok (foldl_none max l h)

/-- patch by patch, and then the best of the patches -/
theorem patches_best (f : List (Option ℚ) → Except Err (Option ℚ)) (R : ℚ → ℚ → Prop) (ht : ∀ a b c, R a b → R b c → R a c)
    (hf : ∀ l, (∃ x, some x ∈ l) → ∃ m, f l = .ok (some m) ∧ some m ∈ l ∧ ∀ x, some x ∈ l → R m x)
    (hn : ∀ l, l ≠ [] → (∀ x, some x ∉ l) → f l = .ok none) (ps : List (List (Option ℚ))) (hne : ∀ l ∈ ps, l ≠ []) :
    ∃ ms, ps.mapM f = .ok ms ∧ ms.length = ps.length ∧ (∀ m, some m ∈ ms → Vals ps m) ∧ ∀ x, Vals ps x → ∃ m, some m ∈ ms ∧ R m x := by
  induction ps with
  | nil => exact ⟨[], rfl, rfl, by simp, by rintro x ⟨l, h, _⟩; cases h⟩
  | cons l ps ih =>
    obtain ⟨ms, e, h0, h1, h2⟩ := ih fun l hl => hne l (by simp [hl])
    by_cases h : ∃ x, some x ∈ l
    · obtain ⟨m, em, hm, hb⟩ := hf l h
      refine ⟨some m :: ms, ?_, by simp [h0], ?_, ?_⟩
      · rw [List.mapM_cons, em, e]; rfl
      · intro m' hm'
        rcases List.mem_cons.1 hm' with hm' | hm'
        · cases hm'; exact ⟨l, by simp, hm⟩
        · obtain ⟨l', a, b⟩ := h1 m' hm'; exact ⟨l', by simp [a], b⟩
      · rintro x ⟨l', a, b⟩
        rcases List.mem_cons.1 a with rfl | a
        · exact ⟨m, by simp, hb x b⟩
        · obtain ⟨m', c, d⟩ := h2 x ⟨l', a, b⟩
          exact ⟨m', by simp [c], d⟩
    · have h : ∀ x, some x ∉ l := fun x hx => h ⟨x, hx⟩
      refine ⟨none :: ms, ?_, by simp [h0], ?_, ?_⟩
      · rw [List.mapM_cons, hn l (hne l (by simp)) h, e]; rfl
      · intro m' hm'
        rcases List.mem_cons.1 hm' with hm' | hm'
        · cases hm'
        · obtain ⟨l', a, b⟩ := h1 m' hm'; exact ⟨l', by simp [a], b⟩
      · rintro x ⟨l', a, b⟩
        rcases List.mem_cons.1 a with rfl | a
        · exact absurd b (h x)
        · obtain ⟨m', c, d⟩ := h2 x ⟨l', a, b⟩
          exact ⟨m', by simp [c], d⟩

theorem fill_best (f : List (Option ℚ) → Except Err (Option ℚ)) (R : ℚ → ℚ → Prop) (ht : ∀ a b c, R a b → R b c → R a c)
    (hf : ∀ l, (∃ x, some x ∈ l) → ∃ m, f l = .ok (some m) ∧ some m ∈ l ∧ ∀ x, some x ∈ l → R m x)
    (hn : ∀ l, l ≠ [] → (∀ x, some x ∉ l) → f l = .ok none) (ps : List (List (Option ℚ))) (hne : ∀ l ∈ ps, l ≠ []) (hv : ∃ x, Vals ps x) :
    ∃ m, fill f ps .none = .ok (.ok (some m)) ∧ Vals ps m ∧ ∀ x, Vals ps x → R m x := by
  obtain ⟨ms, e, h0, h1, h2⟩ := patches_best f R ht hf hn ps hne
  obtain ⟨x, hx⟩ := hv
  obtain ⟨m0, h3, _⟩ := h2 x hx
  obtain ⟨m, em, hm, hb⟩ := hf ms ⟨m0, h3⟩
  refine ⟨m, ?_, h1 m hm, ?_⟩
  · show (ps.mapM f >>= fun ms => _) = _
    rw [e]; show (f ms >>= fun y => _) = _; rw [em]; rfl
  · intro x hx
    obtain ⟨m', a, b⟩ := h2 x hx
    exact ht _ _ _ (hb m' a) b

theorem fill_nan (f : List (Option ℚ) → Except Err (Option ℚ)) (hn : ∀ l, l ≠ [] → (∀ x, some x ∉ l) → f l = .ok none)
    (hf : ∀ l, (∃ x, some x ∈ l) → ∃ m, f l = .ok (some m) ∧ some m ∈ l ∧ ∀ x, some x ∈ l → True)
    (ps : List (List (Option ℚ))) (hp : ps ≠ []) (hne : ∀ l ∈ ps, l ≠ []) (hv : ∀ x, ¬ Vals ps x) : fill f ps .none = .ok (.ok none) := by
  obtain ⟨ms, e, h0, h1, h2⟩ := patches_best f (fun _ _ => True) (fun _ _ _ _ _ => trivial) hf hn ps hne
  show (ps.mapM f >>= fun ms => _) = _
  rw [e]; show (f ms >>= fun y => _) = _
  have : ms ≠ [] := by
    rintro rfl
    apply hp
    exact List.length_eq_zero_iff.1 h0.symm
  rw [hn ms this fun x hx => hv x (h1 x hx)]; rfl

theorem fill_min {ps : List (List (Option ℚ))} (hne : ∀ l ∈ ps, l ≠ []) (hv : ∃ x, Vals ps x) {a : Lim} {m : ℚ} (h : Limit (Vals ps) Least a m) :
    fill nanmin ps a = .ok (.ok (some m)) := by
  cases a with
  | none =>
    obtain ⟨m', e, h1, h2⟩ := fill_best nanmin (· ≤ ·) (fun a b c => le_trans) min_best min_none ps hne hv
    have : m = m' := le_antisymm (h.2 _ h1) (h2 _ h.1)
    rw [this, e]
  | num q => cases h; rfl
  | text s => cases h

theorem fill_max {ps : List (List (Option ℚ))} (hne : ∀ l ∈ ps, l ≠ []) (hv : ∃ x, Vals ps x) {a : Lim} {m : ℚ} (h : Limit (Vals ps) Greatest a m) :
    fill nanmax ps a = .ok (.ok (some m)) := by
  cases a with
  | none =>
    obtain ⟨m', e, h1, h2⟩ := fill_best nanmax (· ≥ ·) (fun a b c h1 h2 => le_trans h2 h1) max_best max_none ps hne hv
    have : m = m' := le_antisymm (h2 _ h.1) (h.2 _ h1)
    rw [this, e]
  | num q => cases h; rfl
  | text s => cases h

theorem best_exists {ps : List (List (Option ℚ))} (hne : ∀ l ∈ ps, l ≠ []) (hv : ∃ x, Vals ps x) : (∃ m, Least (Vals ps) m) ∧ ∃ m, Greatest (Vals ps) m := by
  obtain ⟨m, _, h1, h2⟩ := fill_best nanmin (· ≤ ·) (fun a b c => le_trans) min_best min_none ps hne hv
  obtain ⟨m', _, h1', h2'⟩ := fill_best nanmax (· ≥ ·) (fun a b c h1 h2 => le_trans h2 h1) max_best max_none ps hne hv
  exact ⟨⟨m, h1, h2⟩, ⟨m', h1', h2'⟩⟩

theorem limits_eq {ps : List (List (Option ℚ))} (hne : ∀ l ∈ ps, l ≠ []) (hv : ∃ x, Vals ps x) (n : Norm) {a b : Lim} {lo hi : ℚ} (hc : n.clim = [a, b])
    (hl : Limit (Vals ps) Least a lo) (hh : Limit (Vals ps) Greatest b hi) :
    limits n ps = (match n.vscale with
      | some .lin => .ok (if n.symmetric then ⟨some (.lin, -1 * max |lo| |hi|, 1 * max |lo| |hi|), false, -1 * max |lo| |hi|, 1 * max |lo| |hi|, false⟩
          else ⟨some (.lin, lo, hi), false, lo, hi, false⟩)
      | some .log =>
        if n.symmetric then .error .value
        else if hi ≤ 0 then .ok ⟨some (.log, 1 / 10 ^ 20, 1 / 10 ^ 20), true, 1 / 10 ^ 20, 1 / 10 ^ 20, false⟩
        else if lo ≤ 0 then .ok ⟨some (.log, hi / 10 ^ 4, hi), true, hi / 10 ^ 4, hi, false⟩
        else .ok ⟨some (.log, lo, hi), false, lo, hi, false⟩
      | none => .ok ⟨none, false, lo, hi, false⟩) := by
  unfold limits
  rw [hc]
  dsimp only
  rw [fill_min hne hv hl, fill_max hne hv hh]
  cases hs : n.vscale with
  | none => rfl
  | some s =>
    cases s with
    | lin => cases hy : n.symmetric <;> rfl
    | log =>
      cases hy : n.symmetric
      · dsimp only [bind, Except.bind, pure, Except.pure]
        by_cases h1 : hi ≤ 0
        · simp [h1]
        · by_cases h2 : lo ≤ 0 <;> simp [h1, h2]
      · rfl

end PN

/-- C215: which limits are asked for: those of `loglog` before those of `log`, `lin`, `vmin` and `vmax`, and `clim`; None (also as a text) is no limit. -/
theorem C215_asked (k : Kw) (h : Short k) :
    ∃ a b, (extract k).clim = [a, b] ∧ Means (asked k 0) a ∧ Means (asked k 1) b := by
  -- the list before the texts are replaced
  have key : ∃ c : List Lim, c.length = 2 ∧ (extract k).clim = c.map unNone ∧ ∀ i, i < 2 → c[i]? = some ((asked k i).getD .none) := by
    obtain ⟨ls, cl, mn, mx, s1, s2, li, lo, ll, nr⟩ := k
    obtain ⟨h1, h2, h3, h4⟩ := h
    dsimp only at h1 h2 h3 h4
    let c0 : List Lim := [.none, .none]
    let c1 := match cl with | none => c0 | some l => overlay c0 l
    let c2 := match mn with | none => c1 | some x => c1.set 0 x
    let c3 := match mx with | none => c2 | some x => c2.set 1 x
    let c4 := match li with | none => c3 | some o => if o = Opt.val (.num 0) then c3 else put c3 o
    let c5 := match lo with | none => c4 | some o => put c4 o
    let c6 := match ll with | none => c5 | some o => put c5 o
    have l1 : c1.length = 2 := by
      cases cl with
      | none => rfl
      | some l => exact PN.overlay_length _ _ (h1 l rfl)
    have l2 : c2.length = 2 := by cases mn <;> simp [c2, l1]
    have l3 : c3.length = 2 := by cases mx <;> simp [c3, l2]
    have l4 : c4.length = 2 := by
      cases li with
      | none => exact l3
      | some o =>
        show (if o = Opt.val (.num 0) then c3 else put c3 o).length = 2
        split
        · exact l3
        · exact PN.put_length _ _ l3 fun l e => h2 l (by rw [e])
    have l5 : c5.length = 2 := by
      cases lo with
      | none => exact l4
      | some o => exact PN.put_length _ _ l4 fun l e => h3 l (by rw [e])
    have l6 : c6.length = 2 := by
      cases ll with
      | none => exact l5
      | some o => exact PN.put_length _ _ l5 fun l e => h4 l (by rw [e])
    refine ⟨c6, l6, ?_, ?_⟩
    · unfold extract
      dsimp only
      cases li with
      | none => cases ls <;> cases cl <;> cases mn <;> cases mx <;> cases lo <;> cases ll <;> cases nr <;> rfl
      | some o =>
        by_cases ho : o = Opt.val (.num 0)
        · simp only [c6, c5, c4, c3, c2, c1, c0, ho, if_true]
          cases ls <;> cases cl <;> cases mn <;> cases mx <;> cases lo <;> cases ll <;> cases nr <;> rfl
        · simp only [c6, c5, c4, c3, c2, c1, c0, ho, if_false]
          cases ls <;> cases cl <;> cases mn <;> cases mx <;> cases lo <;> cases ll <;> cases nr <;> rfl
    · intro i hi
      have g1 : c1[i]? = some ((climEntry cl i).getD .none) := by
        have e0 : c0[i]? = some .none := by rcases i with _ | _ | i <;> [rfl; rfl; omega]
        cases cl with
        | none => exact e0
        | some l => show (overlay c0 l)[i]? = _; rw [PN.overlay_get, e0]; show _ = some ((l[i]?).getD .none); cases l[i]? <;> rfl
      have g3 : c3[i]? = some ((((if i = 0 then mn else if i = 1 then mx else none) : Option Lim).or
          (climEntry cl i)).getD .none) := by
        have g2 : c2[i]? = if i = 0 then (match mn with | none => c1[i]? | some x => some x) else c1[i]? := by
          cases mn with
          | none => show c1[i]? = _; split <;> rfl
          | some x =>
            show (c1.set 0 x)[i]? = _
            split
            · rename_i e; subst e; rw [List.getElem?_set_self (by omega)]
            · rw [List.getElem?_set_ne (by omega)]
        have g3' : c3[i]? = if i = 1 then (match mx with | none => c2[i]? | some x => some x) else c2[i]? := by
          cases mx with
          | none => show c2[i]? = _; split <;> rfl
          | some x =>
            show (c2.set 1 x)[i]? = _
            split
            · rename_i e; subst e; rw [List.getElem?_set_self (by omega)]
            · rw [List.getElem?_set_ne (by omega)]
        rw [g3', g2, g1]
        rcases i with _ | _ | i
        · cases mn <;> simp
        · cases mx <;> simp
        · omega
      have gor : ∀ (o : Option Lim) (r : Option Lim), o.or (some (r.getD .none)) = some ((o.or r).getD .none) := by
        intro o r; cases o <;> rfl
      have g4 : c4[i]? = some (((linEntry li i).or ((((if i = 0 then mn else if i = 1 then mx else none) : Option Lim).or
          (climEntry cl i)))).getD .none) := by
        rw [← gor, ← g3]
        cases li with
        | none => rfl
        | some o =>
          show (if o = Opt.val (.num 0) then c3 else put c3 o)[i]? = _
          unfold linEntry
          split
          · rename_i e; subst e; simp
          · rename_i e; rw [if_neg (by simpa using e)]; exact PN.put_get c3 o i
      have g5 : c5[i]? = some ((entry lo i).or (((linEntry li i).or ((((if i = 0 then mn else if i = 1 then mx else none) : Option Lim).or
          (climEntry cl i))))) |>.getD .none) := by
        rw [← gor, ← g4]
        cases lo with
        | none => rfl
        | some o => exact PN.put_get c4 o i
      show c6[i]? = _
      unfold asked
      dsimp only
      rw [← gor, ← g5]
      cases ll with
      | none => rfl
      | some o => exact PN.put_get c5 o i
  obtain ⟨c, hl, e, hc⟩ := key
  match c, hl with
  | [x, y], _ =>
    have h0 := hc 0 (by omega)
    have h1 := hc 1 (by omega)
    simp only [List.getElem?_cons_zero, List.getElem?_cons_succ, Option.some.injEq] at h0 h1
    refine ⟨unNone x, unNone y, e, ?_, ?_⟩
    · rw [h0]; exact PN.unNone_means _
    · rw [h1]; exact PN.unNone_means _

/-- C215: which scale is used: none with `norescale`, a logarithmic one with `log` or `loglog`, or with `logscale` unless `lin` is given;
and when it is symmetric. -/
theorem C215_scale (k : Kw) :
    ((extract k).vscale = none ↔ k.norescale = true) ∧
    ((extract k).vscale = some .log ↔ k.norescale = false ∧ (k.log ≠ none ∨ k.loglog ≠ none ∨ (k.logscale = true ∧ k.lin = none))) ∧
    ((extract k).symmetric = true ↔ k.sym = true ∨ k.symmetric = true ∨ k.lin = some (.val (.num 0))) ∧
    ((extract k).crdlog = true ↔ k.loglog ≠ none) := by
  obtain ⟨ls, cl, mn, mx, s1, s2, li, lo, ll, nr⟩ := k
  unfold extract
  dsimp only
  cases li with
  | none => cases ls <;> cases cl <;> cases mn <;> cases mx <;> cases lo <;> cases ll <;> cases nr <;> cases s1 <;> cases s2 <;> simp
  | some o =>
    by_cases ho : o = Opt.val (.num 0)
    · subst ho
      cases ls <;> cases cl <;> cases mn <;> cases mx <;> cases lo <;> cases ll <;> cases nr <;> cases s1 <;> cases s2 <;> simp
    · cases ls <;> cases cl <;> cases mn <;> cases mx <;> cases lo <;> cases ll <;> cases nr <;> cases s1 <;> cases s2 <;> simp [ho]

/-- C215: on a linear scale the limits are those asked for, or the least and the greatest number of all patches. -/
theorem C215_lin (n : Norm) (ps : List (List (Option ℚ))) (hne : ∀ l ∈ ps, l ≠ []) (hv : ∃ x, Vals ps x) (a b : Lim) (lo hi : ℚ) (hc : n.clim = [a, b])
    (hl : Limit (Vals ps) Least a lo) (hh : Limit (Vals ps) Greatest b hi) (hs : n.vscale = some .lin) (hy : n.symmetric = false) :
    limits n ps = .ok ⟨some (.lin, lo, hi), false, lo, hi, false⟩ := by
  rw [PN.limits_eq hne hv n hc hl hh, hs, hy]; rfl

/-- C215: a symmetric scale goes as far below zero as above, to the one of the two limits that is farther from zero; without limits asked for, it has all numbers in it,
and one of its ends is reached. -/
theorem C215_sym (n : Norm) (ps : List (List (Option ℚ))) (hne : ∀ l ∈ ps, l ≠ []) (hv : ∃ x, Vals ps x) (hc : n.clim = [.none, .none])
    (hs : n.vscale = some .lin) (hy : n.symmetric = true) :
    ∃ m, limits n ps = .ok ⟨some (.lin, -m, m), false, -m, m, false⟩ ∧ (∀ x, Vals ps x → -m ≤ x ∧ x ≤ m) ∧ (Vals ps m ∨ Vals ps (-m)) := by
  obtain ⟨⟨lo, h1⟩, ⟨hi, h2⟩⟩ := PN.best_exists hne hv
  refine ⟨max |lo| |hi|, ?_, ?_, ?_⟩
  · rw [PN.limits_eq hne hv n hc h1 h2, hs, hy]
    simp
  · intro x hx
    have a := h1.2 x hx
    have b := h2.2 x hx
    have c := neg_abs_le lo
    have d := le_abs_self hi
    have e := le_max_left |lo| |hi|
    have f := le_max_right |lo| |hi|
    constructor <;> linarith
  · rcases max_choice |lo| |hi| with h | h <;> rw [h]
    · rcases abs_choice lo with h | h <;> rw [h]
      · exact .inl h1.1
      · rw [neg_neg]; exact .inr h1.1
    · rcases abs_choice hi with h | h <;> rw [h]
      · exact .inl h2.1
      · rw [neg_neg]; exact .inr h2.1

/-- C215: on a logarithmic scale the limits are the same if they are positive; if only the upper one is, the scale has four decades below it and what is not positive is
masked; it is refused with a symmetric scale. -/
theorem C215_log (n : Norm) (ps : List (List (Option ℚ))) (hne : ∀ l ∈ ps, l ≠ []) (hv : ∃ x, Vals ps x) (a b : Lim) (lo hi : ℚ) (hc : n.clim = [a, b])
    (hl : Limit (Vals ps) Least a lo) (hh : Limit (Vals ps) Greatest b hi) (hs : n.vscale = some .log) :
    (n.symmetric = true → limits n ps = .error .value) ∧
    (n.symmetric = false → 0 < lo → 0 < hi → limits n ps = .ok ⟨some (.log, lo, hi), false, lo, hi, false⟩) ∧
    (n.symmetric = false → lo ≤ 0 → 0 < hi → limits n ps = .ok ⟨some (.log, hi / 10000, hi), true, hi / 10000, hi, false⟩) ∧
    (n.symmetric = false → hi ≤ 0 → ∃ e, 0 < e ∧ limits n ps = .ok ⟨some (.log, e, e), true, e, e, false⟩) := by
  rw [PN.limits_eq hne hv n hc hl hh, hs]
  refine ⟨fun h => by simp [h], fun h h1 h2 => by simp [h, not_le.2 h1, not_le.2 h2], fun h h1 h2 => ?_, fun h h1 => ?_⟩
  · simp only [h, Bool.false_eq_true, if_false, not_le.2 h2, h1, if_true]; norm_num
  · exact ⟨1 / 10 ^ 20, by norm_num, by simp [h, h1]⟩

/-- C215: a field of nothing but nan gets limits that are numbers, with a warning. -/
theorem C215_nan (n : Norm) (ps : List (List (Option ℚ))) (hp : ps ≠ []) (hne : ∀ l ∈ ps, l ≠ []) (hv : ∀ x, ¬ Vals ps x) (hc : n.clim = [.none, .none])
    (hs : n.vscale = some .lin) : ∃ e, limits n ps = .ok ⟨some (.lin, e, e), false, e, e, true⟩ := by
  refine ⟨10 ^ 38, ?_⟩
  have e1 := PN.fill_nan nanmin PN.min_none (fun l h => by obtain ⟨m, a, b, _⟩ := PN.min_best l h; exact ⟨m, a, b, fun _ _ => trivial⟩) ps hp hne hv
  have e2 := PN.fill_nan nanmax PN.max_none (fun l h => by obtain ⟨m, a, b, _⟩ := PN.max_best l h; exact ⟨m, a, b, fun _ _ => trivial⟩) ps hp hne hv
  unfold limits
  rw [hc]
  dsimp only
  rw [e1, e2, hs]
  rfl

/-- C215: more than two limits are refused. -/
theorem C215_many (n : Norm) (ps : List (List (Option ℚ))) (h : n.clim.length ≠ 2) : limits n ps = .error .value := by
  unfold limits
  split
  · rename_i a b e; rw [e] at h; simp at h
  · rfl

/-- C215: a text that is not None is refused as a limit. -/
theorem C215_text (n : Norm) (ps : List (List (Option ℚ))) (hne : ∀ l ∈ ps, l ≠ []) (hv : ∃ x, Vals ps x) (a b : Lim) (s : String) (hc : n.clim = [a, b])
    (h : a = .text s ∨ b = .text s) : limits n ps = .error .type := by
  obtain ⟨⟨lo, h1⟩, ⟨hi, h2⟩⟩ := PN.best_exists hne hv
  unfold limits
  rw [hc]
  dsimp only
  have hb : ∃ r, fill nanmax ps b = .ok r := by
    cases b with
    | none => exact ⟨_, PN.fill_max hne hv h2⟩
    | num q => exact ⟨_, rfl⟩
    | text s => exact ⟨_, rfl⟩
  obtain ⟨r, hr⟩ := hb
  rcases h with rfl | rfl
  · rw [hr]; rfl
  · cases a with
    | none => rw [PN.fill_min (a := .none) hne hv h1]; rfl
    | num q => rfl
    | text s => rfl

/-- C215: with `norescale` no scale is set, and nothing is masked. -/
theorem C215_norescale (k : Kw) (ps : List (List (Option ℚ))) (h : k.norescale = true) (r : Result) (hr : limits (extract k) ps = .ok r) :
    r.norm = none ∧ r.maskneg = false := by
  have hs := (C215_scale k).1.2 h
  generalize extract k = n at hs hr
  unfold limits at hr
  split at hr
  · rename_i a b e
    rw [hs] at hr
    cases ha : fill nanmin ps a with
    | error e => rw [ha] at hr; cases hr
    | ok x =>
      cases hb : fill nanmax ps b with
      | error e => rw [ha, hb] at hr; cases hr
      | ok y =>
        rw [ha, hb] at hr
        cases x with
        | error e => cases hr
        | ok x =>
          cases x with
          | none => cases hr; exact ⟨rfl, rfl⟩
          | some x =>
            cases y with
            | error e => cases hr
            | ok y => cases y <;> cases hr <;> exact ⟨rfl, rfl⟩
  · cases hr

/-- C215: the symmetric colour map is taken if the limits are each other's opposites (and no other map is asked for). -/
theorem C215_map (m : ℚ) : symmetricMap false (-m) m = true ∧ ∀ cmap lo hi, symmetricMap cmap lo hi = true → cmap = false ∧ (lo < 0 → hi > 0) ∧ (hi = 0 → lo = 0) := by
  refine ⟨?_, ?_⟩
  · unfold symmetricMap
    simp
  · intro cmap lo hi h
    unfold symmetricMap at h
    simp only [Bool.and_eq_true, Bool.not_eq_true', decide_eq_true_eq] at h
    refine ⟨h.1, fun hl => ?_, fun hh => ?_⟩
    · have h2 := h.2
      have e : -1 * lo = -lo := by ring
      rw [e, abs_of_pos (by linarith : 0 < -lo), abs_le] at h2
      norm_num at h2
      linarith [h2.1]
    · subst hh
      have h2 := h.2
      have e : (0 : ℚ) - -1 * lo = lo := by ring
      have e' : |(-1 : ℚ) * lo| = |lo| := by rw [show (-1 : ℚ) * lo = -lo by ring, abs_neg]
      rw [e, e'] at h2
      norm_num at h2
      have := abs_nonneg lo
      exact abs_eq_zero.1 (by linarith)

/-- C215 is false: a logarithmic norm that is given is taken for a linear one (so that contours get evenly spaced levels, and the colour bar linear ticks). -/
theorem C215_given_violated : scaleOf .logNorm = .ok .lin ∧ scaleOf .logNorm = scaleOf .normalize := ⟨rfl, rfl⟩

/-- C215 is false: the limits are those of the data before they are multiplied by `scale`: what is drawn of the greatest number, if it is positive, is beyond the upper limit
for every scale above one. -/
theorem C215_scaled_violated (ext : List ℚ → List ℚ) (o : Plot2d.Opts) (f : Plot2d.Fld) (k : Kw) (ps : List (List (Option ℚ))) (s hi : ℚ) (i j : Nat)
    (hk : (extract k).clim = [.none, .none]) (hs : (extract k).vscale = some .lin) (hy : (extract k).symmetric = false)
    (hne : ∀ l ∈ ps, l ≠ []) (hd : ∀ x, Vals ps x ↔ ∃ i j, f.data i j = some x) (hm : f.data i j = some hi) (hg : Greatest (Vals ps) hi) (hpos : 0 < hi)
    (ho : o.scale = some s) (h1 : 1 < s) (hc : f.cell = true) (hst : Spec.Plot2d.Cells o.style) (hn : o.maskneg = false) (hf : o.flip = false) :
    ∃ r p y, limits (extract k) ps = .ok r ∧ (Plot2d.single ext o f).2 = some p ∧ p.dat j i = some y ∧ r.vmax < y := by
  obtain ⟨⟨lo, h2⟩, _⟩ := PN.best_exists hne ⟨hi, hg.1⟩
  obtain ⟨p, hp, sp⟩ := C214_picture ext o f hst hc
  refine ⟨_, p, hi * s, C215_lin _ ps hne ⟨hi, hg.1⟩ _ _ lo hi hk h2 hg hs hy, hp, ?_, ?_⟩
  · unfold Spec.Plot2d.Shows at sp
    simp only [hf, hn, Spec.Plot2d.factors, ho, Bool.false_eq_true, if_false, Option.getD_some] at sp
    have a := sp.2.2 i j
    rw [hm] at a
    simpa [Spec.Plot2d.Shown] using a
  · show hi < hi * s
    nlinarith

example : ∃ a b, (extract { clim := some [.num 1, .num 5], vmin := some (.num 2), log := some (.val (.text "None")) }).clim = [a, b] ∧ a = .none ∧ b = .num 5 := by
  refine ⟨_, _, rfl, rfl, rfl⟩
example : Short { clim := some [.num 1, .num 5], vmin := some (.num 2), lin := some (.list [.num 0, .num 3]) } := by
  refine ⟨?_, ?_, ?_, ?_⟩ <;> intro l h <;> simp at h <;> subst h <;> simp
example : (∀ l ∈ [[some (3 : ℚ), none], [some (-4)]], l ≠ []) ∧ ∃ x, Vals [[some (3 : ℚ), none], [some (-4)]] x :=
  ⟨by simp, 3, _, List.mem_cons_self .., by simp⟩

end Viscid.Props
