import Verif.Spec.Series
namespace Viscid.Series
open Spec.Series
open A2b (strip)

theorem isDigit_iff (c : Char) : isDigit c = true ↔ Digit c := by
  unfold isDigit Digit
  constructor
  · intro h
    simp only [Bool.and_eq_true, decide_eq_true_eq] at h
    obtain ⟨h1, h2⟩ := h
    have h1' : 48 ≤ c.toNat := h1
    have h2' : c.toNat ≤ 57 := h2
    have : c = Char.ofNat c.toNat := (Char.ofNat_toNat c).symm
    rw [this]
    generalize c.toNat = n at h1' h2'
    have : n = 48 ∨ n = 49 ∨ n = 50 ∨ n = 51 ∨ n = 52 ∨ n = 53 ∨ n = 54 ∨ n = 55 ∨ n = 56 ∨ n = 57 := by omega
    rcases this with h | h | h | h | h | h | h | h | h | h <;> subst h <;> decide
  · intro h
    have : ∀ c ∈ "0123456789".toList, ('0' ≤ c && c ≤ '9') = true := by decide
    exact this c h

theorem number_iff (s : Text) : number s = true ↔ Num s := by
  unfold number Num
  cases s with
  | nil => simp
  | cons a l => simp only [List.isEmpty_cons, Bool.not_false, Bool.true_and, List.all_eq_true, isDigit_iff]; simp

theorem digits_iff (n : Nat) (s : Text) (hn : n ≠ 0) : digits n s = true ↔ Num s ∧ s.length = n := by
  unfold digits Num
  simp only [Bool.and_eq_true, decide_eq_true_eq, List.all_eq_true, isDigit_iff]
  constructor
  · rintro ⟨h, h'⟩
    exact ⟨⟨by rintro rfl; exact hn h.symm, h'⟩, h⟩
  · rintro ⟨⟨_, h⟩, h'⟩
    exact ⟨h', h⟩

theorem plane_iff (t : Text) : plane t = true ↔ Plane t := by
  unfold Plane
  constructor
  · intro h
    unfold plane at h
    split at h
    · rename_i c ds
      simp only [Bool.and_eq_true, Bool.or_eq_true, decide_eq_true_eq, number_iff] at h
      exact ⟨c, ds, by rcases h.1 with (h | h) | h <;> subst h <;> decide, h.2, rfl⟩
    · simp at h
  · rintro ⟨c, n, hc, hn, rfl⟩
    have : ∀ c ∈ "xyz".toList, (decide (c = 'x') || decide (c = 'y') || decide (c = 'z')) = true := by decide
    simp only [plane, Bool.and_eq_true, number_iff]
    exact ⟨this c hc, hn⟩

theorem span_stop (p : Char → Bool) (a : Text) (c : Char) (b : Text) (ha : ∀ x ∈ a, p x = true) (hc : p c = false) : (a ++ c :: b).span p = (a, c :: b) := by
  rw [List.span_eq_takeWhile_dropWhile]
  congr 1
  · rw [List.takeWhile_append_of_pos ha]; simp [hc]
  · rw [List.dropWhile_append_of_pos ha]; simp [hc]

theorem span_spec (p : Char → Bool) (s a : Text) (c : Char) (b : Text) (h : s.span p = (a, c :: b)) : s = a ++ c :: b ∧ (∀ x ∈ a, p x = true) ∧ p c = false := by
  rw [List.span_eq_takeWhile_dropWhile] at h
  have h1 := congrArg Prod.fst h
  have h2 := congrArg Prod.snd h
  dsimp at h1 h2
  refine ⟨?_, ?_, ?_⟩
  · rw [← h1, ← h2, List.takeWhile_append_dropWhile]
  · rw [← h1]
    exact fun x hx => (List.all_eq_true.1 List.all_takeWhile) x hx
  · have := List.head?_dropWhile_not p s
    rw [h2] at this
    simpa using this

theorem lastDot_iff (s u v : Text) : lastDot s = some (u, v) ↔ s = u ++ '.' :: v ∧ '.' ∉ v := by
  unfold lastDot
  constructor
  · intro h
    split at h
    · rename_i a c b hab
      obtain ⟨h1, h2, h3⟩ := span_spec _ _ _ _ _ hab
      simp only [Option.some.injEq, Prod.mk.injEq] at h
      obtain ⟨rfl, rfl⟩ := h
      have hc : c = '.' := by simpa using h3
      subst hc
      refine ⟨?_, ?_⟩
      · have := congrArg List.reverse h1
        simpa using this
      · intro hm
        have := h2 '.' (by simpa using hm)
        simp at this
    · simp at h
  · rintro ⟨rfl, hv⟩
    have : (u ++ '.' :: v).reverse = v.reverse ++ '.' :: u.reverse := by simp
    rw [this, span_stop _ _ _ _ (by intro x hx; simp at hx ⊢; rintro rfl; exact hv hx) (by simp)]
    simp

theorem dots_iff (s : Text) : dots s = true ↔ ∀ c ∈ s, c ≠ '\n' := by
  unfold dots
  simp only [Bool.not_eq_true', List.contains_eq_mem, decide_eq_false_iff_not]
  constructor
  · rintro h c hc rfl; exact h hc
  · intro h hm; exact h _ hm rfl

theorem nodot_num {n : Text} (h : Num n) : '.' ∉ n := by
  intro hm
  have := h.2 _ hm
  revert this; unfold Digit; decide

theorem nodot_plane {t : Text} (h : Plane t) : '.' ∉ t := by
  obtain ⟨c, n, hc, hn, rfl⟩ := h
  have : ∀ c ∈ "xyz".toList, ('.' : Char) ≠ c := by decide
  simp only [List.mem_cons, not_or]
  exact ⟨by decide, this c hc, by decide, nodot_num hn⟩

/-- `typeNumber` for a type that has no dot -/
theorem typeNumber_iff (ty : Text → Bool) (hty : ∀ t, ty t = true → '.' ∉ t) (s : Text) (g : Groups) : typeNumber ty s = some g ↔
    ∃ n, g.num = some n ∧ Num n ∧ n.length = 6 ∧ ty g.ty = true ∧ (∀ c ∈ g.run, c ≠ '\n') ∧ s = g.run ++ ('.' :: g.ty ++ '.' :: n) := by
  unfold typeNumber
  constructor
  · intro h
    split at h
    · simp at h
    · rename_i s1 n h1
      split at h
      · simp at h
      · rename_i run t h2
        split at h
        · rename_i h3
          simp only [Option.some.injEq] at h
          subst h
          simp only [Bool.and_eq_true, digits_iff 6 n (by decide), dots_iff] at h3
          obtain ⟨e1, _⟩ := (lastDot_iff _ _ _).1 h1
          obtain ⟨e2, _⟩ := (lastDot_iff _ _ _).1 h2
          refine ⟨n, rfl, h3.1.1.1, h3.1.1.2, h3.1.2, h3.2, ?_⟩
          rw [e1, e2]; simp
        · simp at h
  · rintro ⟨n, h1, h2, h3, h4, h5, rfl⟩
    obtain ⟨run, t, num⟩ := g
    dsimp only at h1 h4 h5
    subst h1
    have e1 : lastDot (run ++ ('.' :: t ++ '.' :: n)) = some (run ++ '.' :: t, n) := (lastDot_iff _ _ _).2 ⟨by simp, nodot_num h2⟩
    have e2 : lastDot (run ++ '.' :: t) = some (run, t) := (lastDot_iff _ _ _).2 ⟨rfl, hty t h4⟩
    simp only [e1, e2]
    rw [if_pos]
    simp only [Bool.and_eq_true, digits_iff 6 n (by decide), dots_iff]
    exact ⟨⟨⟨h2, h3⟩, h4⟩, h5⟩

theorem nodot_mhd (t : Text) (h : (plane t || decide (t = "3df".toList)) = true) : '.' ∉ t := by
  simp only [Bool.or_eq_true, plane_iff, decide_eq_true_eq] at h
  rcases h with h | rfl
  · exact nodot_plane h
  · decide

theorem nodot_iof (t : Text) (h : decide (t = "iof".toList) = true) : '.' ∉ t := by
  simp only [decide_eq_true_eq] at h
  subst h; decide

theorem nodot_xdmf (t : Text) (h : (plane t || decide (t = "3d".toList) || decide (t = "3df".toList)) = true) : '.' ∉ t := by
  simp only [Bool.or_eq_true, plane_iff, decide_eq_true_eq] at h
  rcases h with (h | rfl) | rfl
  · exact nodot_plane h
  · decide
  · decide

/-- A plane has an underscore, a number does not -/
theorem plane_not_num {t : Text} (h : Plane t ∨ t = "3d".toList ∨ t = "3df".toList) : ¬ Num t := by
  rintro ⟨_, hn⟩
  rcases h with ⟨c, n, _, _, rfl⟩ | rfl | rfl
  · have := hn 'p' (by simp)
    revert this; unfold Digit; decide
  · have := hn 'd' (by decide)
    revert this; unfold Digit; decide
  · have := hn 'd' (by decide)
    revert this; unfold Digit; decide

theorem reverse_eq (s a b : Text) : s.reverse = a ++ b ↔ s = b.reverse ++ a.reverse := by
  rw [← List.reverse_append, List.reverse_eq_iff]

/-- The groups found in a name without white space around it are what its parts are -/
theorem detectCore_iff (k : Kind) (s : Text) (g : Groups) : detectCore k s = some g ↔ ∃ x, Tail k g x ∧ (∀ c ∈ g.run, c ≠ '\n') ∧ s = g.run ++ x := by
  cases k with
  | jrrle =>
    simp only [detectCore, typeNumber_iff _ nodot_mhd, Tail, Bool.or_eq_true, plane_iff, decide_eq_true_eq]
    constructor
    · rintro ⟨n, h1, h2, h3, h4, h5, h6⟩
      exact ⟨_, ⟨n, h1, h2, h3, h4, rfl⟩, h5, h6⟩
    · rintro ⟨x, ⟨n, h1, h2, h3, h4, rfl⟩, h5, h6⟩
      exact ⟨n, h1, h2, h3, h4, h5, h6⟩
  | jrrleIono =>
    simp only [detectCore, typeNumber_iff _ nodot_iof, Tail, decide_eq_true_eq]
    constructor
    · rintro ⟨n, h1, h2, h3, h4, h5, h6⟩
      exact ⟨_, ⟨n, h1, h2, h3, h4, rfl⟩, h5, h6⟩
    · rintro ⟨x, ⟨n, h1, h2, h3, h4, rfl⟩, h5, h6⟩
      exact ⟨n, h1, h2, h3, h4, h5, h6⟩
  | fortbin =>
    simp only [detectCore, Tail]
    constructor
    · intro h
      split at h
      · rename_i c r hs
        split at h
        · rename_i hc
          obtain ⟨n, h1, h2, h3, h4, h5, h6⟩ := (typeNumber_iff _ nodot_mhd _ _).1 h
          simp only [Bool.or_eq_true, plane_iff, decide_eq_true_eq] at h4
          refine ⟨_, ⟨n, c, h1, h2, h3, hc, h4, rfl⟩, h5, ?_⟩
          have := (reverse_eq s ['b', c] r).1 hs
          rw [this, h6]; simp
        · simp at h
      · simp at h
    · rintro ⟨x, ⟨n, c, h1, h2, h3, h4, h5, rfl⟩, h6, h7⟩
      have hs : s.reverse = 'b' :: c :: (g.run ++ ('.' :: g.ty ++ '.' :: n)).reverse := by rw [h7]; simp
      rw [hs]
      simp only [if_pos h4, List.reverse_reverse]
      exact (typeNumber_iff _ nodot_mhd _ _).2 ⟨n, h1, h2, h3, by simpa only [Bool.or_eq_true, plane_iff, decide_eq_true_eq] using h5, h6, rfl⟩
  | fortbinIono =>
    simp only [detectCore, Tail]
    constructor
    · intro h
      split at h
      · rename_i c r hs
        split at h
        · rename_i hc
          obtain ⟨n, h1, h2, h3, h4, h5, h6⟩ := (typeNumber_iff _ nodot_iof _ _).1 h
          simp only [decide_eq_true_eq] at h4
          refine ⟨_, ⟨n, c, h1, h2, h3, hc, h4, rfl⟩, h5, ?_⟩
          have := (reverse_eq s ['b', c] r).1 hs
          rw [this, h6]; simp
        · simp at h
      · simp at h
    · rintro ⟨x, ⟨n, c, h1, h2, h3, h4, h5, rfl⟩, h6, h7⟩
      have hs : s.reverse = 'b' :: c :: (g.run ++ ('.' :: g.ty ++ '.' :: n)).reverse := by rw [h7]; simp
      rw [hs]
      simp only [if_pos h4, List.reverse_reverse]
      exact (typeNumber_iff _ nodot_iof _ _).2 ⟨n, h1, h2, h3, by simpa only [decide_eq_true_eq] using h5, h6, rfl⟩
  | athBin =>
    simp only [detectCore, Tail]
    constructor
    · intro h
      split at h
      · simp at h
      · rename_i s1 e h1
        split at h
        · simp at h
        · rename_i run n h2
          split at h
          · rename_i h3
            simp only [Option.some.injEq] at h
            subst h
            simp only [Bool.and_eq_true, number_iff, dots_iff, decide_eq_true_eq] at h3
            obtain ⟨e1, _⟩ := (lastDot_iff _ _ _).1 h1
            obtain ⟨e2, _⟩ := (lastDot_iff _ _ _).1 h2
            refine ⟨_, ⟨n, rfl, h3.1.1, h3.2, rfl⟩, h3.1.2, ?_⟩
            rw [e1, e2, h3.2]; simp
          · simp at h
    · rintro ⟨x, ⟨n, h1, h2, h3, rfl⟩, h5, rfl⟩
      obtain ⟨run, t, num⟩ := g
      dsimp only at h1 h3 h5
      subst h1 h3
      have e1 : lastDot (run ++ ('.' :: n ++ ".bin".toList)) = some (run ++ '.' :: n, "bin".toList) := (lastDot_iff _ _ _).2 ⟨by simp, by decide⟩
      have e2 : lastDot (run ++ '.' :: n) = some (run, n) := (lastDot_iff _ _ _).2 ⟨rfl, nodot_num h2⟩
      simp only [e1, e2]
      rw [if_pos]
      simp only [Bool.and_eq_true, number_iff, dots_iff, decide_eq_true_eq]
      exact ⟨⟨h2, h5⟩, trivial⟩
  | athTab =>
    simp only [detectCore, Tail]
    constructor
    · intro h
      split at h
      · simp at h
      · rename_i s1 e h1
        split at h
        · simp at h
        · rename_i run n h2
          split at h
          · rename_i h3
            simp only [Option.some.injEq] at h
            subst h
            simp only [Bool.and_eq_true, digits_iff 4 n (by decide), dots_iff, decide_eq_true_eq] at h3
            obtain ⟨e1, _⟩ := (lastDot_iff _ _ _).1 h1
            obtain ⟨e2, _⟩ := (lastDot_iff _ _ _).1 h2
            refine ⟨_, ⟨n, rfl, h3.1.1.1, h3.1.1.2, h3.2, rfl⟩, h3.1.2, ?_⟩
            rw [e1, e2, h3.2]; simp
          · simp at h
    · rintro ⟨x, ⟨n, h1, h2, h4, h3, rfl⟩, h5, rfl⟩
      obtain ⟨run, t, num⟩ := g
      dsimp only at h1 h3 h5
      subst h1 h3
      have e1 : lastDot (run ++ ('.' :: n ++ ".tab".toList)) = some (run ++ '.' :: n, "tab".toList) := (lastDot_iff _ _ _).2 ⟨by simp, by decide⟩
      have e2 : lastDot (run ++ '.' :: n) = some (run, n) := (lastDot_iff _ _ _).2 ⟨rfl, nodot_num h2⟩
      simp only [e1, e2]
      rw [if_pos]
      simp only [Bool.and_eq_true, digits_iff 4 n (by decide), dots_iff, decide_eq_true_eq]
      exact ⟨⟨⟨h2, h4⟩, h5⟩, trivial⟩
  | gkeyll =>
    simp only [detectCore, Tail]
    constructor
    · intro h
      split at h
      · rename_i c r hs
        split at h
        · rename_i n run hr
          split at h
          · rename_i h3
            simp only [Option.some.injEq] at h
            subst h
            simp only [Bool.and_eq_true, dots_iff, decide_eq_true_eq, Bool.not_eq_true', List.isEmpty_eq_false_iff] at h3
            obtain ⟨e1, e2, _⟩ := span_spec _ _ _ _ _ hr
            refine ⟨_, ⟨n.reverse, c, rfl, ⟨by simpa using h3.1.2, ?_⟩, h3.1.1, rfl, rfl⟩, ?_, ?_⟩
            · intro d hd
              exact (isDigit_iff d).1 (e2 d (by simpa using hd))
            · intro d hd
              exact h3.2 d (by simpa using hd)
            · have := (reverse_eq s ['5', 'h', c] r).1 hs
              rw [this, e1]; simp
          · simp at h
        · simp at h
      · simp at h
    · rintro ⟨x, ⟨n, c, h1, h2, h3, h4, rfl⟩, h5, h6⟩
      obtain ⟨run, t, num⟩ := g
      dsimp only at h1 h4 h5 h6
      subst h1 h4
      have hs : s.reverse = '5' :: 'h' :: c :: (n.reverse ++ '_' :: 'q' :: '_' :: run.reverse) := by rw [h6]; simp
      rw [hs]
      simp only
      rw [span_stop _ _ _ _ (by intro d hd; exact (isDigit_iff d).2 (h2.2 d (by simpa using hd))) (by decide)]
      simp only
      rw [if_pos]
      · simp
      · simp only [Bool.and_eq_true, dots_iff, decide_eq_true_eq, Bool.not_eq_true', List.isEmpty_eq_false_iff]
        exact ⟨⟨h3, by simpa using h2.1⟩, fun d hd => h5 d (by simpa using hd)⟩
  | ggcmXdmf =>
    simp only [detectCore, Tail]
    constructor
    · intro h
      split at h
      · simp at h
      · rename_i s1 e h1
        obtain ⟨e1, _⟩ := (lastDot_iff _ _ _).1 h1
        split at h
        · rename_i he
          simp only [Bool.or_eq_true, decide_eq_true_eq] at he
          split at h
          · simp at h
          · rename_i run t h2
            obtain ⟨e2, _⟩ := (lastDot_iff _ _ _).1 h2
            split at h
            · rename_i ht
              simp only [Bool.or_eq_true, decide_eq_true_eq, plane_iff, or_assoc] at ht
              split at h
              · rename_i hd
                simp only [Option.some.injEq] at h
                subst h
                refine ⟨_, ⟨e, he, ht, .inl ⟨rfl, rfl⟩⟩, (dots_iff _).1 hd, ?_⟩
                rw [e1, e2]; simp
              · simp at h
            · obtain ⟨n, g1, g2, g3, g4, g5, g6⟩ := (typeNumber_iff _ nodot_xdmf _ _).1 h
              simp only [Bool.or_eq_true, decide_eq_true_eq, plane_iff, or_assoc] at g4
              refine ⟨_, ⟨e, he, g4, .inr ⟨n, g1, g2, g3, rfl⟩⟩, g5, ?_⟩
              rw [e1, g6]; simp
        · simp at h
    · rintro ⟨x, ⟨e, he, ht, hx⟩, h5, rfl⟩
      obtain ⟨run, t, num⟩ := g
      dsimp only at ht hx h5
      have hde : '.' ∉ e := by rcases he with rfl | rfl <;> decide
      have he' : (decide (e = "xmf".toList) || decide (e = "xdmf".toList)) = true := by simpa only [Bool.or_eq_true, decide_eq_true_eq] using he
      have ht' : (plane t || decide (t = "3d".toList) || decide (t = "3df".toList)) = true := by
        simpa only [Bool.or_eq_true, decide_eq_true_eq, plane_iff, or_assoc] using ht
      rcases hx with ⟨rfl, rfl⟩ | ⟨n, rfl, h2, h3, rfl⟩
      · have e1 : lastDot (run ++ ('.' :: t ++ '.' :: e)) = some (run ++ '.' :: t, e) := (lastDot_iff _ _ _).2 ⟨by simp, hde⟩
        have e2 : lastDot (run ++ '.' :: t) = some (run, t) := (lastDot_iff _ _ _).2 ⟨rfl, nodot_xdmf t ht'⟩
        simp only [e1, e2, if_pos he', if_pos ht', if_pos ((dots_iff run).2 h5)]
      · have e1 : lastDot (run ++ ('.' :: t ++ '.' :: n ++ '.' :: e)) = some (run ++ ('.' :: t ++ '.' :: n), e) := (lastDot_iff _ _ _).2 ⟨by simp, hde⟩
        have e2 : lastDot (run ++ ('.' :: t ++ '.' :: n)) = some (run ++ '.' :: t, n) := (lastDot_iff _ _ _).2 ⟨by simp, nodot_num h2⟩
        have hn : ¬ ((plane n || decide (n = "3d".toList) || decide (n = "3df".toList)) = true) := by
          simp only [Bool.or_eq_true, decide_eq_true_eq, plane_iff, or_assoc]
          exact fun h => plane_not_num h h2
        simp only [e1, e2, if_pos he', if_neg hn]
        exact (typeNumber_iff _ nodot_xdmf _ _).2 ⟨n, rfl, h2, h3, ht', h5, rfl⟩
  | athXdmf =>
    simp only [detectCore, Tail]
    constructor
    · intro h
      split at h
      · rename_i c r hs
        split at h
        · simp at h
        · rename_i run n h2
          split at h
          · rename_i h3
            simp only [Option.some.injEq] at h
            subst h
            simp only [Bool.and_eq_true, number_iff, dots_iff, decide_eq_true_eq] at h3
            obtain ⟨e2, _⟩ := (lastDot_iff _ _ _).1 h2
            refine ⟨_, ⟨n, c, rfl, h3.1.2, h3.1.1, rfl, rfl⟩, h3.2, ?_⟩
            have := (reverse_eq s ['f', 'm', 'd', 'x', c, 'h', 't', 'a', '.'] r).1 hs
            rw [this, e2]; simp
          · simp at h
      · simp at h
    · rintro ⟨x, ⟨n, c, h1, h2, h3, h4, rfl⟩, h5, h6⟩
      obtain ⟨run, t, num⟩ := g
      dsimp only at h1 h4 h5 h6
      subst h1 h4
      have hs : s.reverse = 'f' :: 'm' :: 'd' :: 'x' :: c :: 'h' :: 't' :: 'a' :: '.' :: (run ++ '.' :: n).reverse := by rw [h6]; simp
      have e2 : lastDot (run ++ '.' :: n) = some (run, n) := (lastDot_iff _ _ _).2 ⟨rfl, nodot_num h2⟩
      rw [hs]
      simp only [List.reverse_reverse, e2]
      rw [if_pos]
      simp only [Bool.and_eq_true, number_iff, dots_iff, decide_eq_true_eq]
      exact ⟨⟨h3, h2⟩, h5⟩

/-! ### White space -/

theorem isSpace_iff (c : Char) : A2b.isSpace c = true ↔ Space c := by
  unfold A2b.isSpace Space
  simp only [Bool.or_eq_true, decide_eq_true_eq, List.mem_cons, List.not_mem_nil, or_false, or_assoc]

theorem strip_parts (s : Text) : ∃ a b, (∀ c ∈ a, Space c) ∧ (∀ c ∈ b, Space c) ∧ s = a ++ strip s ++ b ∧ ∀ c, (strip s).head? = some c → ¬ Space c := by
  refine ⟨s.takeWhile A2b.isSpace, ((s.dropWhile A2b.isSpace).reverse.takeWhile A2b.isSpace).reverse, ?_, ?_, ?_, ?_⟩
  · intro c hc
    exact (isSpace_iff c).1 (List.all_eq_true.1 List.all_takeWhile c hc)
  · intro c hc
    exact (isSpace_iff c).1 (List.all_eq_true.1 List.all_takeWhile c (List.mem_reverse.1 hc))
  · unfold A2b.strip
    rw [List.append_assoc, ← List.reverse_append, List.takeWhile_append_dropWhile, List.reverse_reverse, List.takeWhile_append_dropWhile]
  · intro c hc
    have h1 : (s.dropWhile A2b.isSpace) = strip s ++ ((s.dropWhile A2b.isSpace).reverse.takeWhile A2b.isSpace).reverse := by
      unfold A2b.strip
      rw [← List.reverse_append, List.takeWhile_append_dropWhile, List.reverse_reverse]
    have h2 : (s.dropWhile A2b.isSpace).head? = some c := by
      rw [h1]
      cases hs : strip s with
      | nil => rw [hs] at hc; simp at hc
      | cons d l => rw [hs] at hc; simpa using hc
    have h3 := List.head?_dropWhile_not A2b.isSpace s
    rw [h2] at h3
    rw [← isSpace_iff]
    simpa using h3

theorem strip_of (a x b : Text) (c d : Char) (ha : ∀ c ∈ a, Space c) (hb : ∀ c ∈ b, Space c) (hc : x.head? = some c) (hd : x.getLast? = some d) (hc' : ¬ Space c) (hd' : ¬ Space d) :
    strip (a ++ x ++ b) = x := by
  have hc'' : A2b.isSpace c = false := by rw [← Bool.not_eq_true, isSpace_iff]; exact hc'
  have hd'' : A2b.isSpace d = false := by rw [← Bool.not_eq_true, isSpace_iff]; exact hd'
  unfold A2b.strip
  rw [List.append_assoc, List.dropWhile_append_of_pos (fun c h => (isSpace_iff c).2 (ha c h))]
  have h1 : (x ++ b).dropWhile A2b.isSpace = x ++ b := by
    cases x with
    | nil => simp at hc
    | cons y l =>
      simp only [List.head?_cons, Option.some.injEq] at hc
      subst hc
      simp [hc'']
  rw [h1, List.reverse_append, List.dropWhile_append_of_pos (fun c h => (isSpace_iff c).2 (hb c (List.mem_reverse.1 h)))]
  have h2 : x.reverse.dropWhile A2b.isSpace = x.reverse := by
    have : x.reverse.head? = some d := by rw [List.head?_reverse]; exact hd
    cases hx : x.reverse with
    | nil => rw [hx] at this; simp at this
    | cons y l =>
      rw [hx] at this
      simp only [List.head?_cons, Option.some.injEq] at this
      subst this
      simp [hd'']
  rw [h2, List.reverse_reverse]

theorem space_not_digit {c : Char} (h : Digit c) : ¬ Space c := by
  have : ∀ c ∈ "0123456789".toList, c ∉ [' ', '\t', '\n', '\r', '\x0b', '\x0c'] := by decide
  exact this c h

theorem last_num {n : Text} (h : Num n) : ∃ d, n.getLast? = some d ∧ Digit d := by
  refine ⟨n.getLast h.1, List.getLast?_eq_some_getLast h.1, h.2 _ (List.getLast_mem h.1)⟩

/-- What comes after the run neither begins nor ends with white space -/
theorem tail_ends {k : Kind} {g : Groups} {x : Text} (h : Tail k g x) : (∃ c, x.head? = some c ∧ ¬ Space c) ∧ ∃ d, x.getLast? = some d ∧ ¬ Space d := by
  cases k with
  | jrrle =>
    obtain ⟨n, _, h2, _, _, rfl⟩ := h
    obtain ⟨d, h3, h4⟩ := last_num h2
    refine ⟨⟨'.', rfl, by unfold Space; decide⟩, d, ?_, space_not_digit h4⟩
    rw [List.getLast?_append, List.getLast?_cons, h3]; rfl
  | jrrleIono =>
    obtain ⟨n, _, h2, _, _, rfl⟩ := h
    obtain ⟨d, h3, h4⟩ := last_num h2
    refine ⟨⟨'.', rfl, by unfold Space; decide⟩, d, ?_, space_not_digit h4⟩
    rw [List.getLast?_append, List.getLast?_cons, h3]; rfl
  | fortbin =>
    obtain ⟨n, c, _, h2, _, _, _, rfl⟩ := h
    exact ⟨⟨'.', rfl, by unfold Space; decide⟩, 'b', by rw [List.getLast?_append]; rfl, by unfold Space; decide⟩
  | fortbinIono =>
    obtain ⟨n, c, _, h2, _, _, _, rfl⟩ := h
    exact ⟨⟨'.', rfl, by unfold Space; decide⟩, 'b', by rw [List.getLast?_append]; rfl, by unfold Space; decide⟩
  | athBin =>
    obtain ⟨n, _, h2, _, rfl⟩ := h
    exact ⟨⟨'.', rfl, by unfold Space; decide⟩, 'n', by rw [List.getLast?_append]; rfl, by unfold Space; decide⟩
  | athTab =>
    obtain ⟨n, _, h2, _, _, rfl⟩ := h
    exact ⟨⟨'.', rfl, by unfold Space; decide⟩, 'b', by rw [List.getLast?_append]; rfl, by unfold Space; decide⟩
  | gkeyll =>
    obtain ⟨n, c, _, h2, _, _, rfl⟩ := h
    exact ⟨⟨'_', rfl, by unfold Space; decide⟩, '5', by rw [List.getLast?_append]; rfl, by unfold Space; decide⟩
  | ggcmXdmf =>
    obtain ⟨e, he, _, hx⟩ := h
    have hl : e.getLast? = some 'f' := by rcases he with rfl | rfl <;> rfl
    rcases hx with ⟨_, rfl⟩ | ⟨n, _, _, _, rfl⟩
    · refine ⟨⟨'.', rfl, by unfold Space; decide⟩, 'f', ?_, by unfold Space; decide⟩
      rw [List.getLast?_append, List.getLast?_cons, hl]; rfl
    · refine ⟨⟨'.', rfl, by unfold Space; decide⟩, 'f', ?_, by unfold Space; decide⟩
      rw [List.getLast?_append, List.getLast?_cons, hl]; rfl
  | athXdmf =>
    obtain ⟨n, c, _, h2, _, h4, rfl⟩ := h
    refine ⟨⟨'.', rfl, by unfold Space; decide⟩, 'f', ?_, by unfold Space; decide⟩
    rw [h4, List.getLast?_append]; rfl

/-- A name that a run and what comes after it make is not changed by `strip` -/
theorem strip_name {k : Kind} {g : Groups} {x a b : Text} (h : Tail k g x) (hr : ∀ c, g.run.head? = some c → ¬ Space c) (ha : ∀ c ∈ a, Space c) (hb : ∀ c ∈ b, Space c) :
    strip (a ++ (g.run ++ x) ++ b) = g.run ++ x := by
  obtain ⟨⟨c, hc, hc'⟩, d, hd, hd'⟩ := tail_ends h
  have hl : (g.run ++ x).getLast? = some d := by rw [List.getLast?_append, hd]; rfl
  cases hrun : g.run with
  | nil =>
    rw [hrun] at hl
    exact strip_of a _ b c d ha hb hc hl hc' hd'
  | cons e l =>
    rw [hrun] at hl hr
    exact strip_of a _ b e d ha hb rfl hl (hr e rfl) hd'

theorem detect_iff (k : Kind) (s : Text) (g : Groups) : detect k s = some g ↔ Fits k s g := by
  unfold detect
  constructor
  · intro h
    obtain ⟨x, h1, h2, h3⟩ := (detectCore_iff _ _ _).1 h
    obtain ⟨a, b, ha, hb, hs, hh⟩ := strip_parts s
    refine ⟨a, b, x, ha, hb, by rw [← h3]; exact hs, h1, h2, ?_⟩
    intro c hc
    apply hh c
    rw [h3]
    cases hrun : g.run with
    | nil => rw [hrun] at hc; simp at hc
    | cons d l => rw [hrun] at hc; simpa using hc
  · rintro ⟨a, b, x, ha, hb, rfl, h1, h2, h3⟩
    rw [strip_name h1 h3 ha hb]
    exact (detectCore_iff _ _ _).2 ⟨x, h1, h2, rfl⟩

/-! ### The collective name fits no reader that keeps it -/

theorem lastDot_unique {u v u' v' : Text} (h : u ++ '.' :: v = u' ++ '.' :: v') (hv : '.' ∉ v) (hv' : '.' ∉ v') : u = u' ∧ v = v' := by
  have h1 := (lastDot_iff (u ++ '.' :: v) u v).2 ⟨rfl, hv⟩
  have h2 := (lastDot_iff (u ++ '.' :: v) u' v').2 ⟨h, hv'⟩
  rw [h1] at h2
  simpa using h2

theorem iof_not_num : ¬ Num "iof".toList := by
  rintro ⟨_, h⟩
  have := h 'i' (by decide)
  revert this; unfold Digit; decide

theorem star_not_num : ¬ Num "STAR".toList := by
  rintro ⟨_, h⟩
  have := h 'S' (by decide)
  revert this; unfold Digit; decide

theorem detect_collective {k : Kind} (hk : k.isXdmf = false) {s : Text} {g : Groups} (h : Fits k s g) : detect k (collective k g) = none := by
  obtain ⟨a, b, x, -, -, -, ht, -, hr⟩ := h
  rw [Option.eq_none_iff_forall_ne_some]
  intro g' hg'
  rw [detect_iff] at hg'
  obtain ⟨a', b', x', ha', hb', hs, ht', -, hr'⟩ := hg'
  -- the white space around the collective name is empty
  have hstrip : ∀ (y : Text) (d : Char), y.getLast? = some d → ¬ Space d → (∃ c, y.head? = some c ∧ ¬ Space c) → strip (g.run ++ y) = g.run ++ y := by
    intro y d hd hd' ⟨c, hc, hc'⟩
    have hl : (g.run ++ y).getLast? = some d := by rw [List.getLast?_append, hd]; rfl
    cases hrun : g.run with
    | nil =>
      rw [hrun] at hl
      simpa using strip_of [] y [] c d (by simp) (by simp) hc hl hc' hd'
    | cons e l =>
      rw [hrun] at hl hr
      simpa using strip_of [] (e :: l ++ y) [] e d (by simp) (by simp) rfl hl (hr e rfl) hd'
  have hdot : ¬ Space '.' := by unfold Space; decide
  have key : ∀ (y : Text) (d : Char), collective k g = g.run ++ '.' :: y → y.getLast? = some d → ¬ Space d → g.run ++ '.' :: y = g'.run ++ x' := by
    intro y d hy hd hd'
    have h1 := strip_name ht' hr' ha' hb'
    rw [← hs, hy, hstrip ('.' :: y) d (by rw [List.getLast?_cons, hd]; rfl) hd' ⟨'.', rfl, hdot⟩] at h1
    exact h1
  have lastP : ∀ t, Plane t ∨ t = "3df".toList → ∃ d, t.getLast? = some d ∧ ¬ Space d := by
    rintro t (⟨c, n, _, hn, rfl⟩ | rfl)
    · obtain ⟨d, h1, h2⟩ := last_num hn
      refine ⟨d, ?_, space_not_digit h2⟩
      simp [List.getLast?_cons, h1]
    · exact ⟨'f', rfl, by unfold Space; decide⟩
  cases k with
  | jrrle =>
    obtain ⟨n, _, h2, _, h4, rfl⟩ := ht
    obtain ⟨n', _, h2', _, h4', rfl⟩ := ht'
    obtain ⟨d, hd, hd'⟩ := lastP _ h4
    have := key g.ty d rfl hd hd'
    have nd : '.' ∉ g.ty := nodot_mhd _ (by simpa only [Bool.or_eq_true, plane_iff, decide_eq_true_eq] using h4)
    obtain ⟨_, e⟩ := lastDot_unique (u' := g'.run ++ '.' :: g'.ty) (v' := n') (by rw [this]; simp) nd (nodot_num h2')
    rw [e] at h4
    exact plane_not_num (h4.imp_right .inr) h2'
  | jrrleIono =>
    obtain ⟨n, _, h2, _, h4, rfl⟩ := ht
    obtain ⟨n', _, h2', _, h4', rfl⟩ := ht'
    have := key g.ty 'f' rfl (by rw [h4]; rfl) (by unfold Space; decide)
    obtain ⟨_, e⟩ := lastDot_unique (u' := g'.run ++ '.' :: g'.ty) (v' := n') (by rw [this]; simp) (by rw [h4]; decide) (nodot_num h2')
    rw [← e, h4] at h2'
    exact iof_not_num h2'
  | fortbin =>
    obtain ⟨n, c, _, h2, _, _, h4, rfl⟩ := ht
    obtain ⟨n', c', _, h2', _, _, h4', rfl⟩ := ht'
    have := key (g.ty ++ ".b".toList) 'b' (by simp [collective]) (by rw [List.getLast?_append]; rfl) (by unfold Space; decide)
    have this' : (g.run ++ '.' :: g.ty) ++ ['.', 'b'] = (g'.run ++ '.' :: g'.ty ++ '.' :: n') ++ [c', 'b'] := by
      have e : (".b".toList : Text) = ['.', 'b'] := rfl
      rw [e] at this
      simpa using this
    have e1 := (List.append_inj' this' rfl).1
    have nd : '.' ∉ g.ty := nodot_mhd _ (by simpa only [Bool.or_eq_true, plane_iff, decide_eq_true_eq] using h4)
    obtain ⟨_, e⟩ := lastDot_unique e1 nd (nodot_num h2')
    rw [e] at h4
    exact plane_not_num (h4.imp_right .inr) h2'
  | fortbinIono =>
    obtain ⟨n, c, _, h2, _, _, h4, rfl⟩ := ht
    obtain ⟨n', c', _, h2', _, _, h4', rfl⟩ := ht'
    have := key (g.ty ++ ".b".toList) 'b' (by simp [collective]) (by rw [List.getLast?_append]; rfl) (by unfold Space; decide)
    have this' : (g.run ++ '.' :: g.ty) ++ ['.', 'b'] = (g'.run ++ '.' :: g'.ty ++ '.' :: n') ++ [c', 'b'] := by
      have e : (".b".toList : Text) = ['.', 'b'] := rfl
      rw [e] at this
      simpa using this
    have e1 := (List.append_inj' this' rfl).1
    obtain ⟨_, e⟩ := lastDot_unique e1 (by rw [h4]; decide) (nodot_num h2')
    rw [← e, h4] at h2'
    exact iof_not_num h2'
  | athBin =>
    obtain ⟨n, _, h2, h3, rfl⟩ := ht
    obtain ⟨n', _, h2', h3', rfl⟩ := ht'
    have := key ("STAR.".toList ++ g.ty) 'n' (by simp [collective]) (by rw [List.getLast?_append, h3]; rfl) (by unfold Space; decide)
    have this' : (g.run ++ '.' :: "STAR".toList) ++ ".bin".toList = (g'.run ++ '.' :: n') ++ ".bin".toList := by
      rw [h3] at this
      simpa using this
    obtain ⟨_, e⟩ := lastDot_unique (List.append_cancel_right this') (by decide) (nodot_num h2')
    rw [← e] at h2'
    exact star_not_num h2'
  | athTab =>
    obtain ⟨n, _, h2, _, h3, rfl⟩ := ht
    obtain ⟨n', _, h2', _, h3', rfl⟩ := ht'
    have := key ("STAR.".toList ++ g.ty) 'b' (by simp [collective]) (by rw [List.getLast?_append, h3]; rfl) (by unfold Space; decide)
    have this' : (g.run ++ '.' :: "STAR".toList) ++ ".tab".toList = (g'.run ++ '.' :: n') ++ ".tab".toList := by
      rw [h3] at this
      simpa using this
    obtain ⟨_, e⟩ := lastDot_unique (List.append_cancel_right this') (by decide) (nodot_num h2')
    rw [← e] at h2'
    exact star_not_num h2'
  | gkeyll =>
    obtain ⟨n, c, _, h2, _, h3, rfl⟩ := ht
    obtain ⟨n', c', _, h2', _, h3', rfl⟩ := ht'
    have := key (g.ty ++ ".STAR.h5".toList) '5' (by simp [collective]) (by rw [List.getLast?_append]; rfl) (by unfold Space; decide)
    have this' : (g.run ++ '.' :: g.ty ++ ".STAR".toList) ++ ['.', 'h', '5'] = (g'.run ++ "_q_".toList ++ n') ++ [c', 'h', '5'] := by
      simpa using this
    have e1 := (List.append_inj' this' rfl).1
    have e2 := congrArg List.getLast? e1
    obtain ⟨d, hd, hd'⟩ := last_num h2'
    rw [List.getLast?_append (l' := n'), List.getLast?_append (l' := ".STAR".toList), hd] at e2
    have : d = 'R' := by
      have e3 : (".STAR".toList : Text).getLast? = some 'R' := rfl
      rw [e3] at e2
      simpa using e2.symm
    subst this
    revert hd'; unfold Digit; decide
  | ggcmXdmf => simp [Kind.isXdmf] at hk
  | athXdmf => simp [Kind.isXdmf] at hk

/-! ### Entries in order -/

theorem mem_addEntry (l : List (Entry α)) (e x : Entry α) : x ∈ addEntry l e ↔ x ∈ l ∨ x = e := by
  induction l with
  | nil => simp [addEntry]
  | cons y l ih =>
    unfold addEntry
    split
    · simp only [List.mem_cons, ih, or_assoc]
    · simp only [List.mem_cons]
      tauto

theorem addEntry_sorted (l : List (Entry α)) (e : Entry α) (h : l.Pairwise fun a b => a.time ≤ b.time) : (addEntry l e).Pairwise fun a b => a.time ≤ b.time := by
  induction l with
  | nil => simp [addEntry]
  | cons y l ih =>
    rw [List.pairwise_cons] at h
    unfold addEntry
    split
    · rename_i hy
      rw [List.pairwise_cons]
      refine ⟨?_, ih h.2⟩
      intro x hx
      rw [mem_addEntry] at hx
      rcases hx with hx | rfl
      · exact h.1 x hx
      · exact hy
    · rename_i hy
      rw [List.pairwise_cons, List.pairwise_cons]
      refine ⟨?_, h.1, h.2⟩
      intro x hx
      have hy' := le_of_lt (not_le.1 hy)
      rcases List.mem_cons.1 hx with rfl | hx
      · exact hy'
      · exact hy'.trans (h.1 x hx)

theorem addEntry_filter (l : List (Entry α)) (e : Entry α) (t : ℚ) (h : l.Pairwise fun a b => a.time ≤ b.time) :
    (addEntry l e).filter (fun e => e.time = t) = l.filter (fun e => e.time = t) ++ [e].filter (fun e => e.time = t) := by
  induction l with
  | nil => simp [addEntry]
  | cons y l ih =>
    rw [List.pairwise_cons] at h
    unfold addEntry
    split
    · rw [List.filter_cons, List.filter_cons, ih h.2]
      split <;> rfl
    · rename_i hy
      have hy' := not_le.1 hy
      by_cases he : e.time = t
      · have : (y :: l).filter (fun e => decide (e.time = t)) = [] := by
          rw [List.filter_eq_nil_iff]
          intro x hx
          simp only [decide_eq_true_eq]
          intro hxt
          rcases List.mem_cons.1 hx with rfl | hx
          · rw [hxt, he] at hy'; exact lt_irrefl _ hy'
          · have := h.1 x hx
            rw [hxt] at this
            rw [he] at hy'
            exact absurd this (not_le.2 hy')
        rw [this, List.filter_cons, this]
        simp [he]
      · rw [List.filter_cons]
        simp [he]

theorem foldl_inOrder (given acc l : List (Entry α)) (h : InOrder given acc) : InOrder (given ++ l) (l.foldl addEntry acc) := by
  induction l generalizing given acc with
  | nil => simpa using h
  | cons e l ih =>
    have := ih (given ++ [e]) (addEntry acc e) ⟨addEntry_sorted _ _ h.sorted, fun t => by rw [addEntry_filter _ _ _ h.sorted, h.same t, List.filter_append]⟩
    simpa using this

theorem inOrder (l : List (Entry α)) : InOrder l (l.foldl addEntry []) := by
  simpa using foldl_inOrder [] [] l ⟨List.Pairwise.nil, fun _ => rfl⟩

theorem mem_foldl (l acc : List (Entry α)) (x : Entry α) : x ∈ l.foldl addEntry acc ↔ x ∈ acc ∨ x ∈ l := by
  induction l generalizing acc with
  | nil => simp
  | cons e l ih => rw [List.foldl_cons, ih, mem_addEntry, List.mem_cons, or_assoc]

theorem toNum_value (n : Text) : toNum n = value n := by
  unfold toNum value
  rw [List.foldl_map]
  congr 1
  funext v c
  have : '0'.toNat = 48 := rfl
  rw [this, Nat.mul_comm]

end Viscid.Series
