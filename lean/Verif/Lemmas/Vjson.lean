import Verif.Model.Vjson
import Verif.Spec.Vjson
/-!
# Lemmas for C30
-/
namespace Viscid.Vjson
open Viscid.Spec.Vjson

/-! ## find_all -/

theorem findFrom_ge (sub : List Char) : ∀ (s : List Char) (i k : Nat), findFrom sub s i = some k → i ≤ k
  | [], i, k, h => by simp [findFrom] at h; omega
  | c :: r, i, k, h => by
    unfold findFrom at h
    split at h
    · simp at h; omega
    · have := findFrom_ge sub r (i+1) k h; omega

/-- Does a comment marker begin here? -/
def marker : List Char → Bool
  | '#' :: _ => true
  | '/' :: '/' :: _ => true
  | _ => false

theorem nextMatch_skip (s : List Char) (c : Char) (r : List Char) (i : Nat) (subs : List (List Char)) (hd : s.drop i = c :: r)
    (h : ∀ sub ∈ subs, sub.isPrefixOf (c :: r) = false) : nextMatch s i subs = nextMatch s (i+1) subs := by
  have hd' : s.drop (i+1) = r := by rw [← List.drop_drop, hd]; rfl
  unfold nextMatch
  rw [hd, hd']
  have : ∀ (l : List (List Char)) (b : Option (Nat × Nat)), (∀ sub ∈ l, sub ∈ subs) →
      List.foldl (fun best sub =>
        match findFrom sub (c :: r) i with
        | none => best
        | some ind =>
          match best with
          | none => some (ind, sub.length)
          | some (m, l) => if ind < m then some (ind, sub.length) else some (m, l)) b l =
      List.foldl (fun best sub =>
        match findFrom sub r (i+1) with
        | none => best
        | some ind =>
          match best with
          | none => some (ind, sub.length)
          | some (m, l) => if ind < m then some (ind, sub.length) else some (m, l)) b l := by
    intro l
    induction l with
    | nil => intro b _; rfl
    | cons a l ih =>
      intro b hl
      rw [List.foldl_cons, List.foldl_cons]
      have : findFrom a (c :: r) i = findFrom a r (i+1) := by
        conv => lhs; unfold findFrom
        rw [h a (hl a (by simp))]
        simp
      rw [this]
      exact ih _ (fun sub hs => hl sub (by simp [hs]))
  exact this subs none (fun _ h => h)

theorem nextMatch_end (s : List Char) (i : Nat) (h : s.drop i = []) (subs : List (List Char)) (hne : ∀ sub ∈ subs, sub ≠ []) :
    nextMatch s i subs = none := by
  unfold nextMatch
  rw [h]
  have : ∀ (l : List (List Char)), (∀ sub ∈ l, sub ≠ []) → List.foldl (fun best sub =>
        match findFrom sub [] i with
        | none => best
        | some ind =>
          match best with
          | none => some (ind, sub.length)
          | some (m, l) => if ind < m then some (ind, sub.length) else some (m, l)) (none : Option (Nat × Nat)) l = none := by
    intro l
    induction l with
    | nil => intro _; rfl
    | cons a l ih =>
      intro hl
      rw [List.foldl_cons]
      have ha : findFrom a [] i = none := by
        have := hl a (by simp)
        cases a with
        | nil => exact absurd rfl this
        | cons => rfl
      rw [ha]
      exact ih (fun sub hs => hl sub (by simp [hs]))
  exact this subs hne

theorem nextMatch_hash (s : List Char) (i : Nat) (r : List Char) (h : s.drop i = '#' :: r) :
    nextMatch s i ["#".toList, "//".toList] = some (i, 1) := by
  unfold nextMatch
  rw [h]
  have h1 : findFrom "#".toList ('#' :: r) i = some i := by simp [findFrom]
  have h2 : findFrom "//".toList ('#' :: r) i = findFrom "//".toList r (i+1) := by simp [findFrom]
  simp only [List.foldl_cons, List.foldl_nil, h1, h2]
  cases hf : findFrom "//".toList r (i+1) with
  | none => rfl
  | some k =>
    have := findFrom_ge _ _ _ _ hf
    simp only
    rw [if_neg (by omega)]
    rfl

theorem nextMatch_slash (s : List Char) (i : Nat) (r : List Char) (h : s.drop i = '/' :: '/' :: r) :
    nextMatch s i ["#".toList, "//".toList] = some (i, 2) := by
  unfold nextMatch
  rw [h]
  have h1 : findFrom "#".toList ('/' :: '/' :: r) i = findFrom "#".toList ('/' :: r) (i+1) := by
    conv => lhs; unfold findFrom
    simp
  have h2 : findFrom "//".toList ('/' :: '/' :: r) i = some i := by simp [findFrom]
  simp only [List.foldl_cons, List.foldl_nil, h1, h2]
  cases hf : findFrom "#".toList ('/' :: r) (i+1) with
  | none => rfl
  | some k =>
    have := findFrom_ge _ _ _ _ hf
    simp only
    rw [if_pos (by omega)]
    rfl

/-- The comment cut as a recursion over the line, with the quotes counted so far. -/
def cutR : Nat → Nat → List Char → List Char
  | _, _, [] => []
  | dq, sq, c :: r =>
    if marker (c :: r) ∧ dq % 2 = 0 ∧ sq % 2 = 0 then []
    else c :: cutR (dq + if c = '"' then 1 else 0) (sq + if c = '\'' then 1 else 0) r

theorem cut_aux (s : List Char) : ∀ (n : Nat) (rest pre : List Char) (f : Nat), rest.length ≤ n → s = pre ++ rest → rest.length + 1 ≤ f →
    (match (findAll s ["#".toList, "//".toList] f pre.length).find?
      (fun loc => (s.take loc).count '"' % 2 == 0 && (s.take loc).count '\'' % 2 == 0) with
      | none => s
      | some loc => s.take loc) = pre ++ cutR (pre.count '"') (pre.count '\'') rest := by
  intro n
  induction n with
  | zero =>
    intro rest pre f hn hs hf
    obtain rfl : rest = [] := List.length_eq_zero_iff.mp (by omega)
    obtain ⟨f, rfl⟩ : ∃ k, f = k + 1 := ⟨f - 1, by omega⟩
    unfold findAll
    rw [nextMatch_end s _ (by rw [hs]; simp) _ (by decide)]
    simp [cutR, hs]
  | succ n ih =>
    intro rest pre f hn hs hf
    obtain ⟨f, rfl⟩ : ∃ k, f = k + 1 := ⟨f - 1, by omega⟩
    match rest, hn, hs, hf with
    | [], hn, hs, hf =>
      unfold findAll
      rw [nextMatch_end s _ (by rw [hs]; simp) _ (by decide)]
      simp [cutR, hs]
    | c :: r, hn, hs, hf =>
      simp only [List.length_cons] at hn hf
      have hdrop : s.drop pre.length = c :: r := by rw [hs]; simp
      have htake : s.take pre.length = pre := by rw [hs]; simp
      by_cases hm : marker (c :: r) = true
      · by_cases he : pre.count '"' % 2 = 0 ∧ pre.count '\'' % 2 = 0
        · have hnx : ∃ l, nextMatch s pre.length ["#".toList, "//".toList] = some (pre.length, l) := by
            unfold marker at hm
            split at hm
            · rename_i heq; obtain ⟨rfl, rfl⟩ := List.cons.inj heq; exact ⟨1, nextMatch_hash s _ _ hdrop⟩
            · rename_i r' heq; obtain ⟨rfl, rfl⟩ := List.cons.inj heq; exact ⟨2, nextMatch_slash s _ r' hdrop⟩
            · exact absurd hm (by simp)
          obtain ⟨l, hl⟩ := hnx
          unfold findAll
          rw [hl]
          simp only [List.find?_cons, htake, he.1, he.2]
          unfold cutR
          rw [if_pos ⟨hm, he⟩]
          simpa using htake
        · unfold cutR
          rw [if_neg (fun h => he h.2)]
          unfold marker at hm
          split at hm
          · rename_i r' heq
            obtain ⟨rfl, rfl⟩ := List.cons.inj heq
            have := ih r (pre ++ ['#']) f (by omega) (by rw [hs]; simp) (by omega)
            unfold findAll
            rw [nextMatch_hash s _ _ hdrop]
            simp only [List.find?_cons, htake]
            have hb : (pre.count '"' % 2 == 0 && pre.count '\'' % 2 == 0) = false := by
              rw [Bool.eq_false_iff]; simpa using he
            rw [hb]
            simp only [List.length_append, List.length_singleton] at this
            simp only
            rw [this]
            simp
          · rename_i r' heq
            obtain ⟨rfl, rfl⟩ := List.cons.inj heq
            simp only [List.length_cons] at hn hf
            have := ih r' (pre ++ ['/', '/']) f (by omega) (by rw [hs]; simp) (by omega)
            unfold findAll
            rw [nextMatch_slash s _ r' hdrop]
            simp only [List.find?_cons, htake]
            have hb : (pre.count '"' % 2 == 0 && pre.count '\'' % 2 == 0) = false := by
              rw [Bool.eq_false_iff]; simpa using he
            rw [hb]
            simp only [List.length_append, List.length_cons, List.length_nil] at this
            simp only
            rw [this]
            simp only [List.count_append]
            conv => rhs; unfold cutR
            rw [if_neg (by simp; intro _ h1; have := fun h2 => he ⟨h1, h2⟩; omega)]
            simp
          · exact absurd hm (by simp)
      · have hskip : findAll s ["#".toList, "//".toList] (f+1) pre.length = findAll s ["#".toList, "//".toList] (f+1) (pre.length + 1) := by
          unfold findAll
          rw [nextMatch_skip s c r _ _ hdrop]
          intro sub hsub
          simp only [List.mem_cons, List.not_mem_nil, or_false] at hsub
          rcases hsub with rfl | rfl
          · rw [Bool.eq_false_iff]; intro h
            apply hm
            simp [List.isPrefixOf] at h
            subst h; rfl
          · rw [Bool.eq_false_iff]; intro h
            apply hm
            cases r with
            | nil => simp [List.isPrefixOf] at h
            | cons d r =>
              simp [List.isPrefixOf] at h
              obtain ⟨rfl, rfl⟩ := h; rfl
        have := ih r (pre ++ [c]) (f+1) (by omega) (by rw [hs]; simp) (by omega)
        rw [hskip]
        simp only [List.length_append, List.length_singleton] at this
        rw [this]
        conv => rhs; unfold cutR
        rw [if_neg (fun h => hm h.1)]
        simp only [List.count_append, List.count_singleton, List.append_assoc, List.singleton_append, beq_iff_eq]

theorem cutComment_eq (s : List Char) : cutComment s = cutR 0 0 s := by
  have := cut_aux s s.length s [] (s.length + 1) (by omega) rfl (by omega)
  unfold cutComment
  exact this

/-! ## Closing brackets -/

theorem isClose_iff (c : Char) : isClose c = true ↔ c = '}' ∨ c = ']' := by simp [isClose]

theorem nextMatch_close (s : List Char) (i : Nat) (c : Char) (r : List Char) (h : s.drop i = c :: r) (hc : isClose c = true) :
    nextMatch s i ["}".toList, "]".toList] = some (i, 1) := by
  unfold nextMatch
  rw [h]
  rcases (isClose_iff c).mp hc with rfl | rfl
  · have h1 : findFrom "}".toList ('}' :: r) i = some i := by simp [findFrom]
    have h2 : findFrom "]".toList ('}' :: r) i = findFrom "]".toList r (i+1) := by simp [findFrom]
    simp only [List.foldl_cons, List.foldl_nil, h1, h2]
    cases hf : findFrom "]".toList r (i+1) with
    | none => rfl
    | some k =>
      have := findFrom_ge _ _ _ _ hf
      simp only
      rw [if_neg (by omega)]
      rfl
  · have h1 : findFrom "}".toList (']' :: r) i = findFrom "}".toList r (i+1) := by simp [findFrom]
    have h2 : findFrom "]".toList (']' :: r) i = some i := by simp [findFrom]
    simp only [List.foldl_cons, List.foldl_nil, h1, h2]
    cases hf : findFrom "}".toList r (i+1) with
    | none => rfl
    | some k =>
      have := findFrom_ge _ _ _ _ hf
      simp only
      rw [if_pos (by omega)]
      rfl

/-- Positions of the closing brackets. -/
def closers : Nat → List Char → List Nat
  | _, [] => []
  | i, c :: r => if isClose c then i :: closers (i+1) r else closers (i+1) r

theorem findAll_closers (s : List Char) : ∀ (rest : List Char) (i f : Nat), s.drop i = rest → rest.length + 1 ≤ f →
    findAll s ["}".toList, "]".toList] f i = closers i rest := by
  intro rest
  induction rest with
  | nil =>
    intro i f hd hf
    obtain ⟨f, rfl⟩ : ∃ k, f = k + 1 := ⟨f - 1, by omega⟩
    unfold findAll
    rw [nextMatch_end s _ hd _ (by decide)]
    rfl
  | cons c r ih =>
    intro i f hd hf
    simp only [List.length_cons] at hf
    have hd' : s.drop (i+1) = r := by rw [← List.drop_drop, hd]; rfl
    unfold closers
    by_cases hc : isClose c = true
    · rw [if_pos hc]
      obtain ⟨f, rfl⟩ : ∃ k, f = k + 1 := ⟨f - 1, by omega⟩
      unfold findAll
      rw [nextMatch_close s i c r hd hc]
      simp only
      rw [ih (i+1) f hd' (by omega)]
    · rw [if_neg hc, ← ih (i+1) f hd' (by omega)]
      obtain ⟨f, rfl⟩ : ∃ k, f = k + 1 := ⟨f - 1, by omega⟩
      unfold findAll
      rw [nextMatch_skip s c r i _ hd]
      intro sub hsub
      simp only [List.mem_cons, List.not_mem_nil, or_false] at hsub
      rw [Bool.eq_false_iff]
      intro h
      apply hc
      rw [isClose_iff]
      rcases hsub with rfl | rfl
      · simp [List.isPrefixOf] at h; exact Or.inl h.symm
      · simp [List.isPrefixOf] at h; exact Or.inr h.symm

theorem closers_shift (s : List Char) : ∀ (i k : Nat), closers (i + k) s = (closers i s).map (· + k) := by
  induction s with
  | nil => intro i k; rfl
  | cons c r ih =>
    intro i k
    unfold closers
    have : i + k + 1 = (i + 1) + k := by omega
    rw [this, ih]
    split <;> rfl

/-! ## rstrip -/

theorem rstrip_nil : rstrip [] = [] := rfl

theorem rstrip_snoc (l : List Char) (c : Char) : rstrip (l ++ [c]) = if pySpace c then rstrip l else l ++ [c] := by
  unfold rstrip
  rw [List.reverse_append]
  simp only [List.reverse_singleton, List.singleton_append, List.dropWhile_cons]
  split <;> simp

theorem dropWhile_nil_iff (p : Char → Bool) : ∀ l : List Char, l.dropWhile p = [] ↔ ∀ x ∈ l, p x = true
  | [] => by simp
  | c :: l => by
    rw [List.dropWhile_cons]
    by_cases h : p c = true
    · rw [if_pos h, dropWhile_nil_iff p l]; simp [h]
    · rw [if_neg h]; simp [h]

theorem filterMap_congr' {f g : Nat → Option Nat} : ∀ {l : List Nat}, (∀ x ∈ l, f x = g x) → l.filterMap f = l.filterMap g
  | [], _ => rfl
  | a :: l, h => by
    rw [List.filterMap_cons, List.filterMap_cons, h a (by simp), filterMap_congr' (fun x hx => h x (by simp [hx]))]

theorem rstrip_eq_nil (l : List Char) : rstrip l = [] ↔ ∀ x ∈ l, pySpace x = true := by
  unfold rstrip
  rw [List.reverse_eq_nil_iff, dropWhile_nil_iff]
  simp

theorem rstrip_cons (c : Char) (l : List Char) :
    rstrip (c :: l) = if rstrip l = [] then (if pySpace c then [] else [c]) else c :: rstrip l := by
  unfold rstrip
  simp only [List.reverse_cons, List.reverse_eq_nil_iff]
  rw [List.dropWhile_append]
  by_cases h : List.dropWhile pySpace l.reverse = []
  · rw [h]
    simp only [List.isEmpty_nil, if_true, List.dropWhile_cons, List.dropWhile_nil]
    split <;> simp
  · rw [if_neg h]
    have : (List.dropWhile pySpace l.reverse).isEmpty = false := by simpa using h
    rw [this]
    simp

theorem rstrip_last (l : List Char) (c : Char) (h : (rstrip l).getLast? = some c) : pySpace c = false := by
  unfold rstrip at h
  rw [List.getLast?_reverse] at h
  have := List.head?_dropWhile_not pySpace l.reverse
  rw [h] at this
  simpa using this

/-- Blanks and then a closing bracket. -/
def closes : List Char → Bool
  | [] => false
  | c :: r => if pySpace c then closes r else isClose c

theorem closes_iff (s : List Char) : closes s = true ↔
    ∃ w c q, s = w ++ c :: q ∧ (∀ x ∈ w, pySpace x = true) ∧ isClose c = true := by
  induction s with
  | nil => simp [closes]
  | cons c r ih =>
    unfold closes
    by_cases hc : pySpace c = true
    · rw [if_pos hc, ih]
      constructor
      · rintro ⟨w, d, q, rfl, hw, hd⟩
        exact ⟨c :: w, d, q, rfl, by simpa [hc] using hw, hd⟩
      · rintro ⟨w, d, q, e, hw, hd⟩
        cases w with
        | nil =>
          obtain ⟨rfl, rfl⟩ := List.cons.inj e
          rcases (isClose_iff c).mp hd with rfl | rfl <;> exact absurd hc (by decide)
        | cons a w =>
          obtain ⟨rfl, rfl⟩ := List.cons.inj e
          exact ⟨w, d, q, rfl, fun x hx => hw x (by simp [hx]), hd⟩
    · rw [if_neg hc]
      constructor
      · intro h; exact ⟨[], c, r, rfl, by simp, h⟩
      · rintro ⟨w, d, q, e, hw, hd⟩
        cases w with
        | nil => obtain ⟨rfl, rfl⟩ := List.cons.inj e; exact hd
        | cons a w => obtain ⟨rfl, rfl⟩ := List.cons.inj e; exact absurd (hw _ (by simp)) hc

/-! ## Which commas are removed -/

/-- The position removed because of the closing bracket at loc. -/
def removal (L : List Char) (loc : Nat) : Option Nat :=
  if rstrip (L.take loc) = [] then none
  else if (rstrip (L.take loc)).getLast? = some ',' then some ((rstrip (L.take loc)).length - 1) else none

def removals (L : List Char) : List Nat := (closers 0 L).filterMap (removal L)

theorem removal_cons (c : Char) (r : List Char) (loc : Nat) :
    removal (c :: r) (loc + 1) =
      if rstrip (r.take loc) = [] then (if c = ',' then some 0 else none) else (removal r loc).map (· + 1) := by
  unfold removal
  rw [List.take_succ_cons, rstrip_cons]
  by_cases h : rstrip (r.take loc) = []
  · simp only [h, if_true]
    by_cases hc : pySpace c = true
    · rw [if_pos hc, if_pos rfl, if_neg]
      rintro rfl; exact absurd hc (by decide)
    · rw [if_neg hc, if_neg (by simp)]
      simp
  · rw [if_neg h, if_neg (by simp), if_neg h, if_neg h, List.getLast?_cons]
    obtain ⟨x, hx⟩ : ∃ x, (rstrip (r.take loc)).getLast? = some x := by
      cases hg : (rstrip (r.take loc)).getLast? with
      | none => exact absurd (List.getLast?_eq_none_iff.mp hg) h
      | some x => exact ⟨x, rfl⟩
    rw [hx]
    have hpos : 0 < (rstrip (r.take loc)).length := List.length_pos_iff.mpr h
    simp only [Option.getD_some]
    split
    · simp; omega
    · rfl

theorem removal_blank (w : List Char) (hw : ∀ x ∈ w, pySpace x = true) (c : Char) (hc : isClose c = true) (q : List Char) :
    closers 0 (w ++ c :: q) = w.length :: closers (w.length + 1) q ∧
    ∀ loc ∈ closers (w.length + 1) q, rstrip ((w ++ c :: q).take loc) ≠ [] := by
  constructor
  · have : ∀ (w : List Char) (i : Nat), (∀ x ∈ w, pySpace x = true) → closers i (w ++ c :: q) = (i + w.length) :: closers (i + w.length + 1) q := by
      intro w
      induction w with
      | nil => intro i _; simp [closers, hc]
      | cons a w ih =>
        intro i h
        have ha : isClose a = false := by
          rw [Bool.eq_false_iff]; intro h'
          have := h a (by simp)
          rcases (isClose_iff a).mp h' with rfl | rfl <;> exact absurd this (by decide)
        rw [List.cons_append]
        conv => lhs; unfold closers
        rw [ha]
        simp only [Bool.false_eq_true, if_false]
        rw [ih (i+1) (fun x hx => h x (by simp [hx]))]
        simp only [List.length_cons]
        rw [show i + 1 + w.length = i + (w.length + 1) by omega]
    have := this w 0 hw
    simpa using this
  · have hge : ∀ (q : List Char) (i loc : Nat), loc ∈ closers i q → i ≤ loc := by
      intro q
      induction q with
      | nil => intro i loc h; simp [closers] at h
      | cons a q ih =>
        intro i loc h
        unfold closers at h
        split at h
        · rcases List.mem_cons.mp h with rfl | h
          · omega
          · have := ih _ _ h; omega
        · have := ih _ _ h; omega
    intro loc hl hnil
    have := hge q _ _ hl
    rw [rstrip_eq_nil] at hnil
    have hmem : c ∈ (w ++ c :: q).take loc := by
      obtain ⟨k, rfl⟩ : ∃ k, loc = w.length + (k + 1) := ⟨loc - w.length - 1, by omega⟩
      rw [List.take_length_add_append]
      simp
    have := hnil c hmem
    rcases (isClose_iff c).mp hc with rfl | rfl <;> exact absurd this (by decide)

theorem not_blank (r : List Char) (h : closes r = false) : ∀ (i : Nat) (pre : List Char) , (∀ x ∈ pre, pySpace x = true) → i = pre.length →
    ∀ loc ∈ closers i r, rstrip ((pre ++ r).take loc) ≠ [] := by
  induction r with
  | nil => intro i pre _ _ loc hl; simp [closers] at hl
  | cons c r ih =>
    intro i pre hp hi loc hl
    unfold closes at h
    by_cases hc : pySpace c = true
    · rw [if_pos hc] at h
      have hcl : isClose c = false := by
        rw [Bool.eq_false_iff]; intro h'
        rcases (isClose_iff c).mp h' with rfl | rfl <;> exact absurd hc (by decide)
      unfold closers at hl
      rw [hcl] at hl
      simp only [Bool.false_eq_true, if_false] at hl
      have := ih h (i+1) (pre ++ [c]) (by
        intro x hx
        rcases List.mem_append.mp hx with hx | hx
        · exact hp x hx
        · rw [List.mem_singleton.mp hx]; exact hc) (by simp [hi]) loc hl
      simpa using this
    · rw [if_neg hc] at h
      unfold closers at hl
      rw [h] at hl
      simp only [Bool.false_eq_true, if_false] at hl
      have hge : ∀ (q : List Char) (i loc : Nat), loc ∈ closers i q → i ≤ loc := by
        intro q
        induction q with
        | nil => intro i loc h; simp [closers] at h
        | cons a q ih =>
          intro i loc h
          unfold closers at h
          split at h
          · rcases List.mem_cons.mp h with rfl | h
            · omega
            · have := ih _ _ h; omega
          · have := ih _ _ h; omega
      have hle := hge _ _ _ hl
      intro hnil
      rw [rstrip_eq_nil] at hnil
      apply hc
      apply hnil
      obtain ⟨k, rfl⟩ : ∃ k, loc = pre.length + (k + 1) := ⟨loc - pre.length - 1, by omega⟩
      rw [List.take_length_add_append]
      simp

theorem removals_cons (c : Char) (r : List Char) :
    removals (c :: r) = (if c = ',' ∧ closes r = true then [0] else []) ++ (removals r).map (· + 1) := by
  have h0 : removal (c :: r) 0 = none := by simp [removal, rstrip_nil]
  have hstep : removals (c :: r) = (closers 0 r).filterMap (fun loc => removal (c :: r) (loc + 1)) := by
    have hcs : closers 0 (c :: r) = if isClose c then 0 :: (closers 0 r).map (· + 1) else (closers 0 r).map (· + 1) := by
      rw [← closers_shift r 0 1]; rfl
    unfold removals
    rw [hcs]
    split
    · rw [List.filterMap_cons, h0]; simp [List.filterMap_map, Function.comp_def]
    · simp [List.filterMap_map, Function.comp_def]
  rw [hstep]
  by_cases hcl : closes r = true
  · obtain ⟨w, d, q, rfl, hw, hd⟩ := (closes_iff r).mp hcl
    obtain ⟨e1, e2⟩ := removal_blank w hw d hd q
    have hwn : rstrip ((w ++ d :: q).take w.length) = [] := by
      rw [rstrip_eq_nil]; simpa using hw
    unfold removals
    rw [e1, List.filterMap_cons, List.filterMap_cons, removal_cons, if_pos hwn]
    have hr : removal (w ++ d :: q) w.length = none := by unfold removal; rw [if_pos hwn]
    rw [hr]
    have hrest : List.filterMap (fun loc => removal (c :: (w ++ d :: q)) (loc + 1)) (closers (w.length + 1) q) =
        List.map (· + 1) (List.filterMap (removal (w ++ d :: q)) (closers (w.length + 1) q)) := by
      rw [List.map_filterMap]
      apply filterMap_congr'
      intro loc hl
      rw [removal_cons, if_neg (e2 loc hl)]
    simp only
    rw [hrest]
    by_cases hcc : c = ','
    · rw [if_pos hcc, if_pos ⟨hcc, hcl⟩]; rfl
    · rw [if_neg hcc, if_neg (fun h => hcc h.1)]; rfl
  · rw [if_neg (fun h => hcl h.2), List.nil_append]
    unfold removals
    rw [List.map_filterMap]
    apply filterMap_congr'
    intro loc hl
    rw [removal_cons, if_neg]
    have := not_blank r (by simpa using hcl) 0 [] (by simp) rfl loc hl
    simpa using this

/-- The line without the commas that stand before blanks and a closing bracket. -/
def strip : List Char → List Char
  | [] => []
  | c :: r => if c = ',' ∧ closes r = true then strip r else c :: strip r

def Asc : Nat → List Nat → Prop
  | _, [] => True
  | j, p :: ps => j ≤ p ∧ Asc (j+1) ps

theorem asc_map : ∀ (ps : List Nat) (j : Nat), Asc j ps → Asc (j+1) (ps.map (· + 1))
  | [], _, _ => trivial
  | p :: ps, j, h => ⟨by have := h.1; simp; omega, asc_map ps (j+1) h.2⟩

theorem asc_weak : ∀ (ps : List Nat) (j : Nat), Asc (j+1) ps → Asc j ps
  | [], _, _ => trivial
  | p :: ps, j, h => ⟨by have := h.1; omega, asc_weak ps (j+1) h.2⟩

theorem asc_removals (L : List Char) : Asc 0 (removals L) := by
  induction L with
  | nil => trivial
  | cons c r ih =>
    rw [removals_cons]
    split
    · exact ⟨Nat.le_refl _, asc_map _ _ ih⟩
    · exact asc_weak _ _ (asc_map _ _ ih)

theorem removeAt_shift : ∀ (ps : List Nat) (j : Nat) (l : List Char), removeAt (j+1) (ps.map (· + 1)) l = removeAt j ps l
  | [], _, _ => rfl
  | p :: ps, j, l => by
    simp only [List.map_cons, removeAt]
    rw [show p + 1 - (j + 1) = p - j by omega, removeAt_shift]

theorem removeAt_cons (c : Char) : ∀ (ps : List Nat) (j : Nat) (l : List Char), Asc j ps →
    removeAt j (ps.map (· + 1)) (c :: l) = c :: removeAt j ps l
  | [], _, _, _ => rfl
  | p :: ps, j, l, h => by
    simp only [List.map_cons, removeAt]
    have := h.1
    rw [show p + 1 - j = (p - j) + 1 by omega, List.take_succ_cons, List.drop_succ_cons, List.cons_append,
      removeAt_cons c ps (j+1) _ h.2]

theorem removeAt_removals (L : List Char) : removeAt 0 (removals L) L = strip L := by
  induction L with
  | nil => rfl
  | cons c r ih =>
    rw [removals_cons]
    unfold strip
    split
    · simp only [List.singleton_append, removeAt]
      rw [removeAt_shift]
      simpa using ih
    · rw [List.nil_append, removeAt_cons c _ _ _ (asc_removals r), ih]

/-! ## The loop over brackets -/

theorem fold_rest (L : List Char) : ∀ (locs : List Nat) (st : Option (List Char) × List Nat),
    (∀ loc ∈ locs, rstrip (L.take loc) ≠ []) →
    locs.foldlM (bracket L) st = some (st.1, st.2 ++ locs.filterMap (removal L)) := by
  intro locs
  induction locs with
  | nil => intro st _; simp
  | cons loc locs ih =>
    intro st h
    rw [List.foldlM_cons, List.filterMap_cons]
    have hl := h loc (by simp)
    by_cases hc : (rstrip (L.take loc)).getLast? = some ','
    · have h1 : bracket L st loc = some (st.1, st.2 ++ [(rstrip (L.take loc)).length - 1]) := by
        unfold bracket; rw [if_neg hl, if_pos hc]
      have h2 : removal L loc = some ((rstrip (L.take loc)).length - 1) := by
        unfold removal; rw [if_neg hl, if_pos hc]
      rw [h1, h2]
      simp only [Option.bind_eq_bind, Option.bind_some]
      rw [ih _ (fun l hl => h l (by simp [hl]))]
      simp
    · have h1 : bracket L st loc = some st := by
        unfold bracket; rw [if_neg hl, if_neg hc]
      have h2 : removal L loc = none := by
        unfold removal; rw [if_neg hl, if_neg hc]
      rw [h1, h2]
      simp only [Option.bind_eq_bind, Option.bind_some]
      rw [ih _ (fun l hl => h l (by simp [hl]))]

/-- A line without its last character if that is a comma. -/
def trimComma (p : List Char) : List Char := if p.getLast? = some ',' then p.dropLast else p

theorem fold_brackets (L : List Char) (prev : Option (List Char)) (hp : ∀ p, prev = some p → p ≠ []) :
    (findAll L ["}".toList, "]".toList] (L.length + 1) 0).foldlM (bracket L) (prev, []) =
      some (if closes L = true then prev.map trimComma else prev, removals L) := by
  rw [findAll_closers L L 0 _ rfl (by omega)]
  by_cases hcl : closes L = true
  · rw [if_pos hcl]
    obtain ⟨w, d, q, rfl, hw, hd⟩ := (closes_iff L).mp hcl
    obtain ⟨e1, e2⟩ := removal_blank w hw d hd q
    have hwn : rstrip ((w ++ d :: q).take w.length) = [] := by
      rw [rstrip_eq_nil]; simpa using hw
    have hb : bracket (w ++ d :: q) (prev, []) w.length = some (prev.map trimComma, []) := by
      unfold bracket
      rw [if_pos hwn]
      cases prev with
      | none => rfl
      | some p =>
        have := hp p rfl
        simp only [Option.map_some, trimComma]
        cases hg : p.getLast? with
        | none => exact absurd (List.getLast?_eq_none_iff.mp hg) this
        | some c =>
          simp only [Option.some.injEq]
          split <;> rfl
    unfold removals
    rw [e1, List.foldlM_cons, hb, List.filterMap_cons]
    have hr : removal (w ++ d :: q) w.length = none := by unfold removal; rw [if_pos hwn]
    rw [hr]
    simp only [Option.bind_eq_bind, Option.bind_some]
    rw [fold_rest _ _ _ e2]
    simp
  · rw [if_neg hcl, fold_rest]
    · simp [removals]
    · intro loc hl
      have := not_blank L (by simpa using hcl) 0 [] (by simp) rfl loc hl
      simpa using this

/-! ## The lexer -/

/-- Tokens as the clean-up needs them: tame strings, no exotic blanks between tokens. -/
def Good : Tok → Prop
  | .str s => Tame pySpace s
  | .punct _ => True
  | .chr c _ => pySpace c = false

theorem ws_blank (c : Char) (h : isWs c = true) : pySpace c = true := by
  simp only [isWs, Bool.or_eq_true, beq_iff_eq] at h
  rcases h with ((rfl | rfl) | rfl) | rfl <;> decide

theorem close_punct (c : Char) (h : isClose c = true) : isPunct c = true ∧ isWs c = false ∧ c ≠ '"' ∧ pySpace c = false := by
  rcases (isClose_iff c).mp h with rfl | rfl <;> decide

theorem punct_not_space (c : Char) (h : isPunct c = true) : pySpace c = false := by
  simp only [isPunct, Bool.or_eq_true, beq_iff_eq] at h
  rcases h with ((((rfl | rfl) | rfl) | rfl) | rfl) | rfl <;> decide

theorem map_some {α β : Type} {f : α → β} {o : Option α} {b : β} (h : o.map f = some b) : ∃ a, o = some a ∧ f a = b := by
  cases o with
  | none => simp at h
  | some a => exact ⟨a, rfl, by simpa using h⟩

/-- A string that is being read becomes the next token. -/
theorem lex_in (r : List Char) : ∀ (a : List Char) (ts : List Tok),
    (lex (.ins a) r = some ts → ∃ s r' ts', ts = .str (a.reverse ++ s) :: ts' ∧ r = s ++ '"' :: r' ∧ lex (.out false) r' = some ts' ∧ '\n' ∉ s) ∧
    (lex (.esc a) r = some ts → ∃ s r' ts', ts = .str (a.reverse ++ s) :: ts' ∧ r = s ++ '"' :: r' ∧ lex (.out false) r' = some ts' ∧ '\n' ∉ s) := by
  induction r with
  | nil => intro a ts; constructor <;> intro h <;> simp [lex] at h
  | cons c r ih =>
    intro a ts
    constructor
    · intro h
      unfold lex at h
      split at h
      · rename_i hc
        obtain ⟨t, h1, rfl⟩ := map_some h
        exact ⟨[], r, t, by simp, by simp [hc], h1, by simp⟩
      · split at h
        · exact absurd h (by simp)
        · rename_i hnl
          split at h
          · obtain ⟨s, r', ts', e1, e2, e3, e4⟩ := (ih (c :: a) ts).2 h
            exact ⟨c :: s, r', ts', by simpa using e1, by simp [e2], e3, by simp; exact ⟨fun h => hnl h.symm, e4⟩⟩
          · obtain ⟨s, r', ts', e1, e2, e3, e4⟩ := (ih (c :: a) ts).1 h
            exact ⟨c :: s, r', ts', by simpa using e1, by simp [e2], e3, by simp; exact ⟨fun h => hnl h.symm, e4⟩⟩
    · intro h
      unfold lex at h
      split at h
      · exact absurd h (by simp)
      · rename_i hnl
        obtain ⟨s, r', ts', e1, e2, e3, e4⟩ := (ih (c :: a) ts).1 h
        exact ⟨c :: s, r', ts', by simpa using e1, by simp [e2], e3, by simp; exact ⟨fun h => hnl h.symm, e4⟩⟩

/-! ### The comment cut -/

/-- The lexer states that go with a mode. -/
def modeOf : St → Mode
  | .out _ => .out
  | .ins _ => .ins
  | .esc _ => .esc

theorem marker_iff (c : Char) (r : List Char) : marker (c :: r) = true ↔ c = '#' ∨ (c = '/' ∧ r.head? = some '/') := by
  unfold marker
  split
  · rename_i heq; obtain ⟨rfl, rfl⟩ := List.cons.inj heq; simp
  · rename_i heq; obtain ⟨rfl, rfl⟩ := List.cons.inj heq; simp
  · rename_i h1 h2
    simp only [Bool.false_eq_true, false_iff]
    rintro (rfl | ⟨rfl, h⟩)
    · exact h1 _ rfl
    · cases r with
      | nil => simp at h
      | cons d r => simp at h; subst h; exact h2 _ rfl

/-- With tame strings the cut is at the first marker outside strings. -/
theorem cut_code : ∀ (l : List Char) (st : St) (dq sq : Nat) (ts : List Tok),
    lex st (code (modeOf st) l) = some ts → (∀ t ∈ ts, Good t) →
    (modeOf st = .out ↔ dq % 2 = 0) →
    (code (modeOf st) l = l ∨ (sq % 2 = 0 ∧ '\'' ∉ code (modeOf st) l)) →
    cutR dq sq l = code (modeOf st) l := by
  intro l
  induction l with
  | nil => intro st dq sq ts _ _ _ _; cases st <;> rfl
  | cons c r ih =>
    intro st dq sq ts hlex hg hpar hap
    cases st with
    | out g =>
      simp only [modeOf] at hlex hpar hap ⊢
      have hdq : dq % 2 = 0 := by simpa using hpar
      unfold cutR
      by_cases hm : marker (c :: r) = true
      · have hm' := (marker_iff c r).mp hm
        have hcode : code .out (c :: r) = [] := by unfold code; rw [if_pos hm']
        rw [hcode] at hap ⊢
        have hsq : sq % 2 = 0 := by
          rcases hap with h | h
          · simp at h
          · exact h.1
        rw [if_pos ⟨hm, hdq, hsq⟩]
      · have hm' : ¬ (c = '#' ∨ (c = '/' ∧ r.head? = some '/')) := fun h => hm ((marker_iff c r).mpr h)
        have hcode : code .out (c :: r) = c :: code (if c = '"' then .ins else .out) r := by
          conv => lhs; unfold code
          rw [if_neg hm']
        rw [if_neg (fun h => hm h.1), hcode]
        rw [hcode] at hap hlex
        congr 1
        have hap' : ∀ m, code m r = code (if c = '"' then .ins else .out) r →
            (code m r = r ∨ ((sq + if c = '\'' then 1 else 0) % 2 = 0 ∧ '\'' ∉ code m r)) := by
          intro m hmm
          rw [hmm]
          rcases hap with h | ⟨h1, h2⟩
          · exact Or.inl (List.cons.inj h).2
          · right
            simp only [List.mem_cons, not_or] at h2
            rw [if_neg (fun h => h2.1 h.symm)]
            exact ⟨h1, h2.2⟩
        by_cases hq : c = '"'
        · rw [if_pos hq] at hlex hap' ⊢
          unfold lex at hlex
          rw [if_pos hq] at hlex
          have := ih (.ins []) (dq + 1) (sq + if c = '\'' then 1 else 0) ts hlex hg
            (by simp only [modeOf]; constructor <;> intro h; · exact absurd h (by decide)
                · omega) (hap' _ rfl)
          simpa [hq, modeOf] using this
        · rw [if_neg hq] at hlex hap' ⊢
          unfold lex at hlex
          rw [if_neg hq] at hlex
          simp only [hq, if_false, Nat.add_zero]
          split at hlex
          · exact ih (.out false) dq _ ts hlex hg (by simpa [modeOf] using hdq) (hap' _ rfl)
          · split at hlex
            · obtain ⟨t, h1, rfl⟩ := map_some hlex
              exact ih (.out false) dq _ t h1 (fun x hx => hg x (by simp [hx])) (by simpa [modeOf] using hdq) (hap' _ rfl)
            · obtain ⟨t, h1, rfl⟩ := map_some hlex
              exact ih (.out true) dq _ t h1 (fun x hx => hg x (by simp [hx])) (by simpa [modeOf] using hdq) (hap' _ rfl)
    | ins a =>
      simp only [modeOf] at hlex hpar hap ⊢
      have hdq : dq % 2 = 1 := by
        have : ¬ dq % 2 = 0 := fun h => absurd (hpar.mpr h) (by decide)
        omega
      have hcode : code .ins (c :: r) = c :: code (if c = '"' then .out else if c = '\\' then .esc else .ins) r := by
        conv => lhs; unfold code
      unfold cutR
      rw [if_neg (fun h => by omega), hcode]
      rw [hcode] at hap hlex
      congr 1
      have hap' : ∀ m, code m r = code (if c = '"' then .out else if c = '\\' then .esc else .ins) r →
          (code m r = r ∨ ((sq + if c = '\'' then 1 else 0) % 2 = 0 ∧ '\'' ∉ code m r)) := by
        intro m hmm
        rw [hmm]
        rcases hap with h | ⟨h1, h2⟩
        · exact Or.inl (List.cons.inj h).2
        · right
          simp only [List.mem_cons, not_or] at h2
          rw [if_neg (fun h => h2.1 h.symm)]
          exact ⟨h1, h2.2⟩
      unfold lex at hlex
      by_cases hq : c = '"'
      · simp only [hq, if_true] at hlex hap' ⊢
        obtain ⟨t, h1, rfl⟩ := map_some hlex
        have := ih (.out false) (dq + 1) (sq + if c = '\'' then 1 else 0) t h1 (fun x hx => hg x (by simp [hx]))
          (by simp only [modeOf]; constructor <;> intro _; · omega
              · trivial) (by simpa [hq, modeOf] using hap' _ rfl)
        simpa [hq, modeOf] using this
      · simp only [hq, if_false, Nat.add_zero] at hlex hap' ⊢
        split at hlex
        · exact absurd hlex (by simp)
        · by_cases hb : c = '\\'
          · simp only [hb, if_true] at hlex hap' ⊢
            have := ih (.esc ('\\' :: a)) dq (sq + if c = '\'' then 1 else 0) ts hlex hg
              (by simp only [modeOf]; constructor <;> intro h; · exact absurd h (by decide)
                  · omega) (by simpa [hb, modeOf] using hap' _ rfl)
            simpa [hb, modeOf] using this
          · simp only [hb, if_false] at hlex hap' ⊢
            exact ih (.ins (c :: a)) dq _ ts hlex hg
              (by simp only [modeOf]; constructor <;> intro h; · exact absurd h (by decide)
                  · omega) (hap' _ rfl)
    | esc a =>
      simp only [modeOf] at hlex hpar hap ⊢
      have hdq : dq % 2 = 1 := by
        have : ¬ dq % 2 = 0 := fun h => absurd (hpar.mpr h) (by decide)
        omega
      have hcode : code .esc (c :: r) = c :: code .ins r := by
        conv => lhs; unfold code
      unfold cutR
      rw [if_neg (fun h => by omega), hcode]
      rw [hcode] at hap hlex
      congr 1
      unfold lex at hlex
      split at hlex
      · exact absurd hlex (by simp)
      · have hq : c ≠ '"' := by
          rintro rfl
          obtain ⟨s, r', ts', e1, _, _, _⟩ := (lex_in _ _ _).1 hlex
          have := hg (.str (('"' :: a).reverse ++ s)) (by rw [e1]; simp)
          exact this.1 (by simp)
        simp only [hq, if_false, Nat.add_zero]
        refine ih (.ins (c :: a)) dq _ ts hlex hg
          (by simp only [modeOf]; constructor <;> intro h; · exact absurd h (by decide)
              · omega) ?_
        simp only [modeOf]
        rcases hap with h | ⟨h1, h2⟩
        · exact Or.inl (List.cons.inj h).2
        · right
          simp only [List.mem_cons, not_or] at h2
          rw [if_neg (fun h => h2.1 h.symm)]
          exact ⟨h1, h2.2⟩

/-! ### Trailing blanks -/

theorem lex_rstrip_space (c : Char) (hc : pySpace c = true) : ∀ (l : List Char) (st : St) (ts : List Tok), lex st (l ++ [c]) = some ts →
    (∀ t ∈ ts, Good t) → lex st l = some ts := by
  have hq : c ≠ '"' := by rintro rfl; exact absurd hc (by decide)
  have hp : isPunct c = false := by
    rw [Bool.eq_false_iff]; intro h; rw [punct_not_space c h] at hc; exact absurd hc (by decide)
  intro l
  induction l with
  | nil =>
    intro st ts h hg
    rw [List.nil_append] at h
    cases st with
    | out g =>
      unfold lex at h
      rw [if_neg hq] at h
      split at h
      · exact h
      · rw [hp] at h
        simp only [Bool.false_eq_true, if_false] at h
        obtain ⟨t, h1, rfl⟩ := map_some h
        have := hg _ (List.mem_cons_self)
        simp only [Good] at this
        rw [hc] at this; exact absurd this (by decide)
    | ins a =>
      obtain ⟨s, r', ts', _, e2, _⟩ := (lex_in _ _ _).1 h
      exfalso
      have : '"' ∈ [c] := by rw [e2]; simp
      exact hq (by simpa using this : '"' = c).symm
    | esc a =>
      obtain ⟨s, r', ts', _, e2, _⟩ := (lex_in _ _ _).2 h
      exfalso
      have : '"' ∈ [c] := by rw [e2]; simp
      exact hq (by simpa using this : '"' = c).symm
  | cons d l ih =>
    intro st ts h hg
    rw [List.cons_append] at h
    cases st with
    | out g =>
      unfold lex at h ⊢
      split at h
      · rw [if_pos (by assumption)]; exact ih _ _ h hg
      · rw [if_neg (by assumption)]
        split at h
        · rw [if_pos (by assumption)]; exact ih _ _ h hg
        · rw [if_neg (by assumption)]
          split at h
          · rw [if_pos (by assumption)]
            obtain ⟨t, h1, rfl⟩ := map_some h
            rw [ih _ _ h1 (fun x hx => hg x (by simp [hx]))]; rfl
          · rw [if_neg (by assumption)]
            obtain ⟨t, h1, rfl⟩ := map_some h
            rw [ih _ _ h1 (fun x hx => hg x (by simp [hx]))]; rfl
    | ins a =>
      unfold lex at h ⊢
      split at h
      · rw [if_pos (by assumption)]
        obtain ⟨t, h1, rfl⟩ := map_some h
        rw [ih _ _ h1 (fun x hx => hg x (by simp [hx]))]; rfl
      · rw [if_neg (by assumption)]
        split at h
        · exact absurd h (by simp)
        · rw [if_neg (by assumption)]
          split at h
          · rw [if_pos (by assumption)]; exact ih _ _ h hg
          · rw [if_neg (by assumption)]; exact ih _ _ h hg
    | esc a =>
      unfold lex at h ⊢
      split at h
      · exact absurd h (by simp)
      · rw [if_neg (by assumption)]; exact ih _ _ h hg

theorem lex_rstrip : ∀ (n : Nat) (l : List Char) (st : St) (ts : List Tok), l.length = n → lex st l = some ts → (∀ t ∈ ts, Good t) →
    lex st (rstrip l) = some ts := by
  intro n
  induction n with
  | zero =>
    intro l st ts hn h _
    obtain rfl := List.length_eq_zero_iff.mp hn
    exact h
  | succ n ih =>
    intro l st ts hn h hg
    obtain ⟨l', c, rfl⟩ : ∃ l' c, l = l' ++ [c] := by
      have hne : l ≠ [] := by rintro rfl; simp at hn
      exact ⟨l.dropLast, l.getLast hne, (List.dropLast_concat_getLast hne).symm⟩
    rw [rstrip_snoc]
    split
    · exact ih l' st ts (by simpa using hn) (lex_rstrip_space c (by assumption) l' st ts h hg) hg
    · exact h

/-! ### Trailing commas within a line -/

theorem lex_glue (r : List Char) (g : Bool) (h : closes r = true) : lex (.out g) r = lex (.out false) r ∨ ∃ c q, r = c :: q ∧ pySpace c = true ∧ isWs c = false := by
  cases r with
  | nil => exact absurd h (by simp [closes])
  | cons c q =>
    by_cases hs : pySpace c = true
    · by_cases hw : isWs c = true
      · left
        have hq : c ≠ '"' := by rintro rfl; exact absurd hs (by decide)
        unfold lex
        rw [if_neg hq, if_neg hq, if_pos hw, if_pos hw]
      · exact Or.inr ⟨c, q, rfl, hs, by simpa using hw⟩
    · left
      unfold closes at h
      rw [if_neg hs] at h
      obtain ⟨h1, h2, h3, _⟩ := close_punct c h
      unfold lex
      rw [if_neg h3, if_neg h3, h2]
      simp only [Bool.false_eq_true, if_false]
      rw [if_pos h1, if_pos h1]

/-- Blanks and a closing bracket give a closing bracket token, and conversely. -/
theorem closes_head : ∀ (r : List Char) (g : Bool) (ts : List Tok), lex (.out g) r = some ts → (∀ t ∈ ts, Good t) →
    (closes r = true ↔ (ts.head? = some (.punct '}') ∨ ts.head? = some (.punct ']'))) := by
  intro r
  induction r with
  | nil => intro g ts h _; simp [lex] at h; subst h; simp [closes]
  | cons c r ih =>
    intro g ts h hg
    unfold lex at h
    unfold closes
    split at h
    · rename_i hc
      obtain ⟨s, r', ts', e1, _⟩ := (lex_in _ _ _).1 h
      subst hc e1
      simp only [List.head?_cons, Option.some.injEq, reduceCtorEq, or_self, iff_false]
      rw [if_neg (by decide)]
      decide
    · split at h
      · rename_i hw
        rw [if_pos (ws_blank c hw)]
        exact ih _ _ h hg
      · split at h
        · rename_i hp
          obtain ⟨t, h1, rfl⟩ := map_some h
          rw [punct_not_space c hp]
          simp only [Bool.false_eq_true, if_false, isClose_iff, List.head?_cons, Option.some.injEq, Tok.punct.injEq]
        · obtain ⟨t, h1, rfl⟩ := map_some h
          have := hg _ List.mem_cons_self
          simp only [Good] at this
          rename_i hp
          rw [this]
          simp only [Bool.false_eq_true, if_false, List.head?_cons, Option.some.injEq, reduceCtorEq, or_self, iff_false]
          intro h'
          exact hp (close_punct c h').1

theorem strip_noop (c : Char) (r : List Char) (h : ¬ (c = ',' ∧ closes r = true)) : strip (c :: r) = c :: strip r := by
  conv => lhs; unfold strip
  rw [if_neg h]

/-- In a tame string no comma is followed by blanks and a closing bracket. -/
theorem tame_not_closes (a s r' : List Char) (h : Tame pySpace (a.reverse ++ ',' :: s)) : closes (s ++ '"' :: r') = false := by
  rw [Bool.eq_false_iff]
  intro hc
  obtain ⟨w, d, q, e, hw, hd⟩ := (closes_iff _).mp hc
  have hdq := close_punct d hd
  have : ∀ (s w : List Char), s ++ '"' :: r' = w ++ d :: q → (∀ x ∈ w, pySpace x = true) → ∃ q', s = w ++ d :: q' := by
    intro s
    induction s with
    | nil =>
      intro w e hw
      cases w with
      | nil => obtain ⟨rfl, _⟩ := List.cons.inj e; exact absurd rfl hdq.2.2.1
      | cons x w =>
        obtain ⟨rfl, _⟩ := List.cons.inj e
        exact absurd (hw _ List.mem_cons_self) (by decide)
    | cons x s ih =>
      intro w e hw
      cases w with
      | nil =>
        obtain ⟨rfl, _⟩ := List.cons.inj e
        exact ⟨s, rfl⟩
      | cons y w =>
        obtain ⟨rfl, e'⟩ := List.cons.inj e
        obtain ⟨q', rfl⟩ := ih w e' (fun x hx => hw x (by simp [hx]))
        exact ⟨q', rfl⟩
  obtain ⟨q', rfl⟩ := this s w e hw
  have := h.2 a.reverse w q' d rfl hw
  rw [hd] at this
  exact absurd this (by decide)

theorem lex_strip : ∀ (l : List Char) (st : St) (ts : List Tok), lex st l = some ts → (∀ t ∈ ts, Good t) →
    lex st (strip l) = some (dropTrailing ts) := by
  intro l
  induction l with
  | nil =>
    intro st ts h _
    cases st with
    | out g => simp [lex] at h; subst h; rfl
    | ins a => simp [lex] at h
    | esc a => simp [lex] at h
  | cons c r ih =>
    intro st ts h hg
    cases st with
    | out g =>
      by_cases hcomma : c = ',' ∧ closes r = true
      · obtain ⟨rfl, hcl⟩ := hcomma
        have hs : strip (',' :: r) = strip r := by
          conv => lhs; unfold strip
          rw [if_pos ⟨rfl, hcl⟩]
        have hl : lex (.out g) (',' :: r) = (lex (.out false) r).map (.punct ',' :: ·) := by
          conv => lhs; unfold lex
          rw [if_neg (by decide), if_neg (by decide), if_pos (by decide)]
        rw [hl] at h
        obtain ⟨t, h1, rfl⟩ := map_some h
        have hg' : ∀ x ∈ t, Good x := fun x hx => hg x (by simp [hx])
        have hh := (closes_head r false t h1 hg').mp hcl
        rw [hs]
        have hd : dropTrailing (.punct ',' :: t) = dropTrailing t := by
          conv => lhs; unfold dropTrailing
          rw [if_pos ⟨rfl, hh⟩]
        rw [hd]
        rcases lex_glue r g hcl with e | ⟨d, q, rfl, h2, h3⟩
        · exact ih (.out g) t (by rw [e]; exact h1) hg'
        · exfalso
          unfold lex at h1
          have hq : d ≠ '"' := by rintro rfl; exact absurd h2 (by decide)
          have hp : isPunct d = false := by
            rw [Bool.eq_false_iff]; intro h; rw [punct_not_space d h] at h2; exact absurd h2 (by decide)
          rw [if_neg hq, h3, hp] at h1
          simp only [Bool.false_eq_true, if_false] at h1
          obtain ⟨t', _, rfl⟩ := map_some h1
          have := hg' _ List.mem_cons_self
          simp only [Good] at this
          rw [h2] at this; exact absurd this (by decide)
      · rw [strip_noop c r hcomma]
        unfold lex at h ⊢
        split at h
        · rw [if_pos (by assumption)]; exact ih _ _ h hg
        · rw [if_neg (by assumption)]
          split at h
          · rw [if_pos (by assumption)]; exact ih _ _ h hg
          · rw [if_neg (by assumption)]
            split at h
            · rw [if_pos (by assumption)]
              obtain ⟨t, h1, rfl⟩ := map_some h
              have hg' : ∀ x ∈ t, Good x := fun x hx => hg x (by simp [hx])
              rw [ih _ _ h1 hg']
              have hd : dropTrailing (.punct c :: t) = .punct c :: dropTrailing t := by
                conv => lhs; unfold dropTrailing
                rw [if_neg]
                rintro ⟨h2, h3⟩
                exact hcomma ⟨by simpa using h2, (closes_head r false t h1 hg').mpr h3⟩
              rw [hd]; rfl
            · rw [if_neg (by assumption)]
              obtain ⟨t, h1, rfl⟩ := map_some h
              rw [ih _ _ h1 (fun x hx => hg x (by simp [hx]))]
              have hd : dropTrailing (.chr c g :: t) = .chr c g :: dropTrailing t := by
                conv => lhs; unfold dropTrailing
                rw [if_neg (by simp)]
              rw [hd]; rfl
    | ins a =>
      have hno : ¬ (c = ',' ∧ closes r = true) := by
        rintro ⟨rfl, hcl⟩
        unfold lex at h
        rw [if_neg (by decide), if_neg (by decide), if_neg (by decide)] at h
        obtain ⟨s, r', ts', e1, e2, _⟩ := (lex_in _ _ _).1 h
        have hT : Tame pySpace ((',' :: a).reverse ++ s) := hg (.str ((',' :: a).reverse ++ s)) (by rw [e1]; simp)
        have := tame_not_closes a s r' (by simpa using hT)
        rw [← e2, hcl] at this
        exact absurd this (by decide)
      rw [strip_noop c r hno]
      unfold lex at h ⊢
      split at h
      · rw [if_pos (by assumption)]
        obtain ⟨t, h1, rfl⟩ := map_some h
        rw [ih _ _ h1 (fun x hx => hg x (by simp [hx]))]
        have hd : dropTrailing (.str a.reverse :: t) = .str a.reverse :: dropTrailing t := by
          conv => lhs; unfold dropTrailing
          rw [if_neg (by simp)]
        rw [hd]; rfl
      · rw [if_neg (by assumption)]
        split at h
        · exact absurd h (by simp)
        · rw [if_neg (by assumption)]
          split at h
          · rw [if_pos (by assumption)]; exact ih _ _ h hg
          · rw [if_neg (by assumption)]; exact ih _ _ h hg
    | esc a =>
      have hno : ¬ (c = ',' ∧ closes r = true) := by
        rintro ⟨rfl, hcl⟩
        unfold lex at h
        rw [if_neg (by decide)] at h
        obtain ⟨s, r', ts', e1, e2, _⟩ := (lex_in _ _ _).1 h
        have hT : Tame pySpace ((',' :: a).reverse ++ s) := hg (.str ((',' :: a).reverse ++ s)) (by rw [e1]; simp)
        have := tame_not_closes a s r' (by simpa using hT)
        rw [← e2, hcl] at this
        exact absurd this (by decide)
      rw [strip_noop c r hno]
      unfold lex at h ⊢
      split at h
      · exact absurd h (by simp)
      · rw [if_neg (by assumption)]; exact ih _ _ h hg

/-! ## Lines -/

def lexLines : List (List Char) → Option (List Tok)
  | [] => some []
  | l :: ls => (lex (.out false) l).bind fun t => (lexLines ls).map (t ++ ·)

theorem lex_nl (rest : List Char) : ∀ (l : List Char) (st : St), lex st (l ++ '\n' :: rest) =
    (lex st l).bind fun t => (lex (.out false) rest).map (t ++ ·) := by
  obtain ⟨R, hR⟩ : ∃ R, lex (.out false) rest = R := ⟨_, rfl⟩
  rw [hR]
  intro l
  induction l with
  | nil =>
    intro st
    cases st with
    | out g => simp [lex, isWs, hR]
    | ins a => simp [lex]
    | esc a => simp [lex]
  | cons c l ih =>
    intro st
    rw [List.cons_append]
    cases st with
    | out g =>
      unfold lex
      split
      · exact ih _
      · split
        · exact ih _
        · split
          · rw [ih]
            cases lex (.out false) l <;> cases R <;> simp
          · rw [ih]
            cases lex (.out true) l <;> cases R <;> simp
    | ins a =>
      unfold lex
      split
      · rw [ih]
        cases lex (.out false) l <;> cases R <;> simp
      · split
        · rfl
        · split
          · exact ih _
          · exact ih _
    | esc a =>
      unfold lex
      split
      · rfl
      · exact ih _

theorem lex_join : ∀ ls : List (List Char), tokens (joinLines ls) = lexLines ls
  | [] => rfl
  | [l] => by
    unfold joinLines tokens lexLines lexLines
    cases lex (.out false) l <;> simp
  | l :: m :: ls => by
    have ih := lex_join (m :: ls)
    unfold tokens at ih
    unfold joinLines tokens lexLines
    rw [lex_nl, ih]

theorem join_split : ∀ text : List Char, splitLines text ≠ [] ∧ joinLines (splitLines text) = text
  | [] => ⟨by simp [splitLines], rfl⟩
  | c :: r => by
    obtain ⟨h1, h2⟩ := join_split r
    unfold splitLines
    obtain ⟨l, ls, e⟩ : ∃ l ls, splitLines r = l :: ls := by
      cases hs : splitLines r with
      | nil => exact absurd hs h1
      | cons l ls => exact ⟨l, ls, rfl⟩
    rw [e] at h2 ⊢
    split
    · rename_i hc
      refine ⟨by simp, ?_⟩
      subst hc
      show [] ++ '\n' :: joinLines (l :: ls) = _
      rw [h2]; rfl
    · refine ⟨by simp, ?_⟩
      cases ls with
      | nil => simpa [joinLines] using h2
      | cons m ls => simpa [joinLines] using h2

theorem lexLines_append : ∀ (a b : List (List Char)), lexLines (a ++ b) = (lexLines a).bind fun t => (lexLines b).map (t ++ ·)
  | [], b => by simp [lexLines]
  | l :: a, b => by
    rw [List.cons_append]
    simp only [lexLines]
    rw [lexLines_append a b]
    cases lex (.out false) l <;> cases lexLines a <;> cases lexLines b <;> simp

theorem lexLines_empty : ∀ B : List (List Char), (∀ b ∈ B, b = []) → lexLines B = some []
  | [], _ => rfl
  | b :: B, h => by
    rw [h b (by simp)]
    simp only [lexLines]
    rw [lexLines_empty B (fun x hx => h x (by simp [hx]))]
    simp [lex]

theorem lex_last (c : Char) (hw : isWs c = false) : ∀ (q : List Char) (st : St) (tp : List Tok), lex st (q ++ [c]) = some tp →
    tp ≠ [] ∧ (tp.getLast? = some (.punct ',') ↔ c = ',') ∧ (c = ',' → lex st q = some tp.dropLast) := by
  intro q
  induction q with
  | nil =>
    intro st tp h
    rw [List.nil_append] at h
    cases st with
    | out g =>
      unfold lex at h
      split at h
      · simp [lex] at h
      · rw [hw] at h
        simp only [Bool.false_eq_true, if_false] at h
        split at h
        · obtain ⟨t, h1, rfl⟩ := map_some h
          simp [lex] at h1
          subst h1
          refine ⟨by simp, by simp, fun _ => rfl⟩
        · rename_i hp
          obtain ⟨t, h1, rfl⟩ := map_some h
          simp [lex] at h1
          subst h1
          refine ⟨by simp, ?_, ?_⟩
          · simp only [List.getLast?_singleton, Option.some.injEq, reduceCtorEq, false_iff]
            rintro rfl; exact hp (by decide)
          · rintro rfl; exact absurd (by decide) hp
    | ins a =>
      unfold lex at h
      split at h
      · rename_i hc
        obtain ⟨t, h1, rfl⟩ := map_some h
        simp [lex] at h1
        subst h1 hc
        refine ⟨by simp, by simp, fun h => absurd h (by decide)⟩
      · split at h
        · exact absurd h (by simp)
        · split at h <;> simp [lex] at h
    | esc a =>
      unfold lex at h
      split at h
      · exact absurd h (by simp)
      · simp [lex] at h
  | cons d q ih =>
    intro st tp h
    have key : ∀ (t : Tok) (st' : St), (lex st' (q ++ [c])).map (t :: ·) = some tp →
        tp ≠ [] ∧ (tp.getLast? = some (.punct ',') ↔ c = ',') ∧ (c = ',' → (lex st' q).map (t :: ·) = some tp.dropLast) := by
      intro t st' h
      obtain ⟨t', h1, rfl⟩ := map_some h
      obtain ⟨a1, a2, a3⟩ := ih st' t' h1
      refine ⟨by simp, ?_, ?_⟩
      · rw [← a2, List.getLast?_cons]
        cases hl : t'.getLast? with
        | none => exact absurd (List.getLast?_eq_none_iff.mp hl) a1
        | some x => simp
      · intro hc
        rw [a3 hc, List.dropLast_cons_of_ne_nil a1]
        rfl
    rw [List.cons_append] at h
    cases st with
    | out g =>
      unfold lex at h ⊢
      split at h
      · rw [if_pos (by assumption)]; exact ih _ _ h
      · rw [if_neg (by assumption)]
        split at h
        · rw [if_pos (by assumption)]; exact ih _ _ h
        · rw [if_neg (by assumption)]
          split at h
          · rw [if_pos (by assumption)]; exact key _ _ h
          · rw [if_neg (by assumption)]; exact key _ _ h
    | ins a =>
      unfold lex at h ⊢
      split at h
      · rw [if_pos (by assumption)]; exact key _ _ h
      · rw [if_neg (by assumption)]
        split at h
        · exact absurd h (by simp)
        · rw [if_neg (by assumption)]
          split at h
          · rw [if_pos (by assumption)]; exact ih _ _ h
          · rw [if_neg (by assumption)]; exact ih _ _ h
    | esc a =>
      unfold lex at h ⊢
      split at h
      · exact absurd h (by simp)
      · rw [if_neg (by assumption)]; exact ih _ _ h

/-! ## Trailing commas of token lists -/

theorem dropTrailing_cons (x : Tok) (T : List Tok) : dropTrailing (x :: T) =
    if x = .punct ',' ∧ (T.head? = some (.punct '}') ∨ T.head? = some (.punct ']')) then dropTrailing T
    else x :: dropTrailing T := rfl

theorem dropTrailing_pos (x : Tok) (T : List Tok) (h : x = .punct ',' ∧ (T.head? = some (.punct '}') ∨ T.head? = some (.punct ']'))) :
    dropTrailing (x :: T) = dropTrailing T := by rw [dropTrailing_cons, if_pos h]

theorem dropTrailing_neg (x : Tok) (T : List Tok) (h : ¬ (x = .punct ',' ∧ (T.head? = some (.punct '}') ∨ T.head? = some (.punct ']')))) :
    dropTrailing (x :: T) = x :: dropTrailing T := by rw [dropTrailing_cons, if_neg h]

def closeHead (t : List Tok) : Prop := t.head? = some (.punct '}') ∨ t.head? = some (.punct ']')

theorem dropTrailing_ne_nil : ∀ T : List Tok, T ≠ [] → dropTrailing T ≠ []
  | [], h => absurd rfl h
  | t :: T, _ => by
    unfold dropTrailing
    split
    · rename_i h
      apply dropTrailing_ne_nil
      rintro rfl
      simp at h
    · simp

theorem dropTrailing_last : ∀ T : List Tok, (dropTrailing T).getLast? = T.getLast?
  | [] => rfl
  | t :: T => by
    unfold dropTrailing
    split
    · rename_i h
      rw [dropTrailing_last T, List.getLast?_cons]
      have : T ≠ [] := by rintro rfl; simp at h
      cases hl : T.getLast? with
      | none => exact absurd (List.getLast?_eq_none_iff.mp hl) this
      | some x => simp
    · rw [List.getLast?_cons, List.getLast?_cons, dropTrailing_last T]

theorem dropTrailing_append_keep (t : List Tok) : ∀ T : List Tok, ¬ (closeHead t ∧ T.getLast? = some (.punct ',')) →
    dropTrailing (T ++ t) = dropTrailing T ++ dropTrailing t
  | [], _ => rfl
  | x :: T, h => by
    have h' : ¬ (closeHead t ∧ T.getLast? = some (.punct ',')) := by
      rintro ⟨h1, h2⟩
      apply h
      rw [List.getLast?_cons, h2]
      exact ⟨h1, rfl⟩
    have ih := dropTrailing_append_keep t T h'
    rw [List.cons_append]
    cases T with
    | nil =>
      rw [dropTrailing_neg x [] (by simp), dropTrailing_neg, ih]
      · rfl
      · rintro ⟨rfl, h2⟩
        exact h ⟨h2, rfl⟩
    | cons y T =>
      by_cases hP : x = Tok.punct ',' ∧ ((y :: T).head? = some (Tok.punct '}') ∨ (y :: T).head? = some (Tok.punct ']'))
      · rw [dropTrailing_pos x (y :: T) hP, dropTrailing_pos x (y :: T ++ t) hP, ih]
      · rw [dropTrailing_neg x (y :: T) hP, dropTrailing_neg x (y :: T ++ t) hP, ih]; rfl

theorem dropTrailing_append_drop (t : List Tok) (ht : closeHead t) : ∀ T : List Tok, T.getLast? = some (.punct ',') →
    dropTrailing (T ++ t) = (dropTrailing T).dropLast ++ dropTrailing t
  | [], h => by simp at h
  | [x], h => by
    simp only [List.getLast?_singleton, Option.some.injEq] at h
    subst h
    have h1 : dropTrailing ([.punct ','] ++ t) = dropTrailing t := by
      rw [List.singleton_append, dropTrailing_cons, if_pos ⟨rfl, ht⟩]
    rw [h1]
    rfl
  | x :: y :: T, h => by
    have h' : (y :: T).getLast? = some (.punct ',') := by simpa [List.getLast?_cons_cons] using h
    have ih := dropTrailing_append_drop t ht (y :: T) h'
    rw [List.cons_append]
    by_cases hP : x = Tok.punct ',' ∧ ((y :: T).head? = some (Tok.punct '}') ∨ (y :: T).head? = some (Tok.punct ']'))
    · rw [dropTrailing_pos x (y :: T) hP, dropTrailing_pos x (y :: T ++ t) hP, ih]
    · rw [dropTrailing_neg x (y :: T) hP, dropTrailing_neg x (y :: T ++ t) hP, ih, List.dropLast_cons_of_ne_nil (dropTrailing_ne_nil _ (by simp))]
      rfl

theorem strip_last : ∀ L : List Char, (strip L).getLast? = L.getLast?
  | [] => rfl
  | c :: r => by
    unfold strip
    split
    · rename_i h
      rw [strip_last r, List.getLast?_cons]
      have : r ≠ [] := by rintro rfl; simp [closes] at h
      cases hl : r.getLast? with
      | none => exact absurd (List.getLast?_eq_none_iff.mp hl) this
      | some x => simp
    · rw [List.getLast?_cons, List.getLast?_cons, strip_last r]

/-! ## The loop over lines -/

/-- What is known about a line of the input. -/
structure LineOk (l : List Char) (t : List Tok) : Prop where
  toks : lex (.out false) (code .out l) = some t
  good : ∀ x ∈ t, Good x
  apos : code .out l = l ∨ '\'' ∉ code .out l

/-- After some lines: the tokens so far, and where the last nonempty line is. -/
structure Inv (done : List (List Char)) (last : Option Nat) (T : List Tok) : Prop where
  toks : lexLines done = some (dropTrailing T)
  none : last = none → T = []
  some : ∀ k, last = some k → ∃ A q c B, done = A ++ (q ++ [c]) :: B ∧ A.length = k ∧ isWs c = false ∧ ∀ b ∈ B, b = []

theorem line_clean (l : List Char) (t : List Tok) (h : LineOk l t) :
    lex (.out false) (rstrip (cutComment l)) = some t := by
  have : cutComment l = code .out l := by
    rw [cutComment_eq]
    refine cut_code l (.out false) 0 0 t h.toks h.good (by simp [modeOf]) ?_
    rcases h.apos with h | h
    · exact Or.inl h
    · exact Or.inr ⟨rfl, h⟩
  rw [this]
  exact lex_rstrip _ _ _ _ rfl h.toks h.good

theorem process_spec : ∀ (todo : List (List Char)) (tts : List (List Tok)) (done : List (List Char)) (last : Option Nat) (T : List Tok),
    Inv done last T → todo.length = tts.length → (∀ (i : Nat) (l : List Char) (t : List Tok), todo[i]? = some l → tts[i]? = some t → LineOk l t) →
    ∃ out, process done last todo = some out ∧ lexLines out = some (dropTrailing (T ++ tts.flatten)) := by
  intro todo
  induction todo with
  | nil =>
    intro tts done last T hI hlen _
    obtain rfl : tts = [] := List.length_eq_zero_iff.mp (by simpa using hlen.symm)
    exact ⟨done, rfl, by simpa using hI.toks⟩
  | cons l todo ih =>
    intro tts done last T hI hlen hok
    cases tts with
    | nil => simp at hlen
    | cons t tts =>
      have hl : LineOk l t := hok 0 l t rfl rfl
      have hrest : ∀ (i : Nat) (l : List Char) (t : List Tok), todo[i]? = some l → tts[i]? = some t → LineOk l t :=
        fun i l t h1 h2 => hok (i+1) l t (by simpa using h1) (by simpa using h2)
      have hlen' : todo.length = tts.length := by simpa using hlen
      have hclean := line_clean l t hl
      rw [List.flatten_cons, ← List.append_assoc]
      unfold process
      dsimp only
      obtain ⟨L, hL⟩ : ∃ L, L = rstrip (cutComment l) := ⟨_, rfl⟩
      rw [← hL] at hclean ⊢
      by_cases hnil : L = []
      · rw [if_pos hnil]
        rw [hnil] at hclean ⊢
        obtain rfl : t = [] := by simpa [lex] using hclean.symm
        rw [List.append_nil]
        apply ih tts _ _ T _ hlen' hrest
        refine ⟨?_, hI.none, ?_⟩
        · rw [lexLines_append, hI.toks]; simp [lexLines, lex]
        · intro k hk
          obtain ⟨A, q, c, B, e, h1, h2, h3⟩ := hI.some k hk
          refine ⟨A, q, c, B ++ [[]], by rw [e]; simp, h1, h2, ?_⟩
          intro b hb
          rcases List.mem_append.mp hb with hb | hb
          · exact h3 b hb
          · simpa using hb
      · rw [if_neg hnil]
        have hcl := closes_head L false t hclean hl.good
        have hL' : lex (.out false) (strip L) = some (dropTrailing t) := lex_strip L _ _ hclean hl.good
        obtain ⟨q0, c0, e0⟩ : ∃ q c, strip L = q ++ [c] := by
          have hne : strip L ≠ [] := by
            intro h
            have := strip_last L
            rw [h] at this
            exact hnil (List.getLast?_eq_none_iff.mp this.symm)
          exact ⟨(strip L).dropLast, (strip L).getLast hne, (List.dropLast_concat_getLast hne).symm⟩
        have hc0 : isWs c0 = false := by
          have h1 : L.getLast? = some c0 := by rw [← strip_last L, e0]; simp
          have h2 := rstrip_last (cutComment l) c0 (by rw [← hL]; exact h1)
          rw [Bool.eq_false_iff]; intro h
          rw [ws_blank c0 h] at h2
          exact absurd h2 (by decide)
        have hne' : strip L ≠ [] := by rw [e0]; simp
        cases last with
        | none =>
          have hT := hI.none rfl
          subst hT
          rw [fold_brackets L _ (by simp)]
          simp only
          rw [removeAt_removals, if_neg hne']
          apply ih tts _ _ ([] ++ t) _ hlen' hrest
          refine ⟨?_, by simp, ?_⟩
          · rw [lexLines_append, hI.toks]
            simp [lexLines, hL', dropTrailing]
          · intro k hk
            refine ⟨done, q0, c0, [], by rw [e0], by simpa using hk, hc0, by simp⟩
        | some k =>
          obtain ⟨A, q, c, B, e, hA, hcw, hB⟩ := hI.some k rfl
          have hget : done[k]? = some (q ++ [c]) := by rw [e, ← hA]; simp
          rw [fold_brackets L _ (by simp [hget])]
          simp only [Option.bind_some, hget, Option.map_some]
          rw [removeAt_removals, if_neg hne']
          -- tokens of the lines so far
          have htoks := hI.toks
          rw [e, lexLines_append] at htoks
          obtain ⟨tA, htA⟩ : ∃ x, lexLines A = some x := by
            cases h : lexLines A with
            | none => rw [h] at htoks; simp at htoks
            | some x => exact ⟨x, rfl⟩
          obtain ⟨tp, htp⟩ : ∃ x, lex (.out false) (q ++ [c]) = some x := by
            cases h : lex (.out false) (q ++ [c]) with
            | none => rw [htA] at htoks; simp [lexLines, h] at htoks
            | some x => exact ⟨x, rfl⟩
          have hdone : tA ++ tp = dropTrailing T := by
            rw [htA] at htoks
            simp only [lexLines, htp, lexLines_empty B hB] at htoks
            simpa using htoks
          obtain ⟨hp1, hp2, hp3⟩ := lex_last c hcw q _ tp htp
          have hTlast : T.getLast? = some (.punct ',') ↔ c = ',' := by
            rw [← dropTrailing_last T, ← hdone, ← hp2, List.getLast?_append]
            cases hl : tp.getLast? with
            | none => exact absurd (List.getLast?_eq_none_iff.mp hl) hp1
            | some x => simp
          by_cases hdrop : closes L = true ∧ c = ','
          · obtain ⟨h1, rfl⟩ := hdrop
            rw [if_pos h1]
            have htrim : trimComma (q ++ [',']) = q := by simp [trimComma]
            simp only [htrim]
            have hset : done.set k q = A ++ q :: B := by rw [e, ← hA]; simp
            rw [hset]
            apply ih tts _ _ (T ++ t) _ hlen' hrest
            refine ⟨?_, by simp, ?_⟩
            · rw [dropTrailing_append_drop t (hcl.mp h1) T (hTlast.mpr rfl), ← hdone]
              rw [lexLines_append, lexLines_append, htA]
              simp only [lexLines, hp3 rfl, lexLines_empty B hB, hL']
              rw [List.dropLast_append_of_ne_nil hp1]
              simp
            · intro k' hk'
              exact ⟨A ++ q :: B, q0, c0, [], by rw [e0], by simpa using hk', hc0, by simp⟩
          · have hprev : (if closes L = true then some (trimComma (q ++ [c])) else some (q ++ [c])) = some (q ++ [c]) := by
              split
              · rename_i h1
                have : c ≠ ',' := fun h => hdrop ⟨h1, h⟩
                simp [trimComma, this]
              · rfl
            rw [hprev]
            have hset : done.set k (q ++ [c]) = done := by
              rw [e, ← hA]; simp
            simp only [hset]
            apply ih tts _ _ (T ++ t) _ hlen' hrest
            refine ⟨?_, by simp, ?_⟩
            · rw [dropTrailing_append_keep t T (fun h => hdrop ⟨hcl.mpr h.1, hTlast.mp h.2⟩)]
              rw [lexLines_append, hI.toks]
              simp [lexLines, hL']
            · intro k' hk'
              exact ⟨done, q0, c0, [], by rw [e0], by simpa using hk', hc0, by simp⟩

theorem lexLines_split : ∀ (ls : List (List Char)) (ts : List Tok), lexLines ls = some ts →
    ∃ tts : List (List Tok), tts.flatten = ts ∧ tts.length = ls.length ∧
      ∀ (i : Nat) (l : List Char) (t : List Tok), ls[i]? = some l → tts[i]? = some t → lex (.out false) l = some t
  | [], ts, h => ⟨[], by simpa [lexLines] using h, rfl, by simp⟩
  | l :: ls, ts, h => by
    unfold lexLines at h
    cases hl : lex (.out false) l with
    | none => rw [hl] at h; simp at h
    | some t =>
      rw [hl] at h
      simp only [Option.bind_some] at h
      obtain ⟨t', h1, rfl⟩ := map_some h
      obtain ⟨tts, h2, h3, h4⟩ := lexLines_split ls t' h1
      refine ⟨t :: tts, by simp [h2], by simp [h3], ?_⟩
      intro i l' t'' hi ht
      cases i with
      | zero => simp at hi ht; rw [← hi, ← ht]; exact hl
      | succ i => exact h4 i l' t'' (by simpa using hi) (by simpa using ht)

end Viscid.Vjson
