import Verif.Model.Jrrle
import Verif.Spec.Jrrle
import Verif.Lemmas.Dict
namespace Viscid.Jrrle
open Viscid Viscid.Spec.Jrrle

/-! ## Records -/

theorem flush_length (ic ir : Nat) (h : 1 ≤ ic) : (flush ic ir).length ≤ ic := by
  unfold flush
  split
  · simp; omega
  · simp; omega

theorem encRuns_length (ir ic : Nat) (h : 1 ≤ ic) (xs : List Nat) :
    (encRuns ir ic xs).length ≤ ic + xs.length := by
  induction xs generalizing ir ic with
  | nil => simpa [encRuns] using flush_length ic ir h
  | cons x xs ih =>
    unfold encRuns
    split
    · have := ih ir (ic + 1) (by omega)
      simp only [List.length_cons]; omega
    · have := ih x 1 (by omega)
      have := flush_length ic ir h
      simp only [List.length_append, List.length_cons]; omega

theorem decLoop_char (j c : Nat) (cs w : List Nat) (hj : j + 1 ≤ 67) (hc : c ≠ 32) (hc' : c ≤ 127)
    (hw : w.length + 1 ≤ 69) : decLoop j (c :: cs) w = decLoop (j + 1) cs (w ++ [c]) := by
  conv => lhs; unfold decLoop
  rw [if_neg (by omega), if_neg hc, if_neg (by omega), if_neg (by simp; omega)]

theorem decLoop_flush (j ic ir : Nat) (rest w : List Nat) (hic : 1 ≤ ic) (hir : 33 ≤ ir ∧ ir ≤ 126)
    (hj : j + (flush ic ir).length ≤ 67) (hw : w.length + ic ≤ 69) :
    decLoop j (flush ic ir ++ rest) w = decLoop (j + (flush ic ir).length) rest (w ++ List.replicate ic ir) := by
  unfold flush at *
  split
  · next h =>
    subst h
    simp only [if_true, List.length_cons, List.length_nil] at hj
    simp only [List.cons_append, List.nil_append, List.length_cons, List.length_nil]
    rw [decLoop_char j ir rest w (by omega) (by omega) (by omega) (by omega)]
    simp
  · next h =>
    simp only [h, if_false, List.length_cons, List.length_nil] at hj
    simp only [List.cons_append, List.nil_append, List.length_cons, List.length_nil, decLoop]
    rw [if_neg (by omega), if_neg (by omega), if_pos (by omega), if_neg (by simp; omega)]
    have : ic + 170 - 170 = ic := by omega
    rw [this]

theorem decLoop_encRuns (j ir ic : Nat) (xs rest w : List Nat) (hic : 1 ≤ ic)
    (hir : 33 ≤ ir ∧ ir ≤ 126) (hxs : Printable xs)
    (hj : j + (encRuns ir ic xs).length ≤ 67) (hw : w.length + ic + xs.length ≤ 69) :
    decLoop j (encRuns ir ic xs ++ rest) w =
      decLoop (j + (encRuns ir ic xs).length) rest (w ++ (List.replicate ic ir ++ xs)) := by
  induction xs generalizing j ir ic w with
  | nil =>
    simp only [encRuns] at hj ⊢
    rw [decLoop_flush j ic ir rest w hic hir hj (by simpa using hw)]
    simp
  | cons x xs ih =>
    have hx := hxs x (by simp)
    have hxs' : Printable xs := fun c hc => hxs c (by simp [hc])
    unfold encRuns at hj ⊢
    simp only [List.length_cons] at hw
    by_cases hxi : x = ir
    · subst hxi
      simp only [if_true] at hj ⊢
      rw [ih j x (ic + 1) w (by omega) hir hxs' hj (by omega)]
      congr 1
      congr 1
      rw [List.replicate_succ', List.append_assoc]
      rfl
    · simp only [hxi, if_false] at hj ⊢
      simp only [List.length_append] at hj
      rw [List.append_assoc, decLoop_flush j ic ir _ w hic hir (by omega) (by omega)]
      rw [ih _ x 1 _ (by omega) hx hxs' (by omega) (by simp; omega)]
      rw [List.length_append, Nat.add_assoc]
      congr 1
      simp

theorem decLoop_space (j : Nat) (rest w : List Nat) (hj : j + 1 ≤ 67) :
    decLoop j (32 :: rest) w = decFinish w := by
  unfold decLoop
  rw [if_neg (by omega)]
  simp

/-- Decoding a line with an arbitrary (valid) checksum character. -/
theorem wrndec_line (ck x : Nat) (xs : List Nat) (hck : 33 ≤ ck ∧ ck ≤ 126) (hx : 33 ≤ x ∧ x ≤ 126)
    (hxs : Printable xs) (hlen : xs.length ≤ 63) :
    wrndec (ck :: encRuns x 1 xs) = decFinish (ck :: x :: xs) := by
  have hl := encRuns_length x 1 (by omega) xs
  unfold wrndec pad72
  rw [List.take_of_length_le (by simp only [List.length_cons]; omega)]
  obtain ⟨m, hm⟩ : ∃ m, 72 - (ck :: encRuns x 1 xs).length = m + 1 :=
    ⟨72 - (ck :: encRuns x 1 xs).length - 1, by simp only [List.length_cons]; omega⟩
  rw [hm, List.replicate_succ, List.cons_append]
  rw [show ck :: (encRuns x 1 xs ++ 32 :: List.replicate m 32) =
    flush 1 ck ++ (encRuns x 1 xs ++ 32 :: List.replicate m 32) by simp [flush]]
  rw [decLoop_flush 0 1 ck _ [] (by omega) hck (by simp [flush]) (by simp)]
  rw [decLoop_encRuns _ x 1 xs _ _ (by omega) hx hxs (by simp [flush]; omega) (by simp; omega)]
  rw [decLoop_space _ _ _ (by simp [flush]; omega)]
  simp

theorem wrndec_wrnenc (r : List Nat) (hne : r ≠ []) (hlen : r.length ≤ 64) (hp : Printable r) :
    wrndec (wrnenc r) = .ok r := by
  cases r with
  | nil => exact absurd rfl hne
  | cons x xs =>
    unfold wrnenc
    have hlen' : xs.length ≤ 63 := by simpa using hlen
    have hck : 33 ≤ 33 + (x :: xs).sum % 92 ∧ 33 + (x :: xs).sum % 92 ≤ 126 := by omega
    rw [wrndec_line _ x xs hck (hp x (by simp)) (fun c hc => hp c (by simp [hc])) hlen']
    unfold decFinish
    simp only [List.length_cons]
    rw [if_neg (by omega), if_neg (by simp)]

theorem decFinish_ok (w d : List Nat) (h : decFinish w = .ok d) :
    d.length ≤ 64 ∧ ∃ ck, w = ck :: d ∧ ck = 33 + d.sum % 92 := by
  unfold decFinish at h
  cases w with
  | nil => cases h
  | cons ck dat =>
    dsimp only at h
    split at h
    · cases h
    · split at h
      · cases h
      · next h1 h2 =>
        injection h with h
        subst h
        exact ⟨by omega, ck, rfl, by simpa using h2⟩

theorem decLoop_ok (j : Nat) (cs w d : List Nat) (h : decLoop j cs w = .ok d) : d.length ≤ 64 := by
  fun_induction decLoop j cs w with
  | case1 => cases h
  | case2 => cases h
  | case3 => exact (decFinish_ok _ _ h).1
  | case4 => cases h
  | case5 => cases h
  | case6 => rename_i ih; exact ih h
  | case7 => cases h
  | case8 => rename_i ih; exact ih h

theorem decLoop_overrun (j : Nat) (cs w : List Nat) (h : decLoop j cs w = .error .overrun) :
    w.length + expansion cs > 69 := by
  fun_induction decLoop j cs w with
  | case1 => cases h
  | case2 => cases h
  | case3 => 
    exfalso
    unfold decFinish at h
    split at h
    · cases h
    · split at h
      · cases h
      · split at h <;> cases h
  | case4 => cases h
  | case5 j w c hj hc hc' d cs' w' hw =>
    simp only [w', List.length_append, List.length_replicate] at hw
    simp only [expansion, hc, if_false, hc', if_true]; omega
  | case6 j w c hj hc hc' d cs' w' hw ih =>
    have := ih h
    simp only [w', List.length_append, List.length_replicate] at this
    simp only [expansion, hc, if_false, hc', if_true]; omega
  | case7 j c cs w hj hc hc' w' hw =>
    simp only [w', List.length_append, List.length_singleton] at hw
    cases cs with
    | nil => simp only [expansion, hc, hc', if_false]; omega
    | cons d cs => simp only [expansion, hc, hc', if_false]; omega
  | case8 j c cs w hj hc hc' w' hw ih =>
    have := ih h
    simp only [w', List.length_append, List.length_singleton] at this
    cases cs with
    | nil => simp only [expansion, hc, hc', if_false] at this ⊢; omega
    | cons d cs => simp only [expansion, hc, hc', if_false]; omega

/-! ## Arrays -/

theorem toChars_range (v : Bool × Nat) (h : v.2 ≤ 4414) :
    33 ≤ (toChars v).1 ∧ (toChars v).1 ≤ 126 ∧ 33 ≤ (toChars v).2 ∧ (toChars v).2 ≤ 126 := by
  obtain ⟨s, i⟩ := v
  simp only [toChars] at *
  cases s <;> simp <;> omega

theorem ofChars_toChars (v : Bool × Nat) (h : v.2 ≤ 4414) :
    ofChars (toChars v).1 (toChars v).2 = (v.1, (v.2 : Int)) := by
  obtain ⟨s, i⟩ := v
  simp only [toChars, ofChars] at *
  cases s
  · simp only [Bool.false_eq_true, if_false]
    rw [if_neg (by omega)]
    congr 1; omega
  · simp only [if_true]
    rw [if_pos (by omega)]
    congr 1; omega

theorem zipWith_ofChars (vals : List (Bool × Nat)) (h : ∀ v ∈ vals, v.2 ≤ 4414) :
    List.zipWith ofChars ((vals.map toChars).map Prod.fst) ((vals.map toChars).map Prod.snd) =
      vals.map fun v => (v.1, (v.2 : Int)) := by
  induction vals with
  | nil => rfl
  | cons v vals ih =>
    simp only [List.map_cons, List.zipWith_cons_cons]
    rw [ih (fun u hu => h u (by simp [hu])), ofChars_toChars v (h v (by simp))]

theorem rdLoop_wrLoop (b : Nat) (vals : List (Bool × Nat)) (cap : Nat) (rest : List (List Nat))
    (h : ∀ v ∈ vals, v.2 ≤ 4414) (hb1 : vals.length ≤ 64 * b) (hb2 : 64 * b < vals.length + 64)
    (hcap : vals.length ≤ cap) :
    rdLoop b vals.length cap (wrLoop b vals ++ rest) = .ok (vals.map fun v => (v.1, (v.2 : Int))) := by
  induction b generalizing vals cap with
  | zero =>
    have : vals = [] := List.length_eq_zero_iff.mp (by omega)
    subst this; rfl
  | succ b ih =>
    have hpos : 0 < vals.length := by omega
    have ht : ∀ v ∈ vals.take 64, v.2 ≤ 4414 := fun v hv => h v (List.mem_of_mem_take hv)
    have hlt : (vals.take 64).length = min 64 vals.length := by simp
    have hne : vals.take 64 ≠ [] := by
      intro he; rw [he] at hlt; simp at hlt; omega
    have e1 : wrndec (wrnenc (((vals.take 64).map toChars).map Prod.fst)) =
        .ok (((vals.take 64).map toChars).map Prod.fst) := by
      apply wrndec_wrnenc
      · simp only [ne_eq, List.map_eq_nil_iff]; exact hne
      · simp; omega
      · intro c hc
        simp only [List.map_map, List.mem_map] at hc
        obtain ⟨v, hv, rfl⟩ := hc
        have := toChars_range v (ht v hv)
        exact ⟨this.1, this.2.1⟩
    have e2 : wrndec (wrnenc (((vals.take 64).map toChars).map Prod.snd)) =
        .ok (((vals.take 64).map toChars).map Prod.snd) := by
      apply wrndec_wrnenc
      · simp only [ne_eq, List.map_eq_nil_iff]; exact hne
      · simp; omega
      · intro c hc
        simp only [List.map_map, List.mem_map] at hc
        obtain ⟨v, hv, rfl⟩ := hc
        have := toChars_range v (ht v hv)
        exact ⟨this.2.2.1, this.2.2.2⟩
    simp only [wrLoop, List.cons_append, rdLoop, e1, e2, List.length_map, hlt]
    rw [if_neg (by simp), if_neg (by simp), if_neg (by omega)]
    have hd : (vals.drop 64).length = vals.length - 64 := by simp
    have := ih (vals.drop 64) (cap - min 64 vals.length)
      (fun v hv => h v (List.mem_of_mem_drop hv)) (by omega) (by omega) (by omega)
    rw [hd] at this
    rw [this]
    dsimp only
    rw [zipWith_ofChars _ ht, ← List.map_append, List.take_append_drop]

/-! ## Field lookup -/

set_option linter.unusedSectionVars false
variable {Name Meta : Type} [DecidableEq Name]

theorem dict_get_of_mem {K V : Type} [DecidableEq K] (d : Dict K V) (h : d.WF) (k : K) (v : V)
    (hm : (k, v) ∈ d) : d.get? k = some v := by
  induction d with
  | nil => simp at hm
  | cons a d ih =>
    obtain ⟨k', v'⟩ := a
    unfold Dict.WF Dict.keys at h
    simp only [List.map_cons, List.nodup_cons] at h
    rcases List.mem_cons.mp hm with he | hm
    · injection he with h1 h2
      subst h1 h2
      simp [Dict.get?]
    · have hne : k' ≠ k := by
        rintro rfl
        exact h.1 (List.mem_map.mpr ⟨(k', v), hm, rfl⟩)
      simp only [Dict.get?, hne, if_false]
      exact ih h.2 hm

theorem scan_some (f : File Name Meta) (p q : Nat) (n : Name) (m : Meta)
    (h : scan f p = some (q, n, m)) :
    p ≤ q ∧ f[q]? = some (some (n, m)) ∧ ∀ r, p ≤ r → r < q → f[r]? = some none := by
  induction f generalizing p q with
  | nil => cases p <;> simp [scan] at h
  | cons a f ih =>
    cases p with
    | zero =>
      cases a with
      | none =>
        simp only [scan, Option.map_eq_some_iff] at h
        obtain ⟨⟨q', n', m'⟩, h1, h2⟩ := h
        simp only [Prod.mk.injEq] at h2
        obtain ⟨rfl, rfl, rfl⟩ := h2
        obtain ⟨g1, g2, g3⟩ := ih 0 q' h1
        refine ⟨by omega, by simpa using g2, ?_⟩
        intro r _ hr
        cases r with
        | zero => simp
        | succ r => simpa using g3 r (by omega) (by omega)
      | some nm =>
        simp only [scan, Option.some.injEq, Prod.mk.injEq] at h
        obtain ⟨rfl, h2, h3⟩ := h
        refine ⟨by omega, ?_, by omega⟩
        simp [← h2, ← h3]
    | succ p =>
      simp only [scan, Option.map_eq_some_iff] at h
      obtain ⟨⟨q', n', m'⟩, h1, h2⟩ := h
      simp only [Prod.mk.injEq] at h2
      obtain ⟨rfl, rfl, rfl⟩ := h2
      obtain ⟨g1, g2, g3⟩ := ih p q' h1
      refine ⟨by omega, by simpa using g2, ?_⟩
      intro r hr1 hr2
      cases r with
      | zero => omega
      | succ r => simpa using g3 r (by omega) (by omega)

theorem scan_none (f : File Name Meta) (p : Nat) (h : scan f p = none) :
    ∀ r, p ≤ r → ∀ n m, f[r]? ≠ some (some (n, m)) := by
  induction f generalizing p with
  | nil => simp
  | cons a f ih =>
    intro r hr n m
    cases p with
    | zero =>
      cases a with
      | none =>
        simp only [scan, Option.map_eq_none_iff] at h
        cases r with
        | zero => simp
        | succ r => simpa using ih 0 h r (by omega) n m
      | some nm => simp [scan] at h
    | succ p =>
      simp only [scan, Option.map_eq_none_iff] at h
      cases r with
      | zero => omega
      | succ r => simpa using ih p h r (by omega) n m

/-- Every field line before `p` has a name that was seen. -/
def SeenBefore (f : File Name Meta) (seen : Dict Name (Meta × Nat)) (p : Nat) : Prop :=
  ∀ q < p, ∀ n m, f[q]? = some (some (n, m)) → (seen.get? n).isSome

/-- The invariant of the wrapper. -/
structure LInv (f : File Name Meta) (s : LState Name Meta) : Prop where
  wf : s.seen.WF
  first : ∀ n mt, s.seen.get? n = some mt → IsFirst f n mt.1 mt.2
  upto : ∀ n mt, s.seen.get? n = some mt → SeenBefore f s.seen (mt.2 + 1)
  before : SeenBefore f s.seen s.pos
  all : s.seenAll = true → SeenBefore f s.seen f.length
  bound : s.pos ≤ f.length

theorem LInv.seek {f : File Name Meta} {s : LState Name Meta} (h : LInv f s) (p : Nat)
    (hb : SeenBefore f s.seen p) (hp : p ≤ f.length) : LInv f { s with pos := p } :=
  ⟨h.wf, h.first, h.upto, hb, h.all, hp⟩

theorem SeenBefore.mono {f : File Name Meta} {seen : Dict Name (Meta × Nat)} {p p' : Nat}
    (h : SeenBefore f seen p) (hp : p' ≤ p) : SeenBefore f seen p' :=
  fun q hq n m hf => h q (by omega) n m hf

theorem linit_inv (f : File Name Meta) : LInv f linit := by
  refine ⟨Dict.WF_nil, ?_, ?_, ?_, ?_, ?_⟩ <;> simp [linit, SeenBefore]

theorem lt_of_get {f : List α} {q : Nat} {x : α} (h : f[q]? = some x) : q < f.length := by
  by_cases hq : q < f.length
  · exact hq
  · rw [List.getElem?_eq_none (by omega)] at h; cases h

/-- Effect of `inquire_next`. -/
theorem inquireNext_spec (f : File Name Meta) (s : LState Name Meta) (h : LInv f s) :
    (∃ q n m, scan f s.pos = some (q, n, m) ∧ s.pos ≤ q ∧ q < f.length ∧ f[q]? = some (some (n, m)) ∧
      LInv f (inquireNext f s).1 ∧ (inquireNext f s).1.pos = q ∧
      (inquireNext f s).1.seenAll = s.seenAll ∧
      (∀ k, (s.seen.get? k).isSome → (inquireNext f s).1.seen.get? k = s.seen.get? k) ∧
      (∀ k, k ≠ n → (inquireNext f s).1.seen.get? k = s.seen.get? k) ∧
      (inquireNext f s).2 = ((inquireNext f s).1.seen.get? n).map (fun mt => (n, mt)) ∧
      ((inquireNext f s).1.seen.get? n).isSome ∧
      (s.seen.get? n = none → (inquireNext f s).1.seen.get? n = some (m, q)) ∧
      SeenBefore f (inquireNext f s).1.seen (q + 1)) ∨
    (scan f s.pos = none ∧ LInv f (inquireNext f s).1 ∧ (inquireNext f s).1.seenAll = true ∧
      (inquireNext f s).1.seen = s.seen ∧ (inquireNext f s).2 = none) := by
  unfold inquireNext
  cases hs : scan f s.pos with
  | none =>
    right
    have hn := scan_none f s.pos hs
    have hall : SeenBefore f s.seen f.length := by
      intro q _ n m hf
      by_cases hq : q < s.pos
      · exact h.before q hq n m hf
      · exact absurd hf (hn q (by omega) n m)
    exact ⟨rfl, ⟨h.wf, h.first, h.upto, hall, fun _ => hall, Nat.le_refl _⟩, rfl, rfl, rfl⟩
  | some x =>
    obtain ⟨q, n, m⟩ := x
    left
    obtain ⟨h1, h2, h3⟩ := scan_some f s.pos q n m hs
    have hq : q < f.length := lt_of_get h2
    have hbq : SeenBefore f s.seen q := by
      intro r hr n' m' hf
      by_cases hrp : r < s.pos
      · exact h.before r hrp n' m' hf
      · rw [h3 r (by omega) hr] at hf; cases hf
    refine ⟨q, n, m, rfl, h1, hq, h2, ?_⟩
    dsimp only
    cases hg : s.seen.get? n with
    | some mt =>
      dsimp only
      have hq1 : SeenBefore f s.seen (q + 1) := by
        intro r hr n' m' hf
        by_cases hrq : r < q
        · exact hbq r hrq n' m' hf
        · have : r = q := by omega
          subst this
          rw [h2] at hf
          injection hf with hf; injection hf with hf; injection hf with hf1 hf2
          rw [← hf1, hg]; rfl
      refine ⟨h.seek q hbq (by omega), rfl, rfl, by simp, by simp, by simp [hg], by simp [hg], by simp, hq1⟩
    | none =>
      dsimp only
      have hget : ∀ k, (s.seen.set n (m, q)).get? k = if k = n then some (m, q) else s.seen.get? k := by
        intro k; rw [Dict.get?_set]
      have hmono : ∀ p, SeenBefore f s.seen p → SeenBefore f (s.seen.set n (m, q)) p := by
        intro p hp r hr n' m' hf
        rw [hget]
        by_cases hn : n' = n
        · simp [hn]
        · simp [hn]; simpa using hp r hr n' m' hf
      have hq1 : SeenBefore f (s.seen.set n (m, q)) (q + 1) := by
        intro r hr n' m' hf
        by_cases hrq : r < q
        · exact hmono q hbq r hrq n' m' hf
        · have : r = q := by omega
          subst this
          rw [h2] at hf
          injection hf with hf; injection hf with hf; injection hf with hf1 hf2
          rw [hget, ← hf1]; simp
      have hfirst : IsFirst f n m q := by
        refine ⟨h2, ?_⟩
        intro q' hq' m' hf
        have := hbq q' hq' n m' hf
        rw [hg] at this; cases this
      refine ⟨⟨Dict.WF_set _ _ _ h.wf, ?_, ?_, hmono q hbq, ?_, by simp; omega⟩, rfl, rfl, ?_, ?_, ?_, ?_, ?_, hq1⟩
      · intro k mt hk
        rw [hget] at hk
        by_cases hkn : k = n
        · subst hkn
          simp only [if_true, Option.some.injEq] at hk
          subst hk
          exact hfirst
        · rw [if_neg hkn] at hk; exact h.first k mt hk
      · intro k mt hk
        rw [hget] at hk
        by_cases hkn : k = n
        · subst hkn
          simp only [if_true, Option.some.injEq] at hk
          subst hk
          exact hq1
        · rw [if_neg hkn] at hk; exact hmono _ (h.upto k mt hk)
      · intro ha; exact hmono _ (h.all ha)
      · intro k hk
        rw [hget]
        by_cases hkn : k = n
        · subst hkn; rw [hg] at hk; cases hk
        · simp [hkn]
      · intro k hkn; rw [hget]; simp [hkn]
      · rw [hget]; simp
      · rw [hget]; simp
      · intro _; rw [hget]; simp

theorem advance_inv (f : File Name Meta) (s : LState Name Meta) (h : LInv f s)
    (hb : SeenBefore f s.seen (s.pos + 1)) : LInv f (advance f s) := by
  unfold advance
  exact h.seek _ (hb.mono (by omega)) (by omega)

/-- The loop of `inquire`. -/
theorem inquireLoop_spec (f : File Name Meta) (name : Name) (fuel : Nat) (s : LState Name Meta)
    (h : LInv f s) (hn : s.seen.get? name = none) (hfuel : f.length - s.pos + 1 ≤ fuel) :
    (∃ s' m q, inquireLoop f name fuel s = some (s', some (m, q)) ∧ LInv f s' ∧ s'.pos = q ∧
        IsFirst f name m q ∧ SeenBefore f s'.seen (q + 1)) ∨
    (∃ s', inquireLoop f name fuel s = some (s', none) ∧ LInv f s' ∧ NoField f name) := by
  induction fuel generalizing s with
  | zero => omega
  | succ fuel ih =>
    unfold inquireLoop
    by_cases hall : s.seenAll
    · right
      refine ⟨s, by simp [hall], h, ?_⟩
      intro q m hf
      have := h.all hall q (lt_of_get hf) name m hf
      rw [hn] at this; cases this
    · simp only [hall, Bool.false_eq_true, if_false]
      rcases inquireNext_spec f s h with ⟨q, n, m, _, hpq, hql, hfq, hinv, hpos, hsa, _, hother, hres, hsome, hnew, hq1⟩ |
        ⟨_, hinv, hsa, hseen, hres⟩
      · rcases hi : inquireNext f s with ⟨s', r⟩
        rw [hi] at hinv hpos hsa hother hres hsome hnew hq1
        dsimp only at hinv hpos hsa hother hres hsome hnew hq1 ⊢
        obtain ⟨mt, hmt⟩ := Option.isSome_iff_exists.mp hsome
        rw [hmt] at hres
        simp only [Option.map_some] at hres
        subst hres
        dsimp only
        by_cases hnn : n = name
        · subst hnn
          simp only [if_true]
          left
          have := hnew hn
          rw [hmt] at this
          injection this with this
          subst this
          exact ⟨s', m, q, rfl, hinv, hpos, hinv.first n _ hmt, hq1⟩
        · simp only [hnn, if_false]
          apply ih
          · exact advance_inv f s' hinv (by rw [hpos]; exact hq1)
          · show s'.seen.get? name = none
            rw [hother name (fun e => hnn e.symm)]; exact hn
          · show f.length - min (s'.pos + 1) f.length + 1 ≤ fuel
            omega
      · rcases hi : inquireNext f s with ⟨s', r⟩
        rw [hi] at hinv hsa hseen hres
        dsimp only at hinv hsa hseen hres ⊢
        subst hres
        dsimp only
        right
        have hadv : inquireLoop f name fuel (advance f s') = some (advance f s', none) := by
          unfold inquireLoop
          rw [if_pos (show (advance f s').seenAll = true from hsa)]
        refine ⟨advance f s', hadv, ?_, ?_⟩
        · refine advance_inv f s' hinv ?_
          have := hinv.all hsa
          intro q hq n m hf
          exact this q (lt_of_get hf) n m hf
        · intro q m hf
          have := hinv.all hsa q (lt_of_get hf) name m hf
          rw [hseen, hn] at this; cases this

theorem inquire_spec (f : File Name Meta) (name : Name) (fuel : Nat) (s : LState Name Meta)
    (h : LInv f s) (hfuel : f.length + 1 ≤ fuel) :
    (∃ s' m q, inquire f fuel s name = some (s', some (m, q)) ∧ LInv f s' ∧ s'.pos = q ∧
        IsFirst f name m q ∧ SeenBefore f s'.seen (q + 1)) ∨
    (∃ s', inquire f fuel s name = some (s', none) ∧ LInv f s' ∧ NoField f name) := by
  unfold inquire
  cases hg : s.seen.get? name with
  | some mt =>
    left
    have hu := h.upto name mt hg
    have hf := h.first name mt hg
    exact ⟨_, mt.1, mt.2, rfl, h.seek _ (hu.mono (by omega)) (by have := lt_of_get hf.1; omega), rfl, hf, hu⟩
  | none =>
    dsimp only
    apply inquireLoop_spec
    · cases hl : s.seen.getLast? with
      | none => exact h
      | some x =>
        obtain ⟨k, mt⟩ := x
        have hk := dict_get_of_mem s.seen h.wf k mt (List.mem_of_getLast? hl)
        have hu := h.upto k mt hk
        have hf := lt_of_get (h.first k mt hk).1
        have hi := h.seek mt.2 (hu.mono (by omega)) (by omega)
        exact advance_inv f _ hi hu
    · cases hl : s.seen.getLast? with
      | none => exact hg
      | some x => exact hg
    · omega

theorem allLoop_spec (f : File Name Meta) (fuel : Nat) (s : LState Name Meta) (h : LInv f s)
    (hfuel : f.length - s.pos + 1 ≤ fuel) :
    ∃ s', allLoop f fuel s = some s' ∧ LInv f s' ∧ s'.seenAll = true := by
  induction fuel generalizing s with
  | zero => omega
  | succ fuel ih =>
    unfold allLoop
    by_cases hall : s.seenAll
    · exact ⟨s, by simp [hall], h, hall⟩
    · simp only [hall, Bool.false_eq_true, if_false]
      rcases inquireNext_spec f s h with ⟨q, n, m, _, hpq, hql, hfq, hinv, hpos, hsa, _, hother, hres, hsome, hnew, hq1⟩ |
        ⟨_, hinv, hsa, hseen, hres⟩
      · apply ih
        · exact advance_inv f _ hinv (by rw [hpos]; exact hq1)
        · show f.length - min ((inquireNext f s).1.pos + 1) f.length + 1 ≤ fuel
          omega
      · refine ⟨advance f (inquireNext f s).1, ?_, ?_, hsa⟩
        · unfold allLoop
          rw [if_pos (show (advance f (inquireNext f s).1).seenAll = true from hsa)]
        · refine advance_inv f _ hinv ?_
          have := hinv.all hsa
          intro q hq n m hf
          exact this q (lt_of_get hf) n m hf

theorem lstep_inv (f : File Name Meta) (fuel : Nat) (hfuel : f.length + 1 ≤ fuel) (s : LState Name Meta)
    (h : LInv f s) (op : LOp Name) : ∃ s', lstep f fuel s op = some s' ∧ LInv f s' := by
  cases op with
  | inquireNext =>
    refine ⟨_, rfl, ?_⟩
    rcases inquireNext_spec f s h with ⟨q, n, m, _, _, _, _, hinv, _⟩ | ⟨_, hinv, _⟩ <;> exact hinv
  | inquire n =>
    rcases inquire_spec f n fuel s h hfuel with ⟨s', m, q, h1, h2, _⟩ | ⟨s', h1, h2, _⟩
    · exact ⟨s', by simp [lstep, h1], h2⟩
    · exact ⟨s', by simp [lstep, h1], h2⟩
  | inquireAll r =>
    unfold lstep inquireAll
    cases r with
    | true =>
      simp only [if_true, Bool.false_eq_true, if_false]
      obtain ⟨s', h1, h2, _⟩ := allLoop_spec f fuel { seen := [], seenAll := false, pos := 0 } (linit_inv f) (by simp; omega)
      exact ⟨s', h1, h2⟩
    | false =>
      simp only [Bool.false_eq_true, if_false]
      by_cases hall : s.seenAll
      · exact ⟨s, by simp [hall], h⟩
      · simp only [hall, Bool.false_eq_true, if_false]
        obtain ⟨s', h1, h2, _⟩ := allLoop_spec f fuel { s with pos := 0 }
          (h.seek 0 (by intro q hq; omega) (by omega)) (by simp; omega)
        simp only [hall] at h1
        exact ⟨s', h1, h2⟩
  | read n k =>
    unfold lstep
    rcases inquire_spec f n fuel s h hfuel with ⟨s', m, q, h1, h2, hp, hfst, hb⟩ | ⟨s', h1, h2, _⟩
    · simp only [h1]
      by_cases hno : noField f (s'.pos + 1) k
      · simp only [hno, if_true]
        refine ⟨_, rfl, h2.seek _ ?_ (by omega)⟩
        intro r hr n' m' hf
        by_cases hrq : r < q + 1
        · exact hb r hrq n' m' hf
        · exfalso
          unfold noField at hno
          rw [List.all_eq_true] at hno
          have hmem : some (n', m') ∈ (f.drop (s'.pos + 1)).take k := by
            rw [List.mem_iff_getElem?]
            refine ⟨r - (s'.pos + 1), ?_⟩
            rw [List.getElem?_take_of_lt (by omega), List.getElem?_drop]
            rw [← hf]; congr 1; omega
          have := hno _ hmem
          simp at this
      · simp only [hno, Bool.false_eq_true, if_false]
        exact ⟨s', rfl, h2⟩
    · simp only [h1]
      exact ⟨s', rfl, h2⟩
  | reopen => exact ⟨_, rfl, h.seek 0 (by intro q hq; omega) (by omega)⟩

theorem lexec_inv (f : File Name Meta) (fuel : Nat) (hfuel : f.length + 1 ≤ fuel) (ops : List (LOp Name)) :
    ∃ s, lexec f fuel ops = some s ∧ LInv f s := by
  unfold lexec
  have : ∀ (ops : List (LOp Name)) (s : LState Name Meta), LInv f s →
      ∃ s', ops.foldl (fun s op => s.bind fun s => lstep f fuel s op) (some s) = some s' ∧ LInv f s' := by
    intro ops
    induction ops with
    | nil => intro s hs; exact ⟨s, rfl, hs⟩
    | cons op ops ih =>
      intro s hs
      obtain ⟨s', h1, h2⟩ := lstep_inv f fuel hfuel s hs op
      simp only [List.foldl_cons, Option.bind_some, h1]
      exact ih s' h2
  exact this ops linit (linit_inv f)

end Viscid.Jrrle
