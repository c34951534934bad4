import Verif.Spec.Colors
import Mathlib.Data.List.Forall2
import Mathlib.Tactic.IntervalCases
/-!
# C131 texts for colours, C132 colours of topologies
-/
namespace Viscid.Props
open Viscid.Colors Viscid.Spec.Colors

theorem digit_val (c : Char) (n : Nat) (h : Digit c n) : isHex c = true ∧ hexVal c = some n ∧ c ≠ '#' := by
  rcases h with ⟨h1, rfl⟩ | ⟨h0, h1, rfl | rfl⟩
  · interval_cases n <;> decide
  · interval_cases n <;> decide
  · interval_cases n <;> decide

theorem digit_f : Digit 'f' 15 := .inr ⟨by decide, by decide, .inl rfl⟩

/-- codes of six or eight digits -/
inductive Long : Text → Colour → Prop
  | rgb6 {r r' g g' b b' x x' y y' z z'} : Digit r x → Digit r' x' → Digit g y → Digit g' y' → Digit b z → Digit b' z' →
      Long ['#', r, r', g, g', b, b'] ⟨16 * x + x', 16 * y + y', 16 * z + z', none⟩
  | rgba8 {r r' g g' b b' a a' x x' y y' z z' w w'} : Digit r x → Digit r' x' → Digit g y → Digit g' y' → Digit b z → Digit b' z' →
      Digit a w → Digit a' w' →
      Long ['#', r, r', g, g', b, b', a, a'] ⟨16 * x + x', 16 * y + y', 16 * z + z', some (16 * w + w')⟩

theorem code_long (named : Text → Text) (s : Text) (c : Colour) (h : Code s c) : Long (asHex named s) c := by
  cases h with
  | rgb6 h1 h2 h3 h4 h5 h6 =>
    rw [asHex, if_pos (by simp [hashHex, (digit_val _ _ h1).1, (digit_val _ _ h2).1, (digit_val _ _ h3).1, (digit_val _ _ h4).1,
      (digit_val _ _ h5).1, (digit_val _ _ h6).1])]
    exact .rgb6 h1 h2 h3 h4 h5 h6
  | rgba8 h1 h2 h3 h4 h5 h6 h7 h8 =>
    rw [asHex, if_pos (by simp [hashHex, (digit_val _ _ h1).1, (digit_val _ _ h2).1, (digit_val _ _ h3).1, (digit_val _ _ h4).1,
      (digit_val _ _ h5).1, (digit_val _ _ h6).1, (digit_val _ _ h7).1, (digit_val _ _ h8).1])]
    exact .rgba8 h1 h2 h3 h4 h5 h6 h7 h8
  | rgb3 h1 h2 h3 =>
    rename_i x y z
    rw [asHex, if_neg (by simp [hashHex, (digit_val _ _ h1).1, (digit_val _ _ h2).1, (digit_val _ _ h3).1]),
      if_pos (by simp [hashHex, (digit_val _ _ h1).1, (digit_val _ _ h2).1, (digit_val _ _ h3).1])]
    have := Long.rgb6 h1 h1 h2 h2 h3 h3
    simpa [show ∀ x : Nat, 16 * x + x = 17 * x by intro x; omega] using this
  | rgba4 h1 h2 h3 h4 =>
    rw [asHex, if_neg (by simp [hashHex, (digit_val _ _ h1).1, (digit_val _ _ h2).1, (digit_val _ _ h3).1, (digit_val _ _ h4).1]),
      if_pos (by simp [hashHex, (digit_val _ _ h1).1, (digit_val _ _ h2).1, (digit_val _ _ h3).1])]
    have := Long.rgba8 h1 h1 h2 h2 h3 h3 h4 h4
    simpa [show ∀ x : Nat, 16 * x + x = 17 * x by intro x; omega] using this

theorem means_long (named : Text → Text) (s : Text) (c : Colour) (h : Means named s c) : Long (asHex named s) c := by
  cases h with
  | code h => exact code_long named s c h
  | name h1 h2 h3 h4 =>
    have hh : ∀ n, hashHex n s = false := by
      intro n
      cases s with
      | nil => rfl
      | cons x s =>
        simp only [List.head?_cons, ne_eq, Option.some.injEq] at h1
        unfold hashHex
        split
        · rename_i h; simp only [List.cons.injEq] at h; exact absurd h.1 h1
        · rfl
    rw [asHex, if_neg (by simp [hh]), if_neg (by simp [hh])]
    generalize named s = t at h2 h4
    cases h4 with
    | rgb6 g1 g2 g3 g4 g5 g6 => exact .rgb6 g1 g2 g3 g4 g5 g6
    | rgba8 g1 g2 g3 g4 g5 g6 g7 g8 => exact .rgba8 g1 g2 g3 g4 g5 g6 g7 g8
    | rgb3 => simp at h2
    | rgba4 => simp at h2

theorem stringColors_eq (named : Text → Text) (l : List Text) :
    stringColors named l = (let m := l.map (asHex named); if m.any fun s => s.length = 9 then m.map ljust else m) := by
  unfold stringColors
  simp only
  have : l.all (hashHex 6) = true → l.map (asHex named) = l := by
    intro h
    rw [List.all_eq_true] at h
    conv => rhs; rw [← List.map_id l]
    apply List.map_congr_left
    intro s hs
    rw [asHex, if_pos (h s hs)]
    rfl
  by_cases h : l.all (hashHex 6) = true
  · rw [if_pos h, this h]
  · rw [if_neg h]

theorem long_length (t : Text) (c : Colour) (h : Long t c) : (t.length = 9 ↔ c.a.isSome) ∧ (t.length ≠ 9 → t.length = 7) := by
  cases h <;> simp

theorem long_plain (t : Text) (c : Colour) (h : Long t c) (h9 : t.length ≠ 9) :
    (t.dropWhile (· = '#')).length = 6 ∧ decode (t.dropWhile (· = '#')) = .ok (c.bytes false) := by
  cases h with
  | rgb6 h1 h2 h3 h4 h5 h6 =>
    have := (digit_val _ _ h1).2.2
    simp [this, decode, (digit_val _ _ h1).2.1, (digit_val _ _ h2).2.1, (digit_val _ _ h3).2.1, (digit_val _ _ h4).2.1,
      (digit_val _ _ h5).2.1, (digit_val _ _ h6).2.1, Colour.bytes]
  | rgba8 => simp at h9

theorem long_opaque (t : Text) (c : Colour) (h : Long t c) :
    ((ljust t).dropWhile (· = '#')).length = 8 ∧ decode ((ljust t).dropWhile (· = '#')) = .ok (c.bytes true) := by
  cases h with
  | rgb6 h1 h2 h3 h4 h5 h6 =>
    have := (digit_val _ _ h1).2.2
    have hf := (digit_val _ _ digit_f).2.1
    simp [ljust, this, decode, (digit_val _ _ h1).2.1, (digit_val _ _ h2).2.1, (digit_val _ _ h3).2.1, (digit_val _ _ h4).2.1,
      (digit_val _ _ h5).2.1, (digit_val _ _ h6).2.1, Colour.bytes, List.replicate_succ, hf]
  | rgba8 h1 h2 h3 h4 h5 h6 h7 h8 =>
    have := (digit_val _ _ h1).2.2
    simp [ljust, this, decode, (digit_val _ _ h1).2.1, (digit_val _ _ h2).2.1, (digit_val _ _ h3).2.1, (digit_val _ _ h4).2.1,
      (digit_val _ _ h5).2.1, (digit_val _ _ h6).2.1, (digit_val _ _ h7).2.1, (digit_val _ _ h8).2.1, Colour.bytes]

theorem mapM_forall2 (l : List Text) (cs : List Colour) (o : Bool)
    (h : List.Forall₂ (fun t c => decode t = .ok (Colour.bytes o c)) l cs) : l.mapM decode = .ok (cs.map (Colour.bytes o)) := by
  induction h with
  | nil => rfl
  | cons h1 _ ih => rw [List.mapM_cons, h1, ih]; rfl

theorem forall2_all {α β : Type} {R : α → β → Prop} {P : α → Prop} (l : List α) (m : List β) (h : List.Forall₂ R l m)
    (hp : ∀ a b, R a b → P a) : ∀ a ∈ l, P a := by
  induction h with
  | nil => simp
  | cons h1 _ ih =>
    intro a ha
    rcases List.mem_cons.mp ha with rfl | ha
    · exact hp _ _ h1
    · exact ih a ha

/-- C131: codes and names of colours become the bytes of these colours; if the opacity of any is given, the others are opaque. -/
theorem C131_colours_partial (named : Text → Text) (l : List Text) (cs : List Colour) (hne : l ≠ [])
    (h : List.Forall₂ (Means named) l cs) : colors named l = .ok (cs.map (Colour.bytes (cs.any fun c => c.a.isSome))) := by
  have hl : List.Forall₂ Long (l.map (asHex named)) cs := by
    rw [List.forall₂_map_left_iff]
    exact h.imp fun s c => means_long named s c
  unfold colors
  rw [stringColors_eq]
  simp only
  have hne' : l.map (asHex named) ≠ [] := by simpa using hne
  generalize l.map (asHex named) = m at hl hne'
  have hany : (m.any fun s => decide (s.length = 9)) = cs.any fun c => c.a.isSome := by
    clear hne' h hne
    induction hl with
    | nil => rfl
    | @cons t c _ _ h1 _ ih =>
      rw [List.any_cons, List.any_cons, ih]
      congr 1
      rw [Bool.eq_iff_iff, decide_eq_true_eq]
      exact (long_length t c h1).1
  rw [← hany]
  by_cases ha : (m.any fun s => decide (s.length = 9)) = true
  · rw [if_pos ha, ha]
    unfold bytes
    rw [List.map_map]
    have h8 : List.Forall₂ (fun t c => t.length = 8 ∧ decode t = .ok (Colour.bytes true c))
        (m.map ((fun s => s.dropWhile (· = '#')) ∘ ljust)) cs := by
      rw [List.forall₂_map_left_iff]
      exact hl.imp fun t c h => long_opaque t c h
    rw [if_neg (by simpa using hne'), if_pos (List.all_eq_true.mpr fun t ht => decide_eq_true (forall2_all (P := fun t => t.length = 8) _ _ h8 (fun _ _ h => h.1) t ht))]
    exact mapM_forall2 _ _ _ (h8.imp fun _ _ h => h.2)
  · rw [if_neg ha]
    have ha' : ∀ t ∈ m, t.length ≠ 9 := by simpa using ha
    rw [Bool.not_eq_true] at ha
    rw [ha]
    unfold bytes
    have h6 : List.Forall₂ (fun t c => t.length = 6 ∧ decode t = .ok (Colour.bytes false c)) (m.map fun s => s.dropWhile (· = '#')) cs := by
      rw [List.forall₂_map_left_iff]
      clear ha hany hne' h hne
      induction hl with
      | nil => exact .nil
      | cons h1 _ ih => exact .cons (long_plain _ _ h1 (ha' _ (by simp))) (ih fun t ht => ha' t (by simp [ht]))
    have hall := forall2_all (P := fun t => t.length = 6) _ _ h6 (fun _ _ h => h.1)
    rw [if_neg (by simpa using hne'), if_neg, if_pos (List.all_eq_true.mpr fun t ht => decide_eq_true (hall t ht))]
    · exact mapM_forall2 _ _ _ (h6.imp fun _ _ h => h.2)
    · rw [List.all_eq_true]
      intro h
      obtain ⟨t, r, rfl⟩ := List.exists_cons_of_ne_nil hne'
      have e1 := of_decide_eq_true (h (t.dropWhile (· = '#')) (by simp))
      have e2 := hall (t.dropWhile (· = '#')) (by simp)
      omega

/-- "#fd7400" and "#0f08" -/
example : List.Forall₂ (Means id) ["#fD7400".toList, "#0f08".toList] [⟨253, 116, 0, none⟩, ⟨0, 255, 0, some 136⟩] ∧
    colors id ["#fD7400".toList, "#0f08".toList] = .ok [[253, 116, 0, 255], [0, 255, 0, 136]] := by
  refine ⟨.cons (.code (@Code.rgb6 'f' 'D' '7' '4' '0' '0' 15 13 7 4 0 0 ?_ ?_ ?_ ?_ ?_ ?_))
    (.cons (.code (@Code.rgba4 '0' 'f' '0' '8' 0 15 0 8 ?_ ?_ ?_ ?_)) .nil), by decide +kernel⟩ <;> unfold Digit <;> decide

/-- C131 fails for what is no code of a colour: seven digits are a colour if there is another one with opacity, and otherwise an error
    that should never happen; so are five. -/
theorem C131_digits_violated : (∀ c, ¬ Means id "#1234567".toList c) ∧ (∀ c, ¬ Means id "#12345".toList c) ∧
    colors id ["#1234567".toList, "#00000000".toList] = .ok [[18, 52, 86, 127], [0, 0, 0, 0]] ∧
    colors id ["#1234567".toList] = .error .notImplemented ∧ colors id ["#12345".toList] = .error .notImplemented := by
  refine ⟨?_, ?_, by decide +kernel, by decide +kernel, by decide +kernel⟩ <;> intro c h
  · cases h with
    | code h => cases h
    | name h => exact h rfl
  · cases h with
    | code h => cases h
    | name h => exact h rfl

/-! ### C132 -/

/-- C132: each value has the colour that is given for it, and the bad colour, or black, if there is none -/
theorem C132_colour (style : Style) (bad : Option Rgb) (m : List (Int × Rgb)) (hm : style = .dict m) (hd : (m.map (·.1)).Nodup)
    (l : List Int) : ∃ r, topology2color (.many l) style bad = .many r ∧ r.length = l.length ∧
      ∀ (i : Nat) (t : Int), l[i]? = some t →
        (∀ c, (t, c) ∈ m → r[i]? = some c) ∧
        ((∀ c, (t, c) ∉ m) → r[i]? = some (match bad with | some c => c | none => (0, 0, 0))) ∧
        ∀ c, r[i]? = some c → topology2color (.one t) style bad = .one c := by
  subst hm
  refine ⟨_, rfl, by simp, ?_⟩
  intro i t ht
  have hg : ∀ c, (t, c) ∈ m → Colors.get m t = some c := by
    intro c hc
    unfold Colors.get
    induction m with
    | nil => simp at hc
    | cons x m ih =>
      rw [List.map_cons, List.nodup_cons] at hd
      rcases List.mem_cons.mp hc with rfl | hc
      · simp
      · have hx : x.1 ≠ t := by
          rintro rfl
          exact hd.1 (List.mem_map.mpr ⟨_, hc, rfl⟩)
        rw [List.find?_cons_of_neg (by simpa using hx)]
        exact ih hd.2 hc
  have hn : (∀ c, (t, c) ∉ m) → Colors.get m t = none := by
    intro h
    unfold Colors.get
    rw [Option.map_eq_none_iff, List.find?_eq_none]
    rintro ⟨k, c⟩ hk
    simp only [decide_eq_true_eq]
    rintro rfl
    exact h c hk
  refine ⟨fun c hc => ?_, fun h => ?_, fun c hc => ?_⟩
  · rw [List.getElem?_map, ht]
    simp [mappingOf, hg c hc]
  · rw [List.getElem?_map, ht]
    simp only [mappingOf, hn h, Option.map_some, badOf]
    cases bad <;> rfl
  · rw [List.getElem?_map, ht] at hc
    simp only [mappingOf, Option.map_some, Option.some.injEq] at hc
    subst hc
    simp only [topology2color, mappingOf]
    cases Colors.get m t <;> rfl

/-- C132: without a mapping: closed lines are green, those open to the north blue, those open to the south red and those of the solar
    wind grey; with one that is not known, all are bad. -/
theorem C132_magnetosphere (bad : Option Rgb) :
    topology2color (.many [Streamline.TOPOLOGY_MS_CLOSED, Streamline.TOPOLOGY_MS_OPEN_NORTH, Streamline.TOPOLOGY_MS_OPEN_SOUTH,
      Streamline.TOPOLOGY_MS_SW]) .msphere bad = .many [(0, 4/5, 0), (0, 0, 7/10), (7/10, 0, 0), (7/10, 7/10, 7/10)] ∧
    (∀ t : Int, t ≠ 1 → t ≠ 2 → t ≠ 4 → t ≠ 8 → topology2color (.one t) .msphere bad = .one (bad.getD (0, 0, 0))) ∧
    ∀ t : Int, topology2color (.one t) .other bad = .one (bad.getD (0, 0, 0)) := by
  refine ⟨rfl, ?_, fun t => rfl⟩
  intro t h1 h2 h4 h8
  have : Colors.get msphere t = none := by
    unfold Colors.get msphere
    simp [Streamline.TOPOLOGY_MS_CLOSED, Streamline.TOPOLOGY_MS_OPEN_NORTH, Streamline.TOPOLOGY_MS_OPEN_SOUTH,
      Streamline.TOPOLOGY_MS_SW, h1.symm, h2.symm, h4.symm, h8.symm]
  simp only [topology2color, mappingOf, this]
  rfl

example : topology2color (.many [5, 1]) (.dict [(1, (1, 0, 0)), (5, (0, 1, 0))]) none = .many [(0, 1, 0), (1, 0, 0)] := by decide

end Viscid.Props
