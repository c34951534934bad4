import Verif.Spec.VpicGlobal
import Verif.Props.LogValue
/-!
# C224: the global file of a VPIC run
-/
namespace Viscid.Props
namespace VG
open Viscid.VpicGlobal Viscid.Spec.VpicGlobal
open Viscid.LogValue (Text isSpace strip split intOf)
open Viscid.Spec.LogValue (IntText)
open Viscid.Spec.AsCotr (Blank)

/-! ## Blanks and words -/

theorem sp {c : Char} (h : Blank c) : isSpace c = true := (LV.blank_iff c).2 h
theorem nsp {c : Char} (h : ¬ Blank c) : isSpace c = false := by
  cases e : isSpace c with
  | false => rfl
  | true => exact absurd ((LV.blank_iff c).1 e) h

def rs (s : Text) : Text := (s.reverse.dropWhile isSpace).reverse

theorem strip_blank (b s : Text) (h : ∀ c ∈ b, Blank c) : strip (b ++ s) = strip s := by
  unfold strip
  rw [List.dropWhile_append_of_pos (fun c hc => sp (h c hc))]

theorem rs_cons (p : Text) (c : Char) (s : Text) (h : ¬ Blank c) : rs (p ++ c :: s) = p ++ c :: rs s := by
  unfold rs
  rw [List.reverse_append, List.reverse_cons, List.append_assoc, List.dropWhile_append]
  split
  · rename_i e
    have e' : List.dropWhile isSpace s.reverse = [] := by simpa using e
    rw [e', List.dropWhile_append, List.dropWhile_cons_of_neg (by rw [nsp h]; simp)]
    simp
  · simp

theorem strip_cons (b : Text) (c : Char) (s : Text) (hb : ∀ c ∈ b, Blank c) (h : ¬ Blank c) : strip (b ++ c :: s) = c :: rs s := by
  rw [strip_blank b _ hb]
  unfold strip
  rw [List.dropWhile_cons_of_neg (by rw [nsp h]; simp)]
  exact rs_cons [] c s h

theorem wordsAux_blank (b s : Text) (h : ∀ c ∈ b, Blank c) : wordsAux [] (b ++ s) = wordsAux [] s := by
  induction b with
  | nil => rfl
  | cons c b ih =>
    simp only [List.cons_append, wordsAux, sp (h c (by simp)), if_true]
    exact ih fun c hc => h c (by simp [hc])

theorem wordsAux_word (cur w r : Text) (h : ∀ c ∈ w, ¬ Blank c) : wordsAux cur (w ++ r) = wordsAux (cur ++ w) r := by
  induction w generalizing cur with
  | nil => simp
  | cons c w ih =>
    simp only [List.cons_append, wordsAux, nsp (h c (by simp))]
    rw [if_neg (by simp), ih _ fun c hc => h c (by simp [hc])]
    simp

theorem wordsAux_end (cur r : Text) (h : cur ≠ []) (hr : ∀ c, r.head? = some c → Blank c) : wordsAux cur r = cur :: wordsAux [] r := by
  cases r with
  | nil => simp [wordsAux, h]
  | cons c r => simp [wordsAux, h, sp (hr c rfl)]

theorem words_of {l : Text} {ws : List Text} (h : Words l ws) : words l = ws := by
  unfold words
  induction h with
  | nil h =>
    rename_i b
    rw [← List.append_nil b, wordsAux_blank _ _ h]
    rfl
  | cons hb hw hn hr _ ih =>
    rw [List.append_assoc, wordsAux_blank _ _ hb, wordsAux_word _ _ _ hn, List.nil_append, wordsAux_end _ _ hw hr, ih]

theorem wordsAux_back (cur s b : Text) (h : ∀ c ∈ b, isSpace c = true) : wordsAux cur (s ++ b) = wordsAux cur s := by
  induction s generalizing cur with
  | nil =>
    induction b generalizing cur with
    | nil => rfl
    | cons c b ih =>
      have ih' := ih fun c hc => h c (by simp [hc])
      simp only [List.nil_append] at ih' ⊢
      simp only [wordsAux, h c (by simp), if_true, ih']
  | cons c s ih =>
    simp only [List.cons_append, wordsAux, ih]

theorem words_rs (s : Text) : words (rs s) = words s := by
  have e : s = rs s ++ (s.reverse.takeWhile isSpace).reverse := by
    unfold rs
    rw [← List.reverse_append, List.takeWhile_append_dropWhile, List.reverse_reverse]
  conv_rhs => rw [e]
  unfold words
  rw [wordsAux_back]
  intro c hc
  rw [List.mem_reverse] at hc
  exact List.all_eq_true.1 (List.all_takeWhile (p := isSpace) (l := s.reverse)) c hc

theorem rs_sub (s : Text) (c : Char) (h : c ∈ rs s) : c ∈ s := by
  unfold rs at h
  rw [List.mem_reverse] at h
  exact List.mem_reverse.1 ((List.dropWhile_suffix _).subset h)

theorem line_shape {l w : Text} {ws : List Text} (h : Words l (w :: ws)) :
    ∃ b c s, l = b ++ c :: s ∧ (∀ c ∈ b, Blank c) ∧ ¬ Blank c ∧ w.head? = some c ∧ words (c :: s) = w :: ws := by
  have e := words_of h
  cases h with
  | cons hb hw hn hr hrest =>
    rename_i b r
    cases w with
    | nil => exact absurd rfl hw
    | cons c w =>
      refine ⟨b, c, w ++ r, by simp, hb, hn c (by simp), rfl, ?_⟩
      rw [List.append_assoc] at e
      unfold words at e ⊢
      rw [wordsAux_blank _ _ hb] at e
      exact e

theorem line_of {l w : Text} {ws : List Text} (h : Line l w ws) : skipped (strip l) = false ∧ words (strip l) = w :: ws := by
  obtain ⟨b, c, s, rfl, hb, hc, hw, e⟩ := line_shape h.1
  rw [strip_cons b c s hb hc]
  constructor
  · have : c ≠ '#' := by
      rintro rfl
      exact h.2 hw
    simp [skipped, this]
  · have := rs_cons [] c s hc
    simp only [List.nil_append] at this
    rw [← this, words_rs, e]

theorem hash_not_blank : ¬ Blank '#' := by unfold Blank; decide
theorem quote_not_blank : ¬ Blank '"' := by unfold Blank; decide

theorem skip_of {l : Text} (h : Skip l) : skipped (strip l) = true := by
  obtain ⟨b, r, rfl, hb, rfl | hr⟩ := h
  · rw [strip_blank b [] hb]
    decide
  · cases r with
    | nil => simp at hr
    | cons c r =>
      simp only [List.head?_cons, Option.some.injEq] at hr
      subst hr
      rw [strip_cons b '#' r hb hash_not_blank]
      simp [skipped]

/-! ## Variables -/

theorem descr_of {v : Var} (h : v.Ok) (off : Int) : descr (strip v.line) off = .ok ⟨v.name, v.kind, v.comps, v.basic, off⟩ := by
  obtain ⟨b, rest, n, t, k, e, hb, hn, hr, hw, hi, ht⟩ := h
  have es : strip v.line = '"' :: (v.name ++ '"' :: rs rest) := by
    rw [e, List.append_assoc, List.cons_append]
    rw [strip_cons b '"' _ hb quote_not_blank, rs_cons _ _ _ quote_not_blank]
  have hs : split '"' (strip v.line) = [[], v.name, rs rest] := by
    rw [es]
    have := LV.split_append '"' [] (v.name ++ '"' :: rs rest) (by simp)
    simp only [List.nil_append] at this
    rw [this, LV.split_append _ _ _ hn, LV.split_none _ _ fun hq => hr (rs_sub _ _ hq)]
  unfold descr
  rw [hs]
  simp only [List.drop_succ_cons, List.drop_zero, words_rs, words_of hw, (LV.intOf_iff _ _).2 hi]
  cases hbv : v.basic with
  | float4 =>
    rw [hbv] at ht
    simp only [(LV.intOf_iff _ _).2 ht.2, ht.1, and_self, if_true]
  | int2 =>
    rw [hbv] at ht
    simp only [(LV.intOf_iff _ _).2 ht.2, ht.1]
    rw [if_neg (by decide), if_pos ⟨trivial, trivial⟩]

/-- numbered from an offset -/
def from' (off : Int) : List Var → List Descr
  | [] => []
  | v :: vs => ⟨v.name, v.kind, v.comps, v.basic, off⟩ :: from' (off + v.comps) vs

theorem from_eq (off : Int) (vs : List Var) :
    from' off vs = vs.mapIdx fun i v => ⟨v.name, v.kind, v.comps, v.basic, off + (((vs.take i).map Var.comps).sum : Nat)⟩ := by
  induction vs generalizing off with
  | nil => rfl
  | cons v vs ih =>
    rw [from', ih, List.mapIdx_cons]
    congr 1
    · simp
    · congr 1
      funext i w
      simp only [List.take_succ_cons, List.map_cons, List.sum_cons, Nat.cast_add, Int.add_assoc]

theorem numbered_eq (vs : List Var) : numbered vs = from' 0 vs := by
  rw [from_eq]; simp [numbered]

theorem descrs_of (vs : List Var) (h : ∀ v ∈ vs, v.Ok) (off : Int) (rest : List Text) :
    descrs vs.length off (vs.map Var.line ++ rest) = .ok (from' off vs, rest) := by
  induction vs generalizing off with
  | nil => rfl
  | cons v vs ih =>
    simp only [List.length_cons, List.map_cons, List.cons_append, descrs, descr_of (h v (by simp)), from']
    rw [ih (fun v hv => h v (by simp [hv]))]

/-! ## Species -/

theorem given_cons {h : Head} {hs : List Head} {key v : Text} (g : Given (h :: hs) key v) :
    Given hs key v ∨ ((∀ l' v', Head.pair l' key v' ∉ hs) ∧ ∃ l, h = .pair l key v) := by
  obtain ⟨a, l, b, e, hb⟩ := g
  cases a with
  | nil =>
    simp only [List.nil_append, List.cons.injEq] at e
    obtain ⟨rfl, rfl⟩ := e
    exact .inr ⟨hb, l, rfl⟩
  | cons x a =>
    simp only [List.cons_append, List.cons.injEq] at e
    exact .inl ⟨a, l, b, e.2, hb⟩

/-- the keyword will have this value after these lines -/
def Will (kw : Text → Option Text) (hs : List Head) (key v : Text) : Prop :=
  Given hs key v ∨ ((∀ l' v', Head.pair l' key v' ∉ hs) ∧ kw key = some v)

theorem species_head (hs : List Head) (h : ∀ x ∈ hs, x.Ok) (kw : Text → Option Text) (l dir base n : Text) (vars : List Var) (rest : List Text)
    (hl : Line l "HYDRO_DATA_VARIABLES".toList [n]) (hn : IntText n vars.length)
    (hd : Will kw hs "SPECIES_DATA_DIRECTORY".toList dir) (hb : Will kw hs "SPECIES_DATA_BASE_FILENAME".toList base) (hv : ∀ v ∈ vars, v.Ok) :
    oneSpecies kw (hs.map Head.line ++ l :: (vars.map Var.line ++ rest)) = .ok (⟨dir, base, numbered vars⟩, rest) := by
  induction hs generalizing kw with
  | nil =>
    have hd' : kw "SPECIES_DATA_DIRECTORY".toList = some dir := by
      rcases hd with ⟨a, _, _, e, _⟩ | ⟨_, e⟩
      · simp at e
      · exact e
    have hb' : kw "SPECIES_DATA_BASE_FILENAME".toList = some base := by
      rcases hb with ⟨a, _, _, e, _⟩ | ⟨_, e⟩
      · simp at e
      · exact e
    obtain ⟨h1, h2⟩ := line_of hl
    simp only [List.map_nil, List.nil_append, oneSpecies, h1, h2, if_true, (LV.intOf_iff _ _).2 hn, hd', hb', Int.toNat_natCast,
      descrs_of vars hv, numbered_eq]
    rfl
  | cons x hs ih =>
    have hx := h x (by simp)
    have hr : ∀ y ∈ hs, y.Ok := fun y hy => h y (by simp [hy])
    cases x with
    | skip s =>
      simp only [List.map_cons, Head.line, List.cons_append, oneSpecies, skip_of (show Skip s from hx), if_true]
      refine ih hr kw ?_ ?_
      · rcases hd with g | ⟨g, e⟩
        · rcases given_cons g with g | ⟨_, _, g⟩
          · exact .inl g
          · cases g
        · exact .inr ⟨fun l' v' hm => g l' v' (List.mem_cons_of_mem _ hm), e⟩
      · rcases hb with g | ⟨g, e⟩
        · rcases given_cons g with g | ⟨_, _, g⟩
          · exact .inl g
          · cases g
        · exact .inr ⟨fun l' v' hm => g l' v' (List.mem_cons_of_mem _ hm), e⟩
    | pair s k v =>
      obtain ⟨h1, h2⟩ := line_of hx.1
      simp only [List.map_cons, Head.line, List.cons_append, oneSpecies, h1, h2, if_neg hx.2, Bool.false_eq_true, if_false]
      have step : ∀ key w, Will kw (Head.pair s k v :: hs) key w → Will (fun x => if x = k then some v else kw x) hs key w := by
        intro key w hw
        rcases hw with g | ⟨g, e⟩
        · rcases given_cons g with g | ⟨g', _, e⟩
          · exact .inl g
          · cases e
            exact .inr ⟨g', by simp⟩
        · refine .inr ⟨fun l' v' hm => g l' v' (by simp [hm]), ?_⟩
          have : key ≠ k := by
            rintro rfl
            exact g s v (by simp)
          simp [this, e]
      exact ih hr _ (step _ _ hd) (step _ _ hb)

theorem oneSpecies_of {s : Species} (h : s.Ok) (rest : List Text) : oneSpecies (fun _ => none) (s.lines ++ rest) = .ok (Species.asSet s, rest) := by
  obtain ⟨h1, ⟨n, h2, h3⟩, h4, h5, h6⟩ := h
  have := species_head s.head h1 (fun _ => none) s.line s.dir s.base n s.vars rest h2 h3 (.inl h4) (.inl h5) h6
  simpa [Species.lines, Species.asSet] using this

theorem manySpecies_of (ss : List Species) (h : ∀ s ∈ ss, s.Ok) (rest : List Text) :
    manySpecies ss.length (ss.flatMap Species.lines ++ rest) = .ok (ss.map Species.asSet, rest) := by
  induction ss with
  | nil => rfl
  | cons s ss ih =>
    simp only [List.length_cons, List.flatMap_cons, List.append_assoc, manySpecies, oneSpecies_of (h s (by simp)),
      ih (fun s hs => h s (by simp [hs])), List.map_cons]

/-! ## Keywords -/

def Kw (k : String) (d : Kind) : Prop :=
  keywords.lookup k.toList = some d ∧ k.toList ≠ "VPIC_HEADER_VERSION".toList ∧ k.toList ≠ "FIELD_DATA_VARIABLES".toList ∧
    k.toList ≠ "NUM_OUTPUT_SPECIES".toList

instance (k d) : Decidable (Kw k d) := by unfold Kw; infer_instance

theorem kw_ints : ∀ k ∈ ints, Kw k .i := by decide +kernel
theorem kw_floats : ∀ k ∈ floats, Kw k .f := by decide +kernel
theorem kw_pairs : ∀ k ∈ pairs, Kw k .f2 := by decide +kernel
theorem kw_texts : ∀ k ∈ texts, Kw k .s := by decide +kernel

theorem kw_keys : ∀ p ∈ keywords, ∃ k ∈ known, p.1 = k.toList := by decide +kernel

theorem kw_none {w : Text} (h : ∀ k ∈ known, w ≠ k.toList) : keywords.lookup w = none := by
  rw [List.lookup_eq_none_iff]
  intro p hp
  obtain ⟨k, hk, e⟩ := kw_keys p hp
  have := h k hk
  rw [← e] at this
  simpa using this

theorem dispatch_kw (float : Text → Option ℚ) {key : String} {ws : List Text} {v : Val} (h : Says float key ws v) (ls : List Text) (st : St) :
    dispatch float (key.toList :: ws) ls st = .ok ({ st with kw := fun x => if x = key.toList then some v else st.kw x }, ls) := by
  cases v with
  | int n =>
    obtain ⟨hk, w, rfl, hw⟩ := h
    obtain ⟨k1, k2, k3, k4⟩ := kw_ints key hk
    simp only [dispatch, k1, if_neg k2, if_neg k3, if_neg k4, value, List.mapM_cons, List.mapM_nil, (LV.intOf_iff _ _).2 hw]
    rfl
  | flt x =>
    obtain ⟨hk, w, rfl, hw⟩ := h
    obtain ⟨k1, k2, k3, k4⟩ := kw_floats key hk
    simp only [dispatch, k1, if_neg k2, if_neg k3, if_neg k4, value, List.mapM_cons, List.mapM_nil, hw]
    rfl
  | two x y =>
    obtain ⟨hk, u, w, rfl, hu, hw⟩ := h
    obtain ⟨k1, k2, k3, k4⟩ := kw_pairs key hk
    simp only [dispatch, k1, if_neg k2, if_neg k3, if_neg k4, value, List.mapM_cons, List.mapM_nil, hu, hw]
    rfl
  | text s =>
    obtain ⟨hk, rfl⟩ := h
    obtain ⟨k1, k2, k3, k4⟩ := kw_texts key hk
    simp only [dispatch, k1, if_neg k2, if_neg k3, if_neg k4, value]

/-! ## The file -/

theorem snoc_split {ps a b : List Part} {p x : Part} (h : ps ++ [p] = a ++ x :: b) :
    (b = [] ∧ ps = a ∧ p = x) ∨ ∃ b', b = b' ++ [p] ∧ ps = a ++ x :: b' := by
  rcases List.eq_nil_or_concat b with rfl | ⟨b', y, rfl⟩
  · have := List.append_inj' h rfl
    exact .inl ⟨rfl, this.1, by simpa using this.2⟩
  · have h' : ps ++ [p] = (a ++ x :: b') ++ [y] := by simpa using h
    have := List.append_inj' h' rfl
    have e : p = y := by simpa using this.2
    exact .inr ⟨b', by simp [e], this.1⟩

theorem last_snoc {ps : List Part} {p : Part} {key : String} {v : Val} (h : Last (ps ++ [p]) key v) :
    (∃ l, p = .keyword l key v) ∨ ((∀ l v', p ≠ .keyword l key v') ∧ Last ps key v) := by
  obtain ⟨a, l, b, e, hb⟩ := h
  rcases snoc_split e with ⟨_, _, rfl⟩ | ⟨b', rfl, e'⟩
  · exact .inl ⟨l, rfl⟩
  · refine .inr ⟨fun l v' e => hb l v' (by simp [e]), a, l, b', e', fun l' v' hm => hb l' v' (by simp [hm])⟩

structure Inv (ps : List Part) (st : St) : Prop where
  kw : ∀ key v, Last ps key v → st.kw key.toList = some v
  none : ∀ key : String, (∀ l v, Part.keyword l key v ∉ ps) → st.kw key.toList = none
  fields : ∀ dir base vars, LastFields ps dir base vars → st.fields = some ⟨dir, base, numbered vars⟩
  nofields : (∀ l vs, Part.fields l vs ∉ ps) → st.fields = Option.none
  species : ∀ ss, LastSpecies ps ss → st.species = some (ss.map Species.asSet)
  nospecies : (∀ l ss, Part.species l ss ∉ ps) → st.species = Option.none

theorem inv_nil : Inv [] ⟨fun _ => none, none, none⟩ where
  kw := by rintro _ _ ⟨_, _, _, e, _⟩; simp at e
  none := fun _ _ => rfl
  fields := by rintro _ _ _ ⟨_, _, _, e, _⟩; simp at e
  nofields := fun _ => rfl
  species := by rintro _ ⟨_, _, _, e, _⟩; simp at e
  nospecies := fun _ => rfl

theorem lastFields_snoc {ps : List Part} {p : Part} {dir base : Text} {vars : List Var} (h : LastFields (ps ++ [p]) dir base vars) :
    (∃ l, p = .fields l vars ∧ Last ps "FIELD_DATA_DIRECTORY" (.text dir) ∧ Last ps "FIELD_DATA_BASE_FILENAME" (.text base)) ∨
      ((∀ l vs, p ≠ .fields l vs) ∧ LastFields ps dir base vars) := by
  obtain ⟨a, l, b, e, hb, h1, h2⟩ := h
  rcases snoc_split e with ⟨_, rfl, rfl⟩ | ⟨b', rfl, e'⟩
  · exact .inl ⟨l, rfl, h1, h2⟩
  · exact .inr ⟨fun l vs e => hb l vs (by simp [e]), a, l, b', e', fun l' v' hm => hb l' v' (by simp [hm]), h1, h2⟩

theorem lastSpecies_snoc {ps : List Part} {p : Part} {ss : List Species} (h : LastSpecies (ps ++ [p]) ss) :
    (∃ l, p = .species l ss) ∨ ((∀ l vs, p ≠ .species l vs) ∧ LastSpecies ps ss) := by
  obtain ⟨a, l, b, e, hb⟩ := h
  rcases snoc_split e with ⟨_, rfl, rfl⟩ | ⟨b', rfl, e'⟩
  · exact .inl ⟨l, rfl⟩
  · exact .inr ⟨fun l vs e => hb l vs (by simp [e]), a, l, b', e', fun l' v' hm => hb l' v' (by simp [hm])⟩

/-- parts that are no keyword, fields nor species change nothing -/
theorem inv_same {ps : List Part} {st : St} (i : Inv ps st) (p : Part) (h1 : ∀ l k v, p ≠ .keyword l k v) (h2 : ∀ l vs, p ≠ .fields l vs)
    (h3 : ∀ l ss, p ≠ .species l ss) : Inv (ps ++ [p]) st where
  kw key v h := by
    rcases last_snoc h with ⟨l, e⟩ | ⟨_, h⟩
    · exact absurd e (h1 _ _ _)
    · exact i.kw key v h
  none key h := i.none key fun l v hm => h l v (by simp [hm])
  fields dir base vars h := by
    rcases lastFields_snoc h with ⟨l, e, _⟩ | ⟨_, h⟩
    · exact absurd e (h2 _ _)
    · exact i.fields _ _ _ h
  nofields h := i.nofields fun l v hm => h l v (by simp [hm])
  species ss h := by
    rcases lastSpecies_snoc h with ⟨l, e⟩ | ⟨_, h⟩
    · exact absurd e (h3 _ _)
    · exact i.species _ h
  nospecies h := i.nospecies fun l v hm => h l v (by simp [hm])

/-- one line that stands for itself -/
theorem parse_line (float : Text → Option ℚ) {l w : Text} {ws : List Text} (h : Line l w ws) (f : Nat) (ls : List Text) (st : St) :
    parse float (f + 1) (l :: ls) st = (match dispatch float (w :: ws) ls st with
      | .error e => .error e
      | .ok (st, ls) => parse float f ls st) := by
  obtain ⟨h1, h2⟩ := line_of h
  simp only [parse, h1, h2, Bool.false_eq_true, if_false]
  cases dispatch float (w :: ws) ls st <;> rfl

theorem part_step (float : Text → Option ℚ) (ps : List Part) (p : Part) (hp : p.Ok float) (st : St) (i : Inv ps st)
    (ho : ∀ l vars, p = .fields l vars → ∃ dir base, Last ps "FIELD_DATA_DIRECTORY" (.text dir) ∧ Last ps "FIELD_DATA_BASE_FILENAME" (.text base))
    (rest : List Text) (f : Nat) (hf : (p.lines ++ rest).length ≤ f) :
    ∃ f' st', rest.length ≤ f' ∧ parse float f (p.lines ++ rest) st = parse float f' rest st' ∧ Inv (ps ++ [p]) st' := by
  cases f with
  | zero => cases p <;> simp [Part.lines] at hf
  | succ f =>
    simp only [List.length_append] at hf
    cases p with
    | skip l =>
      refine ⟨f, st, by simp [Part.lines] at hf; omega, ?_, inv_same i _ (by simp) (by simp) (by simp)⟩
      simp [Part.lines, parse, skip_of (show Skip l from hp)]
    | version l =>
      refine ⟨f, st, by simp [Part.lines] at hf; omega, ?_, inv_same i _ (by simp) (by simp) (by simp)⟩
      simp only [Part.lines, List.cons_append, List.nil_append]
      rw [parse_line float (show Line l _ _ from hp)]
      simp [dispatch]
    | other l =>
      obtain ⟨w, ws, hl, hk⟩ := hp
      refine ⟨f, st, by simp [Part.lines] at hf; omega, ?_, inv_same i _ (by simp) (by simp) (by simp)⟩
      simp only [Part.lines, List.cons_append, List.nil_append]
      rw [parse_line float hl]
      have n1 := hk "VPIC_HEADER_VERSION" (by simp [known])
      have n2 := hk "FIELD_DATA_VARIABLES" (by simp [known])
      have n3 := hk "NUM_OUTPUT_SPECIES" (by simp [known])
      simp only [dispatch, if_neg n1, if_neg n2, if_neg n3, kw_none hk]
    | keyword l key v =>
      obtain ⟨ws, hl, hs⟩ := hp
      refine ⟨f, { st with kw := fun x => if x = key.toList then some v else st.kw x }, by simp [Part.lines] at hf; omega, ?_, ?_⟩
      · simp only [Part.lines, List.cons_append, List.nil_append]
        rw [parse_line float hl, dispatch_kw float hs]
      · refine ⟨?_, ?_, ?_, ?_, ?_, ?_⟩
        · intro k u h
          rcases last_snoc h with ⟨l', e⟩ | ⟨hn, h⟩
          · injection e with e1 e2 e3
            subst e2 e3
            simp
          · have : k.toList ≠ key.toList := by
              intro e
              have := String.toList_injective e
              subst this
              exact hn l v rfl
            simp only [if_neg this]
            exact i.kw k u h
        · intro k h
          have : k.toList ≠ key.toList := by
            intro e
            have := String.toList_injective e
            subst this
            exact h l v (by simp)
          simp only [if_neg this]
          exact i.none k fun l v hm => h l v (by simp [hm])
        · intro dir base vars h
          rcases lastFields_snoc h with ⟨l, e, _⟩ | ⟨_, h⟩
          · cases e
          · exact i.fields _ _ _ h
        · exact fun h => i.nofields fun l v hm => h l v (by simp [hm])
        · intro ss h
          rcases lastSpecies_snoc h with ⟨l, e⟩ | ⟨_, h⟩
          · cases e
          · exact i.species _ h
        · exact fun h => i.nospecies fun l v hm => h l v (by simp [hm])
    | fields l vars =>
      obtain ⟨⟨n, hl, hn⟩, hv⟩ := hp
      obtain ⟨dir, base, hd, hb⟩ := ho l vars rfl
      refine ⟨f, { st with fields := some ⟨dir, base, numbered vars⟩ }, by simp [Part.lines] at hf; omega, ?_, ?_⟩
      · simp only [Part.lines, List.cons_append]
        rw [parse_line float hl]
        have k1 := i.kw _ _ hd
        have k2 := i.kw _ _ hb
        simp only [dispatch]
        rw [if_neg (by decide)]
        simp only [if_true, (LV.intOf_iff _ _).2 hn, k1, k2, Int.toNat_natCast, descrs_of vars hv, numbered_eq]
      · refine ⟨?_, ?_, ?_, ?_, ?_, ?_⟩
        · intro k u h
          rcases last_snoc h with ⟨l', e⟩ | ⟨hn, h⟩
          · cases e
          · exact i.kw k u h
        · exact fun k h => i.none k fun l v hm => h l v (by simp [hm])
        · intro dir' base' vars' h
          rcases lastFields_snoc h with ⟨l, e, h1, h2⟩ | ⟨h, _⟩
          · injection e with e1 e2
            subst e2
            have e1 := (i.kw _ _ h1).symm.trans (i.kw _ _ hd)
            have e2 := (i.kw _ _ h2).symm.trans (i.kw _ _ hb)
            simp only [Option.some.injEq, Val.text.injEq] at e1 e2
            rw [e1, e2]
          · exact absurd rfl (h _ _)
        · exact fun h => absurd (h l vars) (by simp)
        · intro ss h
          rcases lastSpecies_snoc h with ⟨l, e⟩ | ⟨_, h⟩
          · cases e
          · exact i.species _ h
        · exact fun h => i.nospecies fun l v hm => h l v (by simp [hm])
    | species l sp =>
      obtain ⟨⟨n, hl, hn⟩, hv⟩ := hp
      refine ⟨f, { st with species := some (sp.map Species.asSet) }, by simp [Part.lines] at hf; omega, ?_, ?_⟩
      · simp only [Part.lines, List.cons_append]
        rw [parse_line float hl]
        simp only [dispatch]
        rw [if_neg (by decide), if_neg (by decide)]
        simp only [if_true, (LV.intOf_iff _ _).2 hn, Int.toNat_natCast, manySpecies_of sp hv]
      · refine ⟨?_, ?_, ?_, ?_, ?_, ?_⟩
        · intro k u h
          rcases last_snoc h with ⟨l', e⟩ | ⟨hn, h⟩
          · cases e
          · exact i.kw k u h
        · exact fun k h => i.none k fun l v hm => h l v (by simp [hm])
        · intro dir base vars h
          rcases lastFields_snoc h with ⟨l, e, _⟩ | ⟨_, h⟩
          · cases e
          · exact i.fields _ _ _ h
        · exact fun h => i.nofields fun l v hm => h l v (by simp [hm])
        · intro ss h
          rcases lastSpecies_snoc h with ⟨l, e⟩ | ⟨h, _⟩
          · injection e with e1 e2
            subst e2
            rfl
          · exact absurd rfl (h _ _)
        · exact fun h => absurd (h l sp) (by simp)

theorem parts_run (float : Text → Option ℚ) (todo : List Part) : ∀ (done : List Part) (st : St) (_ : ∀ p ∈ todo, p.Ok float) (_ : Ordered (done ++ todo))
    (_ : Inv done st) (rest : List Text) (f : Nat) (_ : (todo.flatMap Part.lines ++ rest).length ≤ f),
    ∃ f' st', rest.length ≤ f' ∧ parse float f (todo.flatMap Part.lines ++ rest) st = parse float f' rest st' ∧ Inv (done ++ todo) st' := by
  induction todo with
  | nil =>
    intro done st _ _ i rest f hf
    exact ⟨f, st, by simpa using hf, rfl, by simpa using i⟩
  | cons p todo ih =>
    intro done st hok ho i rest f hf
    rw [List.flatMap_cons, List.append_assoc] at hf ⊢
    obtain ⟨f1, st1, h1, e1, i1⟩ := part_step float done p (hok p (by simp)) st i (fun l vars e => ho done l vars todo (by rw [e])) _ f hf
    obtain ⟨f2, st2, h2, e2, i2⟩ := ih (done ++ [p]) st1 (fun q hq => hok q (by simp [hq])) (by simpa using ho) i1 rest f1 h1
    exact ⟨f2, st2, h2, e1.trans e2, by simpa using i2⟩

theorem start (float : Text → Option ℚ) (ps : List Part) (hok : ∀ p ∈ ps, p.Ok float) (ho : Ordered ps) (rest : List Text) :
    ∃ f st, rest.length ≤ f ∧ Inv ps st ∧
      parse float (ps.flatMap Part.lines ++ rest).length (ps.flatMap Part.lines ++ rest) ⟨fun _ => none, none, none⟩ = parse float f rest st := by
  obtain ⟨f, st, h1, h2, h3⟩ := parts_run float ps [] _ hok (by simpa using ho) inv_nil rest _ (Nat.le_refl _)
  exact ⟨f, st, h1, by simpa using h3, h2⟩


theorem axis_of {ps : List Part} {st : St} (i : Inv ps st) (c : Char) (a : Vpic.Axis) (h : IsAxis ps (String.singleton c) a) : axis st.kw c = .ok a := by
  obtain ⟨h1, h2, h3⟩ := h
  have k1 := i.kw _ _ h1
  have k2 := i.kw _ _ h2
  have k3 := i.kw _ _ h3
  simp only [String.toList_append, String.toList_singleton] at k1 k2 k3
  simp only [axis, k1, k2, k3, Int.toNat_natCast]

theorem parse_nil (float : Text → Option ℚ) (f : Nat) (st : St) : parse float f [] st = .ok st := by
  cases f <;> rfl

theorem parsed (float : Text → Option ℚ) (ps : List Part) (hok : ∀ p ∈ ps, p.Ok float) (ho : Ordered ps) :
    ∃ st, Inv ps st ∧ parse float (ps.flatMap Part.lines).length (ps.flatMap Part.lines) ⟨fun _ => none, none, none⟩ = .ok st := by
  obtain ⟨f, st, _, i, e⟩ := start float ps hok ho []
  rw [parse_nil, List.append_nil] at e
  exact ⟨st, i, e⟩

/-- after good parts, a line that is refused is refused in the file -/
theorem read_err (float : Text → Option ℚ) (ps : List Part) (hok : ∀ p ∈ ps, p.Ok float) (ho : Ordered ps) (l w : Text) (ws rest : List Text)
    (hl : Line l w ws) (e : Err) (h : ∀ st, Inv ps st → dispatch float (w :: ws) rest st = .error e) :
    readFile float (ps.flatMap Part.lines ++ l :: rest) = .error e := by
  obtain ⟨f, st, hf, i, e1⟩ := start float ps hok ho (l :: rest)
  cases f with
  | zero => simp at hf
  | succ f =>
    rw [parse_line float hl, h st i] at e1
    unfold readFile
    rw [e1]

theorem descrs_err (vs : List Var) (h : ∀ v ∈ vs, v.Ok) (off : Int) (n : Nat) (rest : List Text) (e : Err) (he : ∀ off, descrs n off rest = .error e) :
    descrs (vs.length + n) off (vs.map Var.line ++ rest) = .error e := by
  induction vs generalizing off with
  | nil => simpa using he off
  | cons v vs ih =>
    simp only [List.length_cons, Nat.add_right_comm _ 1 n, List.map_cons, List.cons_append, descrs, descr_of (h v (by simp))]
    rw [ih fun v hv => h v (by simp [hv])]

theorem mapM_all {f : α → Option β} {l : List α} {r : List β} (h : l.mapM f = some r) : List.Forall₂ (fun a b => f a = some b) l r := by
  induction l generalizing r with
  | nil =>
    have : r = [] := by simpa using h.symm
    subst this
    exact .nil
  | cons a l ih =>
    simp only [List.mapM_cons, Option.bind_eq_bind, Option.bind_eq_some_iff, Option.pure_def, Option.some.injEq] at h
    obtain ⟨b, hb, r', hr, rfl⟩ := h
    exact .cons hb (ih hr)

theorem strip_sub (l : Text) (c : Char) (h : c ∈ strip l) : c ∈ l := by
  have : c ∈ l.dropWhile isSpace := rs_sub _ _ h
  exact (List.dropWhile_suffix _).subset this

theorem words_blank {c : Char} {s : Text} {ws : List Text} (hc : Blank c) (h : Words s ws) : Words (c :: s) ws := by
  cases h with
  | nil h => exact .nil fun d hd => by rcases List.mem_cons.1 hd with rfl | hd <;> [exact hc; exact h d hd]
  | @cons b w r ws hb hw hn hr h =>
    have := Words.cons (b := c :: b) (fun d hd => by rcases List.mem_cons.1 hd with rfl | hd <;> [exact hc; exact hb d hd]) hw hn hr h
    simpa using this

theorem words_all (s : Text) : Words s (wordsAux [] s) ∧ ∀ cur, cur ≠ [] → (∀ c ∈ cur, ¬ Blank c) → Words (cur ++ s) (wordsAux cur s) := by
  induction s with
  | nil =>
    refine ⟨.nil (by simp), fun cur h1 h2 => ?_⟩
    simp only [wordsAux, if_neg h1]
    exact Words.cons (b := []) (r := []) (by simp) h1 h2 (by simp) (.nil (by simp))
  | cons c s ih =>
    by_cases hc : Blank c
    · simp only [wordsAux, sp hc, if_true]
      refine ⟨words_blank hc ih.1, fun cur h1 h2 => ?_⟩
      rw [if_neg h1]
      exact Words.cons (b := []) (by simp) h1 h2 (by simp [hc]) (words_blank hc ih.1)
    · simp only [wordsAux, nsp hc, Bool.false_eq_true, if_false]
      refine ⟨by simpa using ih.2 [c] (by simp) (by simpa using hc), fun cur h1 h2 => ?_⟩
      have := ih.2 (cur ++ [c]) (by simp) (by
        intro d hd
        rcases List.mem_append.1 hd with hd | hd
        · exact h2 d hd
        · rw [List.mem_singleton] at hd
          exact hd ▸ hc)
      simpa using this

theorem words_iff (l : Text) (ws : List Text) : Words l ws ↔ words l = ws := ⟨words_of, fun h => h ▸ (words_all l).1⟩

theorem ordered_one (a b : List Part) (l : Text) (vars : List Var) (ha : ∀ l vs, Part.fields l vs ∉ a) (hb : ∀ l vs, Part.fields l vs ∉ b) (dir base : Text)
    (h1 : Last a "FIELD_DATA_DIRECTORY" (.text dir)) (h2 : Last a "FIELD_DATA_BASE_FILENAME" (.text base)) : Ordered (a ++ Part.fields l vars :: b) := by
  intro a' l' vars' b' e
  suffices a' = a from ⟨dir, base, this ▸ h1, this ▸ h2⟩
  rcases List.append_eq_append_iff.1 e with ⟨c, e1, e2⟩ | ⟨c, e1, e2⟩
  · cases c with
    | nil => simpa using e1
    | cons x c =>
      simp only [List.cons_append, List.cons.injEq] at e2
      exact absurd (by rw [e2.2]; simp) (hb l' vars')
  · cases c with
    | nil => simpa using e1.symm
    | cons x c =>
      simp only [List.cons_append, List.cons.injEq] at e2
      exact absurd (by rw [e1, ← e2.1]; simp) (ha l' vars')

theorem lookup_append_some [BEq α] (k : α) (l₁ l₂ : List (α × β)) :
    (l₁ ++ l₂).lookup k = (l₁.lookup k).or (l₂.lookup k) := by
  induction l₁ with
  | nil => rfl
  | cons p l ih =>
    simp only [List.cons_append, List.lookup]
    cases k == p.1 <;> simp [ih]

end VG
open VG Viscid.VpicGlobal Viscid.Spec.VpicGlobal
open Viscid.LogValue (Text)
open Viscid.Spec.LogValue (IntText)

/-- **C224.** A global file of parts that are each as they should be is read: variables, with components numbered one after the other, directories and base
names given last, species in their order, and axes of the values given last. -/
theorem C224_read (float : Text → Option ℚ) (ps : List Part) (hok : ∀ p ∈ ps, p.Ok float) (ho : Ordered ps) (dir base : Text) (vars : List Var)
    (ss : List Species) (x y z : Vpic.Axis) (hf : LastFields ps dir base vars) (hs : LastSpecies ps ss) (hx : IsAxis ps "X" x) (hy : IsAxis ps "Y" y)
    (hz : IsAxis ps "Z" z) : readFile float (ps.flatMap Part.lines) = .ok ⟨⟨dir, base, numbered vars⟩, ss.map Species.asSet, x, y, z⟩ := by
  obtain ⟨st, i, e⟩ := parsed float ps hok ho
  unfold readFile
  rw [e]
  simp only [i.fields _ _ _ hf, i.species _ hs, axis_of i 'X' x hx, axis_of i 'Y' y hy, axis_of i 'Z' z hz]

/-- **C224.** Without variables or species the file is refused. -/
theorem C224_without (float : Text → Option ℚ) (ps : List Part) (hok : ∀ p ∈ ps, p.Ok float) (ho : Ordered ps)
    (h : (∀ l vs, Part.fields l vs ∉ ps) ∨ ∀ l ss, Part.species l ss ∉ ps) : readFile float (ps.flatMap Part.lines) = .error .attr := by
  obtain ⟨st, i, e⟩ := parsed float ps hok ho
  unfold readFile
  rw [e]
  rcases h with h | h
  · simp only [i.nofields h]
  · simp only [i.nospecies h]
    cases st.fields <;> rfl

/-- **C224.** Without the number of blocks, the step or the extent along an axis the file is refused. -/
theorem C224_without_axis (float : Text → Option ℚ) (ps : List Part) (hok : ∀ p ∈ ps, p.Ok float) (ho : Ordered ps) (dir base : Text) (vars : List Var)
    (ss : List Species) (hf : LastFields ps dir base vars) (hs : LastSpecies ps ss) (what c : String)
    (hw : what ∈ ["GRID_TOPOLOGY_", "GRID_DELTA_", "GRID_EXTENTS_"]) (hc : c ∈ ["X", "Y", "Z"]) (h : ∀ l v, Part.keyword l (what ++ c) v ∉ ps) :
    readFile float (ps.flatMap Part.lines) = .error .key := by
  obtain ⟨st, i, e⟩ := parsed float ps hok ho
  have hn := i.none _ h
  rw [String.toList_append] at hn
  have key : ∀ ch : Char, c.toList = [ch] → axis st.kw ch = .error .key := by
    intro ch e
    rw [e] at hn
    unfold axis
    simp only [List.mem_cons, List.not_mem_nil, or_false] at hw
    rcases hw with rfl | rfl | rfl
    · rw [hn]
    · rw [hn]
      cases st.kw ("GRID_TOPOLOGY_".toList ++ [ch]) with
      | none => rfl
      | some v => cases v <;> rfl
    · rw [hn]
      cases st.kw ("GRID_TOPOLOGY_".toList ++ [ch]) with
      | none => rfl
      | some v =>
        cases v with
        | int t =>
          cases st.kw ("GRID_DELTA_".toList ++ [ch]) with
          | none => rfl
          | some v => cases v <;> rfl
        | _ => rfl
  unfold readFile
  rw [e]
  simp only [i.fields _ _ _ hf, i.species _ hs]
  simp only [List.mem_cons, List.not_mem_nil, or_false] at hc
  rcases hc with rfl | rfl | rfl
  · rw [key 'X' rfl]
  · rw [key 'Y' rfl]
    cases axis st.kw 'X' <;> rfl
  · rw [key 'Z' rfl]
    cases axis st.kw 'X' <;> cases axis st.kw 'Y' <;> rfl

/-- **C224.** Variables before their directory or base name are refused. -/
theorem C224_order (float : Text → Option ℚ) (ps : List Part) (hok : ∀ p ∈ ps, p.Ok float) (ho : Ordered ps) (l n : Text) (k : Int) (rest : List Text)
    (hl : Line l "FIELD_DATA_VARIABLES".toList [n]) (hn : IntText n k)
    (h : (∀ l v, Part.keyword l "FIELD_DATA_DIRECTORY" v ∉ ps) ∨ ∀ l v, Part.keyword l "FIELD_DATA_BASE_FILENAME" v ∉ ps) :
    readFile float (ps.flatMap Part.lines ++ l :: rest) = .error .key := by
  refine read_err float ps hok ho l _ _ rest hl _ fun st i => ?_
  simp only [dispatch]
  rw [if_neg (by decide)]
  simp only [if_true, (LV.intOf_iff _ _).2 hn]
  rcases h with h | h
  · rw [i.none _ h]
  · rw [i.none _ h]
    cases st.kw "FIELD_DATA_DIRECTORY".toList with
    | none => rfl
    | some v => cases v <;> rfl

/-- **C224.** Other versions are refused. -/
theorem C224_version (float : Text → Option ℚ) (ps : List Part) (hok : ∀ p ∈ ps, p.Ok float) (ho : Ordered ps) (l : Text) (ws rest : List Text)
    (hl : Line l "VPIC_HEADER_VERSION".toList ws) (h : ws ≠ ["1.0.0".toList]) :
    readFile float (ps.flatMap Part.lines ++ l :: rest) = .error .notImplemented := by
  refine read_err float ps hok ho l _ _ rest hl _ fun st i => ?_
  simp only [dispatch, if_true, if_neg h]

/-- **C224.** The file is refused if it ends before the last variable. -/
theorem C224_short (float : Text → Option ℚ) (ps : List Part) (hok : ∀ p ∈ ps, p.Ok float) (ho : Ordered ps) (l n dir base : Text) (vars : List Var)
    (k : Nat) (hl : Line l "FIELD_DATA_VARIABLES".toList [n]) (hn : IntText n k) (hk : vars.length < k) (hv : ∀ v ∈ vars, v.Ok)
    (hd : Last ps "FIELD_DATA_DIRECTORY" (.text dir)) (hb : Last ps "FIELD_DATA_BASE_FILENAME" (.text base)) :
    readFile float (ps.flatMap Part.lines ++ l :: vars.map Var.line) = .error .stop := by
  refine read_err float ps hok ho l _ _ _ hl _ fun st i => ?_
  have := descrs_err vars hv 0 (k - vars.length) [] .stop (by
    intro off
    obtain ⟨m, hm⟩ : ∃ m, k - vars.length = m + 1 := ⟨k - vars.length - 1, by omega⟩
    rw [hm]; rfl)
  rw [List.append_nil, show vars.length + (k - vars.length) = k by omega] at this
  simp only [dispatch]
  rw [if_neg (by decide)]
  simp only [if_true, (LV.intOf_iff _ _).2 hn, i.kw _ _ hd, i.kw _ _ hb, Int.toNat_natCast, this]

/-- **C224, violated.** Comments and blank lines are passed over between keywords and before species, but not among the lines of variables: one there has
the file refused. -/
theorem C224_comment_violated (float : Text → Option ℚ) (ps : List Part) (hok : ∀ p ∈ ps, p.Ok float) (ho : Ordered ps) (l n dir base c : Text)
    (vars : List Var) (k : Nat) (rest : List Text) (hl : Line l "FIELD_DATA_VARIABLES".toList [n]) (hn : IntText n k) (hk : vars.length < k)
    (hv : ∀ v ∈ vars, v.Ok) (hd : Last ps "FIELD_DATA_DIRECTORY" (.text dir)) (hb : Last ps "FIELD_DATA_BASE_FILENAME" (.text base)) (_ : Skip c)
    (hq : '"' ∉ c) : readFile float (ps.flatMap Part.lines ++ l :: (vars.map Var.line ++ c :: rest)) = .error .value := by
  refine read_err float ps hok ho l _ _ _ hl _ fun st i => ?_
  have := descrs_err vars hv 0 (k - vars.length) (c :: rest) .value (by
    intro off
    obtain ⟨m, hm⟩ : ∃ m, k - vars.length = m + 1 := ⟨k - vars.length - 1, by omega⟩
    rw [hm]
    simp only [descrs, descr, LV.split_none _ _ fun h => hq (strip_sub _ _ h), List.drop_succ_cons, List.drop_zero])
  rw [show vars.length + (k - vars.length) = k by omega] at this
  simp only [dispatch]
  rw [if_neg (by decide)]
  simp only [if_true, (LV.intOf_iff _ _).2 hn, i.kw _ _ hd, i.kw _ _ hb, Int.toNat_natCast, this]

/-- **C224.** A keyword with other words than it should have is refused. -/
theorem C224_value (float : Text → Option ℚ) (ps : List Part) (hok : ∀ p ∈ ps, p.Ok float) (ho : Ordered ps) (l : Text) (key : String)
    (ws rest : List Text) (hl : Line l key.toList ws) (hk : key ∈ ints ++ floats ++ pairs ++ texts) (h : ∀ v, ¬ Says float key ws v) :
    ∃ e, readFile float (ps.flatMap Part.lines ++ l :: rest) = .error e := by
  suffices hh : ∃ e, ∀ st, dispatch float (key.toList :: ws) rest st = .error e by
    obtain ⟨e, he⟩ := hh
    exact ⟨e, read_err float ps hok ho l _ _ rest hl e fun st _ => he st⟩
  have gen : ∀ d, Kw key d → (∀ v, value float d ws ≠ .ok v) → ∃ e, ∀ st, dispatch float (key.toList :: ws) rest st = .error e := by
    intro d ⟨k1, k2, k3, k4⟩ hv
    cases e : value float d ws with
    | ok v => exact absurd e (hv v)
    | error e' => exact ⟨e', fun st => by simp only [dispatch, k1, if_neg k2, if_neg k3, if_neg k4, e]⟩
  simp only [List.mem_append] at hk
  rcases hk with ((hk | hk) | hk) | hk
  · refine gen .i (kw_ints _ hk) fun v e => ?_
    match ws, e with
    | [], e => simp [value] at e
    | [w], e =>
      cases hw : LogValue.intOf w with
      | none => simp [value, hw] at e
      | some n => exact h (.int n) ⟨hk, w, rfl, (LV.intOf_iff _ _).1 hw⟩
    | a :: b :: c, e =>
      simp only [value] at e
      split at e
      · rename_i n hn
        have := mapM_all hn
        simp at this
      · cases e
  · refine gen .f (kw_floats _ hk) fun v e => ?_
    match ws, e with
    | [], e => simp [value] at e
    | [w], e =>
      cases hw : float w with
      | none => simp [value, hw] at e
      | some n => exact h (.flt n) ⟨hk, w, rfl, hw⟩
    | a :: b :: c, e =>
      simp only [value] at e
      split at e
      · rename_i n hn
        have := mapM_all hn
        simp at this
      · cases e
  · refine gen .f2 (kw_pairs _ hk) fun v e => ?_
    simp only [value] at e
    split at e
    · rename_i x y hn
      have := mapM_all hn
      match ws, this with
      | [a, b], this =>
        simp only [List.forall₂_cons, List.Forall₂.nil, and_true] at this
        exact h (.two x y) ⟨hk, a, b, rfl, this.1, this.2⟩
      | [], this => simp at this
      | [_], this => simp at this
      | _ :: _ :: _ :: _, this => simp at this
    · cases e
    · cases e
  · refine gen .s (kw_texts _ hk) fun v e => ?_
    match ws, e with
    | [], e => simp [value] at e
    | [w], e => exact h (.text w) ⟨hk, rfl⟩
    | a :: b :: c, e => simp [value] at e

/-- **C224.** In the table of variables, a variable of the fields goes by its name, one of a species by its name and the species'; of variables of one
name the last counts. -/
theorem C224_dict (a b : List FieldSet) (dir base : Text) (c e : List Descr) (d : Descr) (name : Text)
    (hn : (base = "fields".toList ∧ name = d.name) ∨ (base ≠ "fields".toList ∧ name = d.name ++ " (".toList ++ base ++ ")".toList))
    (he : ∀ d' ∈ e, d'.name ≠ d.name)
    (hb : ∀ fs ∈ b, ∀ d' ∈ fs.descr, dictName fs.base d'.name ≠ name) :
    look (a ++ ⟨dir, base, c ++ d :: e⟩ :: b) name = some (⟨dir, base, c ++ d :: e⟩, d) := by
  have hd : ∀ m : Text, dictName base m = name ↔ m = d.name := by
    intro m
    rcases hn with ⟨h, rfl⟩ | ⟨h, rfl⟩
    · simp [dictName, h]
    · simp only [dictName, ne_eq, h, not_false_eq_true, if_true]
      constructor
      · intro hh
        have := List.append_cancel_right hh
        exact List.append_cancel_right (List.append_cancel_right this)
      · rintro rfl; rfl
  unfold look
  simp only [entries, List.flatMap_append, List.flatMap_cons, List.map_append, List.map_cons, List.reverse_append, List.reverse_cons]
  simp only [List.append_assoc]
  rw [lookup_append_some, List.lookup_eq_none_iff.2, Option.none_or, lookup_append_some, List.lookup_eq_none_iff.2, Option.none_or]
  · have : dictName base d.name = name := (hd _).2 rfl
    simp [List.lookup, this]
  · intro p hp
    simp only [List.mem_reverse, List.mem_map] at hp
    obtain ⟨d', h1, rfl⟩ := hp
    exact bne_iff_ne.2 fun h => he d' h1 ((hd d'.name).1 h.symm)
  · intro p hp
    simp only [List.mem_reverse, List.mem_flatMap, List.mem_map] at hp
    obtain ⟨fs, h1, d', h2, rfl⟩ := hp
    exact bne_iff_ne.2 fun h => hb fs h1 d' h2 h.symm

/-- **C224, violated.** Variables of a species cannot be found if a later species has the same base name and variables. -/
theorem C224_dict_violated (a b c : List FieldSet) (s t : FieldSet) (d d' : Descr) (_ : d ∈ s.descr) (ht : d' ∈ t.descr) (hb : s.base = t.base)
    (hn : d.name = d'.name) (hs : s ∉ t :: c) : look (a ++ s :: b ++ t :: c) (dictName s.base d.name) ≠ some (s, d) := by
  intro h
  unfold look entries at h
  rw [List.flatMap_append, List.reverse_append, lookup_append_some] at h
  have hmem : (dictName s.base d.name, t, d') ∈ ((t :: c).flatMap fun fs => fs.descr.map fun d => (dictName fs.base d.name, fs, d)).reverse := by
    simp only [List.mem_reverse, List.mem_flatMap, List.mem_map]
    exact ⟨t, by simp, d', ht, by rw [hb, hn]⟩
  cases e : (((t :: c).flatMap fun fs => fs.descr.map fun d => (dictName fs.base d.name, fs, d)).reverse).lookup (dictName s.base d.name) with
  | none =>
    have := List.lookup_eq_none_iff.1 e _ hmem
    simp at this
  | some v =>
    rw [e] at h
    simp only [Option.some_or, Option.some.injEq] at h
    rw [h] at e
    obtain ⟨_, _, h2, _⟩ := List.lookup_eq_some_iff.1 e
    have : (dictName s.base d.name, s, d) ∈ ((t :: c).flatMap fun fs => fs.descr.map fun d => (dictName fs.base d.name, fs, d)).reverse := by
      rw [h2]; simp
    simp only [List.mem_reverse, List.mem_flatMap, List.mem_map] at this
    obtain ⟨fs, h3, d1, _, h4⟩ := this
    have : fs = s := by injection h4 with _ h5; injection h5
    exact hs (this ▸ h3)

/-! ### A file -/

namespace VG

def fl : Text → Option ℚ := fun w => if w = "0.5".toList then some (1/2) else if w = "8".toList then some 8 else if w = "0".toList then some 0 else none

def kwParts : List Part :=
  [.skip "# a run".toList, .version "VPIC_HEADER_VERSION 1.0.0".toList, .skip "  ".toList,
   .other "MY_OWN 3".toList,
   .keyword "GRID_TOPOLOGY_X 2".toList "GRID_TOPOLOGY_X" (.int 2),
   .keyword "GRID_TOPOLOGY_Y 1".toList "GRID_TOPOLOGY_Y" (.int 1),
   .keyword "GRID_TOPOLOGY_Z 1".toList "GRID_TOPOLOGY_Z" (.int 1),
   .keyword "GRID_DELTA_X 0.5".toList "GRID_DELTA_X" (.flt (1/2)),
   .keyword "GRID_DELTA_Y 8".toList "GRID_DELTA_Y" (.flt 8),
   .keyword "GRID_DELTA_Z 8".toList "GRID_DELTA_Z" (.flt 8),
   .keyword "GRID_EXTENTS_X 0 8".toList "GRID_EXTENTS_X" (.two 0 8),
   .keyword "GRID_EXTENTS_Y 0 8".toList "GRID_EXTENTS_Y" (.two 0 8),
   .keyword "GRID_EXTENTS_Z 0 8".toList "GRID_EXTENTS_Z" (.two 0 8),
   .keyword "FIELD_DATA_DIRECTORY flds".toList "FIELD_DATA_DIRECTORY" (.text "flds".toList),
   .keyword "FIELD_DATA_BASE_FILENAME fields".toList "FIELD_DATA_BASE_FILENAME" (.text "fields".toList)]

def vE : Var := ⟨"\"Electric Field\" VECTOR 3 FLOATING_POINT 4\n".toList, "Electric Field".toList, "VECTOR".toList, 3, .float4⟩
def vM : Var := ⟨"\"Material\" SCALAR 1 INTEGER 2".toList, "Material".toList, "SCALAR".toList, 1, .int2⟩

def ele : Species :=
  ⟨[.skip "#".toList, .pair "SPECIES_DATA_DIRECTORY hydro".toList "SPECIES_DATA_DIRECTORY".toList "hydro".toList,
    .pair "SPECIES_DATA_BASE_FILENAME ehydro".toList "SPECIES_DATA_BASE_FILENAME".toList "ehydro".toList], "HYDRO_DATA_VARIABLES 1".toList, "hydro".toList,
    "ehydro".toList, [vM]⟩

def fPart : Part := .fields "FIELD_DATA_VARIABLES 2".toList [vE, vM]
def sPart : Part := .species "NUM_OUTPUT_SPECIES 1".toList [ele]

theorem isInt (s : Text) (n : Int) (h : LogValue.intOf s = some n) : IntText s n := (LV.intOf_iff s n).1 h
theorem isLine (l w : Text) (ws : List Text) (h : words l = w :: ws) (hw : w.head? ≠ some '#') : Line l w ws := ⟨(words_iff _ _).2 h, hw⟩

theorem ok_vE : vE.Ok :=
  ⟨[], " VECTOR 3 FLOATING_POINT 4\n".toList, "3".toList, "FLOATING_POINT".toList, "4".toList, by decide +kernel, by simp, by decide +kernel,
    by decide +kernel, (words_iff _ _).2 (by decide +kernel), isInt _ _ (by decide +kernel), rfl, isInt _ _ (by decide +kernel)⟩

theorem ok_vM : vM.Ok :=
  ⟨[], " SCALAR 1 INTEGER 2".toList, "1".toList, "INTEGER".toList, "2".toList, by decide +kernel, by simp, by decide +kernel,
    by decide +kernel, (words_iff _ _).2 (by decide +kernel), isInt _ _ (by decide +kernel), rfl, isInt _ _ (by decide +kernel)⟩

theorem ok_ele : ele.Ok := by
  refine ⟨?_, ⟨"1".toList, isLine _ _ _ (by decide +kernel) (by decide +kernel), isInt _ _ (by decide +kernel)⟩, ?_, ?_, ?_⟩
  · intro h hh
    simp only [ele, List.mem_cons, List.not_mem_nil, or_false] at hh
    rcases hh with rfl | rfl | rfl
    · exact ⟨[], "#".toList, rfl, by simp, .inr (by decide +kernel)⟩
    · exact ⟨isLine _ _ _ (by decide +kernel) (by decide +kernel), by decide +kernel⟩
    · exact ⟨isLine _ _ _ (by decide +kernel) (by decide +kernel), by decide +kernel⟩
  · refine ⟨[_], _, [_], rfl, fun l' v' h => ?_⟩
    rw [List.mem_singleton] at h
    injection h with _ h _
    exact absurd h (by decide +kernel)
  · refine ⟨[_, _], _, [], rfl, fun l' v' h => by simp at h⟩
  · intro v hv
    simp only [ele, List.mem_singleton] at hv
    subst hv
    exact ok_vM

theorem ok_kw : ∀ p ∈ kwParts, p.Ok fl := by
  have int : ∀ l key w n, words l = [key.toList, w] → key ∈ ints → LogValue.intOf w = some n → key.toList.head? ≠ some '#' →
      (Part.keyword l key (.int n)).Ok fl :=
    fun l key w n h hk hi hh => ⟨[w], isLine _ _ _ h hh, hk, w, rfl, isInt _ _ hi⟩
  have flt : ∀ l key w x, words l = [key.toList, w] → key ∈ floats → fl w = some x → key.toList.head? ≠ some '#' → (Part.keyword l key (.flt x)).Ok fl :=
    fun l key w n h hk hi hh => ⟨[w], isLine _ _ _ h hh, hk, w, rfl, hi⟩
  have two : ∀ l key u w x y, words l = [key.toList, u, w] → key ∈ pairs → fl u = some x → fl w = some y → key.toList.head? ≠ some '#' →
      (Part.keyword l key (.two x y)).Ok fl :=
    fun l key u w x y h hk hi hj hh => ⟨[u, w], isLine _ _ _ h hh, hk, u, w, rfl, hi, hj⟩
  have text : ∀ l key w, words l = [key.toList, w] → key ∈ texts → key.toList.head? ≠ some '#' → (Part.keyword l key (.text w)).Ok fl :=
    fun l key w h hk hh => ⟨[w], isLine _ _ _ h hh, hk, rfl⟩
  simp only [kwParts, List.forall_mem_cons, List.not_mem_nil, false_imp_iff, implies_true, and_true]
  refine ⟨⟨[], _, rfl, by simp, .inr (by decide +kernel)⟩, isLine _ _ _ (by decide +kernel) (by decide +kernel),
    ⟨"  ".toList, [], by decide +kernel, by unfold Spec.AsCotr.Blank; decide +kernel, .inl rfl⟩,
    ⟨"MY_OWN".toList, ["3".toList], isLine _ _ _ (by decide +kernel) (by decide +kernel), by decide +kernel⟩, ?_, ?_, ?_, ?_, ?_, ?_, ?_, ?_, ?_, ?_, ?_⟩
  · exact int _ _ "2".toList _ (by decide +kernel) (by decide +kernel) (by decide +kernel) (by decide +kernel)
  · exact int _ _ "1".toList _ (by decide +kernel) (by decide +kernel) (by decide +kernel) (by decide +kernel)
  · exact int _ _ "1".toList _ (by decide +kernel) (by decide +kernel) (by decide +kernel) (by decide +kernel)
  · exact flt _ _ "0.5".toList _ (by decide +kernel) (by decide +kernel) (by decide +kernel) (by decide +kernel)
  · exact flt _ _ "8".toList _ (by decide +kernel) (by decide +kernel) (by decide +kernel) (by decide +kernel)
  · exact flt _ _ "8".toList _ (by decide +kernel) (by decide +kernel) (by decide +kernel) (by decide +kernel)
  · exact two _ _ "0".toList "8".toList _ _ (by decide +kernel) (by decide +kernel) (by decide +kernel) (by decide +kernel) (by decide +kernel)
  · exact two _ _ "0".toList "8".toList _ _ (by decide +kernel) (by decide +kernel) (by decide +kernel) (by decide +kernel) (by decide +kernel)
  · exact two _ _ "0".toList "8".toList _ _ (by decide +kernel) (by decide +kernel) (by decide +kernel) (by decide +kernel) (by decide +kernel)
  · exact text _ _ _ (by decide +kernel) (by decide +kernel) (by decide +kernel)
  · exact text _ _ _ (by decide +kernel) (by decide +kernel) (by decide +kernel)

theorem ok_all : ∀ p ∈ kwParts ++ fPart :: [sPart], p.Ok fl := by
  intro p hp
  rcases List.mem_append.1 hp with hp | hp
  · exact ok_kw p hp
  · simp only [List.mem_cons, List.not_mem_nil, or_false] at hp
    rcases hp with rfl | rfl
    · refine ⟨⟨"2".toList, isLine _ _ _ (by decide +kernel) (by decide +kernel), isInt _ _ (by decide +kernel)⟩, ?_⟩
      simp only [List.forall_mem_cons, List.not_mem_nil, false_imp_iff, implies_true, and_true]
      exact ⟨ok_vE, ok_vM⟩
    · refine ⟨⟨"1".toList, isLine _ _ _ (by decide +kernel) (by decide +kernel), isInt _ _ (by decide +kernel)⟩, ?_⟩
      simp only [List.forall_mem_cons, List.not_mem_nil, false_imp_iff, implies_true, and_true]
      exact ok_ele

def keyOf : Part → Option String
  | .keyword _ k _ => some k
  | _ => none

theorem last_at (ps : List Part) (i : Nat) (l : Text) (key : String) (v : Val) (h : ps[i]? = some (.keyword l key v))
    (hn : key ∉ (ps.drop (i + 1)).filterMap keyOf) : Last ps key v := by
  obtain ⟨hi, e⟩ := List.getElem?_eq_some_iff.1 h
  exact ⟨ps.take i, l, ps.drop (i + 1), by rw [← e, List.getElem_cons_drop, List.take_append_drop], fun l' v' hm => hn (List.mem_filterMap.2 ⟨_, hm, rfl⟩)⟩

theorem last_dir : Last kwParts "FIELD_DATA_DIRECTORY" (.text "flds".toList) := last_at _ 13 _ _ _ rfl (by decide +kernel)
theorem last_base : Last kwParts "FIELD_DATA_BASE_FILENAME" (.text "fields".toList) := last_at _ 14 _ _ _ rfl (by decide +kernel)

theorem ordered_all : Ordered (kwParts ++ fPart :: [sPart]) :=
  ordered_one _ _ _ _ (by simp [kwParts]) (by simp [sPart]) _ _ last_dir last_base

end VG

example : readFile fl ((kwParts ++ fPart :: [sPart]).flatMap Part.lines) =
    .ok ⟨⟨"flds".toList, "fields".toList, [⟨"Electric Field".toList, "VECTOR".toList, 3, .float4, 0⟩, ⟨"Material".toList, "SCALAR".toList, 1, .int2, 3⟩]⟩,
      [⟨"hydro".toList, "ehydro".toList, [⟨"Material".toList, "SCALAR".toList, 1, .int2, 0⟩]⟩], ⟨0, 8, 1/2, 2⟩, ⟨0, 8, 8, 1⟩, ⟨0, 8, 8, 1⟩⟩ :=
  C224_read fl _ ok_all ordered_all _ _ [vE, vM] [ele] ⟨0, 8, 1/2, 2⟩ ⟨0, 8, 8, 1⟩ ⟨0, 8, 8, 1⟩
    ⟨kwParts, _, [sPart], rfl, by simp [sPart], last_dir, last_base⟩ ⟨kwParts ++ [fPart], _, [], rfl, by simp⟩
    ⟨last_at _ 4 _ _ _ rfl (by decide +kernel), last_at _ 7 _ _ _ rfl (by decide +kernel), last_at _ 10 _ _ _ rfl (by decide +kernel)⟩
    ⟨last_at _ 5 _ _ _ rfl (by decide +kernel), last_at _ 8 _ _ _ rfl (by decide +kernel), last_at _ 11 _ _ _ rfl (by decide +kernel)⟩
    ⟨last_at _ 6 _ _ _ rfl (by decide +kernel), last_at _ 9 _ _ _ rfl (by decide +kernel), last_at _ 12 _ _ _ rfl (by decide +kernel)⟩

example : readFile fl (([] : List Part).flatMap Part.lines ++ "FIELD_DATA_VARIABLES 2".toList :: []) = .error .key :=
  C224_order fl [] (by simp) (by intro a l v b h; simp at h) _ "2".toList 2 [] (isLine _ _ _ (by decide +kernel) (by decide +kernel)) (isInt _ _ (by decide +kernel))
    (.inl (by simp))

end Viscid.Props
