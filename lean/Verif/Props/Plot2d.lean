import Verif.Spec.Plot2d
import Mathlib.Tactic.Ring
import Mathlib.Tactic.Linarith
/-! # C214: what plots draw, and what they write -/
namespace Viscid.Props
open Viscid.Plot2d Viscid.Spec.Plot2d

namespace P2

theorem times_mul (m : Option ℚ) (l : List ℚ) : Times (m.getD 1) l (mul m l) := by
  cases m with
  | none => exact ⟨rfl, fun i x h => by simpa [mul] using h⟩
  | some m => exact ⟨by simp [mul], fun i x h => by simp [mul, h]⟩

theorem shown (neg : Bool) (s : Option ℚ) (x : Option ℚ) : Shown neg (s.getD 1) x (maskNeg neg (match s with | none => x | some s => x.map (· * s))) := by
  cases x with
  | none => cases s <;> cases neg <;> rfl
  | some x =>
    have key : ∀ q : ℚ, (if neg = true ∧ q ≤ 0 then maskNeg neg (some q) = none else maskNeg neg (some q) = some q) := by
      intro q
      cases neg
      · simp [maskNeg]
      · by_cases hq : q ≤ 0
        · simp [maskNeg, hq, Option.filter]
        · simp [maskNeg, hq, Option.filter, not_le.1 hq]
    cases s with
    | none => simpa [Shown] using key x
    | some s => simpa [Shown] using key (x * s)

theorem single_fst (ext : List ℚ → List ℚ) (o : Opts) (f : Fld) :
    (single ext o f).1 = writeScale o.scale (writeMod o.style o.mod (coords ext o.style f).1) := rfl

/-- the data after a plot -/
theorem data_after (ext : List ℚ → List ℚ) (o : Opts) (f : Fld) (i j : Nat) :
    (single ext o f).1.data i j = (match o.scale with | none => f.data i j | some s => (f.data i j).map (· * s)) := by
  have h1 : (coords ext o.style f).1.data = f.data := by unfold coords; split <;> split <;> rfl
  have h2 : ∀ g : Fld, (writeMod o.style o.mod g).data = g.data := by intro g; unfold writeMod; dsimp only; split <;> split <;> rfl
  rw [single_fst]
  cases o.scale with
  | none => show (writeMod o.style o.mod (coords ext o.style f).1).data i j = _; rw [h2, h1]
  | some s => show ((writeMod o.style o.mod (coords ext o.style f).1).data i j).map _ = _; rw [h2, h1]

theorem writeScale_crds (s : Option ℚ) (f : Fld) : (writeScale s f).cell = f.cell ∧ (writeScale s f).xn = f.xn ∧ (writeScale s f).yn = f.yn ∧
    (writeScale s f).xc = f.xc ∧ (writeScale s f).yc = f.yc := by
  cases s <;> exact ⟨rfl, rfl, rfl, rfl, rfl⟩

theorem picture (ext : List ℚ → List ℚ) (o : Opts) (f : Fld) (h : o.style ≠ .other) :
    ∃ p, (single ext o f).2 = some p ∧ Shows o (coords ext o.style f).2.1 (coords ext o.style f).2.2 f.data p := by
  have hd := data_after ext o f
  unfold single at hd ⊢
  dsimp only at hd ⊢
  rw [if_neg h]
  refine ⟨_, rfl, ?_⟩
  unfold Shows factors
  dsimp only
  split
  · rename_i hf
    refine ⟨times_mul _ _, times_mul _ _, fun i j => ?_⟩
    dsimp only
    rw [hd]
    exact shown _ _ _
  · rename_i hf
    refine ⟨times_mul _ _, times_mul _ _, fun i j => ?_⟩
    dsimp only
    rw [hd]
    exact shown _ _ _

end P2

/-- C214: a plot of cells shows the data of a cell centred field, scaled, each value in the cell between its own nodes. -/
theorem C214_picture (ext : List ℚ → List ℚ) (o : Opts) (f : Fld) (h : Cells o.style) (hc : f.cell = true) :
    ∃ p, (single ext o f).2 = some p ∧ Shows o f.xn f.yn f.data p := by
  obtain ⟨p, h1, h2⟩ := P2.picture ext o f (by rcases h with h | h <;> rw [h] <;> decide)
  refine ⟨p, h1, ?_⟩
  have : coords ext o.style f = (f, f.xn, f.yn) := by unfold coords; rw [if_pos (show o.style = .pcolormesh ∨ o.style = .pcolor from h), if_pos hc]
  rwa [this] at h2

/-- C214: and that of a node centred field, over the nodes that were made around them; contours are drawn over its nodes. -/
theorem C214_picture_node (ext : List ℚ → List ℚ) (o : Opts) (f : Fld) (hc : f.cell = false) :
    (Cells o.style → ∃ p, (single ext o f).2 = some p ∧ Shows o (ext f.xn) (ext f.yn) f.data p) ∧
    (Contours o.style → ∃ p, (single ext o f).2 = some p ∧ Shows o f.xn f.yn f.data p) := by
  constructor
  · intro h
    obtain ⟨p, h1, h2⟩ := P2.picture ext o f (by rcases h with h | h <;> rw [h] <;> decide)
    refine ⟨p, h1, ?_⟩
    have : coords ext o.style f = (f, ext f.xn, ext f.yn) := by unfold coords; rw [if_pos (show o.style = .pcolormesh ∨ o.style = .pcolor from h), if_neg (by simp [hc])]
    rwa [this] at h2
  · intro h
    obtain ⟨p, h1, h2⟩ := P2.picture ext o f (by rcases h with h | h <;> rw [h] <;> decide)
    refine ⟨p, h1, ?_⟩
    have : coords ext o.style f = (f, f.xn, f.yn) := by
      unfold coords
      rw [if_neg (by rcases h with h | h <;> rw [h] <;> decide), if_neg (by simp [hc])]
    rwa [this] at h2

/-- C214: only an unknown style is refused. -/
theorem C214_style (ext : List ℚ → List ℚ) (o : Opts) (f : Fld) : (single ext o f).2 = none ↔ o.style = .other := by
  constructor
  · intro h
    by_contra hs
    obtain ⟨p, h1, _⟩ := P2.picture ext o f hs
    rw [h] at h1; cases h1
  · intro h; unfold single; dsimp only; rw [if_pos h]

/-- C214: the field is left as it was if neither `scale` nor `mod` is given and no contours of cells are drawn. -/
theorem C214_unchanged_partial (ext : List ℚ → List ℚ) (o : Opts) (f : Fld) (hs : o.scale = none) (hm : o.mod = none)
    (hc : f.cell = false ∨ Cells o.style) : (single ext o f).1 = f := by
  have h1 : (coords ext o.style f).1 = f := by
    unfold coords
    rcases hc with hc | hc
    · simp only [hc, Bool.false_eq_true, if_false]; split <;> rfl
    · rw [if_pos (show o.style = .pcolormesh ∨ o.style = .pcolor from hc)]; split <;> rfl
  rw [P2.single_fst]
  rw [h1, hs, hm]
  unfold writeScale writeMod mul
  dsimp only [Option.map]
  split <;> split <;> rfl

/-- C214: the coordinates that a node centred field is drawn over in cells are made for the plot: the field is left as it was, with `mod` too. -/
theorem C214_unchanged_node (ext : List ℚ → List ℚ) (o : Opts) (f : Fld) (hs : o.scale = none) (hf : f.cell = false) (hc : Cells o.style) :
    (single ext o f).1 = f := by
  have hc' : o.style = .pcolormesh ∨ o.style = .pcolor := hc
  rw [P2.single_fst, hs]
  unfold coords writeScale writeMod
  simp [hc', hf]

/-- C214: `scale` never changes coordinates, `mod` never changes data. -/
theorem C214_apart (ext : List ℚ → List ℚ) (o : Opts) (f : Fld) :
    (o.scale = none → (single ext o f).1.data = f.data) ∧
    (o.mod = none → (f.cell = false ∨ Cells o.style) → (single ext o f).1.xn = f.xn ∧ (single ext o f).1.yn = f.yn ∧
      (single ext o f).1.xc = f.xc ∧ (single ext o f).1.yc = f.yc) := by
  constructor
  · intro h
    funext i j
    rw [P2.data_after, h]
  · intro hm hc
    have := C214_unchanged_partial ext { o with scale := none } f rfl hm hc
    have e : ∀ g : Fld → List ℚ, (∀ s f, g (writeScale s f) = g f) → g (single ext o f).1 = g (single ext { o with scale := none } f).1 := by
      intro g hg
      rw [P2.single_fst, P2.single_fst, hg, hg]
    refine ⟨?_, ?_, ?_, ?_⟩
    · rw [e (·.xn) fun s f => (P2.writeScale_crds s f).2.1, this]
    · rw [e (·.yn) fun s f => (P2.writeScale_crds s f).2.2.1, this]
    · rw [e (·.xc) fun s f => (P2.writeScale_crds s f).2.2.2.1, this]
    · rw [e (·.yc) fun s f => (P2.writeScale_crds s f).2.2.2.2, this]

/-- C214 is false: a plot with `scale` multiplies the data of the field, in whatever style: after `n` plots they are `scale ^ n` times what they were. -/
theorem C214_scale_violated (ext : List ℚ → List ℚ) (o : Opts) (f : Fld) (s : ℚ) (hs : o.scale = some s) (n i j : Nat) :
    (again ext o n f).data i j = (f.data i j).map (· * s ^ n) := by
  induction n with
  | zero => cases h : f.data i j <;> simp [again, h]
  | succ n ih =>
    show (single ext o (again ext o n f)).1.data i j = _
    rw [P2.data_after, hs]
    dsimp only
    rw [ih]
    cases f.data i j with
    | none => rfl
    | some x => simp only [Option.map_some, Option.some.injEq]; ring

/-- and the same plot, made again, shows something else -/
theorem C214_twice_violated (ext : List ℚ → List ℚ) (o : Opts) (f : Fld) (s x : ℚ) (hs : o.scale = some s) (h1 : s ≠ 1) (h0 : s ≠ 0) (hx : x ≠ 0)
    (hc : f.cell = true) (ho : Cells o.style) (hn : o.maskneg = false) (hf : o.flip = false) (hd : f.data 0 0 = some x) :
    ∃ p q, (single ext o f).2 = some p ∧ (single ext o (again ext o 1 f)).2 = some q ∧ p.dat 0 0 ≠ q.dat 0 0 := by
  obtain ⟨p, hp, sp⟩ := C214_picture ext o f ho hc
  have hc' : (again ext o 1 f).cell = true := by
    show (writeScale _ (writeMod o.style o.mod (coords ext o.style f).1)).cell = true
    rw [(P2.writeScale_crds _ _).1]
    have : (coords ext o.style f).1 = f := by unfold coords; rw [if_pos (show o.style = .pcolormesh ∨ o.style = .pcolor from ho)]; split <;> rfl
    rw [this]
    unfold writeMod; dsimp only
    rw [if_pos (show o.style = .pcolormesh ∨ o.style = .pcolor from ho), if_pos hc]; exact hc
  obtain ⟨q, hq, sq⟩ := C214_picture ext o (again ext o 1 f) ho hc'
  refine ⟨p, q, hp, hq, ?_⟩
  have e := C214_scale_violated ext o f s hs 1 0 0
  unfold Shows at sp sq
  simp only [hf, hn, factors, hs, Bool.false_eq_true, if_false, Option.getD_some] at sp sq
  have a := sp.2.2 0 0
  have b := sq.2.2 0 0
  rw [hd] at a
  rw [e, hd] at b
  simp only [Shown, Option.map_some, Bool.false_eq_true, false_and, if_false, pow_one] at a b
  rw [a, b]
  intro h
  have h := Option.some.inj h
  have : x * s * (s - 1) = 0 := by linarith
  rcases mul_eq_zero.1 this with h | h
  · rcases mul_eq_zero.1 h with h | h
    · exact hx h
    · exact h0 h
  · exact h1 (by linarith)

/-- C214 is false: a plot of cells with `mod` multiplies the nodes of a cell centred field: after `n` plots they are `mod ^ n` times what they were. -/
theorem C214_mod_violated (ext : List ℚ → List ℚ) (o : Opts) (f : Fld) (mx my : ℚ) (hm : o.mod = some (mx, my)) (hc : f.cell = true) (ho : Cells o.style) (n : Nat) :
    (again ext o n f).cell = true ∧ Times (mx ^ n) f.xn (again ext o n f).xn ∧ Times (my ^ n) f.yn (again ext o n f).yn := by
  induction n with
  | zero => exact ⟨hc, ⟨rfl, fun i x h => by simpa [again] using h⟩, ⟨rfl, fun i x h => by simpa [again] using h⟩⟩
  | succ n ih =>
    obtain ⟨i1, i2, i3⟩ := ih
    have hs : again ext o (n + 1) f = writeScale o.scale (writeMod o.style o.mod (coords ext o.style (again ext o n f)).1) := rfl
    have h1 : (coords ext o.style (again ext o n f)).1 = again ext o n f := by unfold coords; rw [if_pos (show o.style = .pcolormesh ∨ o.style = .pcolor from ho)]; split <;> rfl
    rw [hs, h1]
    obtain ⟨w1, w2, w3, _⟩ := P2.writeScale_crds o.scale (writeMod o.style o.mod (again ext o n f))
    rw [w1, w2, w3]
    have hw : writeMod o.style o.mod (again ext o n f) = { again ext o n f with xn := mul (some mx) (again ext o n f).xn, yn := mul (some my) (again ext o n f).yn } := by
      unfold writeMod; dsimp only; rw [if_pos (show o.style = .pcolormesh ∨ o.style = .pcolor from ho), if_pos i1, hm]; rfl
    rw [hw]
    have st : ∀ (m : ℚ) (k l : List ℚ), Times (m ^ n) k l → Times (m ^ (n + 1)) k (mul (some m) l) := by
      rintro m k l ⟨a, b⟩
      refine ⟨by simp [mul, a], fun i x h => ?_⟩
      have := b i x h
      simp only [mul, List.getElem?_map, this, Option.map_some, Option.some.injEq]
      ring
    exact ⟨i1, st _ _ _ i2, st _ _ _ i3⟩

/-- C214 is false: contours of a cell centred field set the first and the last of its cell centres to its first and last node, for good. -/
theorem C214_contour_violated (ext : List ℚ → List ℚ) (o : Opts) (f : Fld) (a b : ℚ) (c : List ℚ) (hm : o.mod = none) (hc : f.cell = true) (ho : Contours o.style)
    (hn : f.xn.head? = some a) (hn' : f.xn.getLast? = some b) (hx : f.xc = c) (hl : 2 ≤ c.length) :
    (single ext o f).1.xc.head? = some a ∧ (single ext o f).1.xc.getLast? = some b ∧ (single ext o f).1.xc.length = c.length ∧
      ∀ i, 0 < i → i + 1 < c.length → (single ext o f).1.xc[i]? = c[i]? := by
  have ho' : ¬ (o.style = .pcolormesh ∨ o.style = .pcolor) := by rcases ho with h | h <;> rw [h] <;> decide
  have e : (single ext o f).1.xc = (c.set 0 a).set (c.length - 1) b := by
    rw [P2.single_fst]
    rw [(P2.writeScale_crds _ _).2.2.2.1]
    have : (coords ext o.style f).1 = { f with xc := setEnds f.xc f.xn, yc := setEnds f.yc f.yn } := by
      unfold coords; rw [if_neg ho', if_pos hc]
    rw [this]
    unfold writeMod
    dsimp only
    rw [if_neg ho', if_pos hc, hm]
    show setEnds f.xc f.xn = _
    unfold setEnds
    rw [hn, hn', hx]
  rw [e]
  refine ⟨?_, ?_, by simp, ?_⟩
  · rw [List.head?_eq_getElem?, List.getElem?_set_ne (by omega), List.getElem?_set_self (by omega)]
  · rw [List.getLast?_eq_getElem?]
    simp only [List.length_set]
    rw [List.getElem?_set_self (by simp; omega)]
  · intro i h1 h2
    rw [List.getElem?_set_ne (by omega), List.getElem?_set_ne (by omega)]

/-- C214 is false: the colour bar is not left out when everything is masked: `all_masked` is never true, whatever is. -/
theorem C214_masked_violated (masknan : Bool) (masked : List Bool) : allMasked masknan masked = false := by
  unfold allMasked
  induction masked with
  | nil => rfl
  | cons m l ih =>
    rw [List.foldl_cons]
    cases masknan <;> exact ih

/-- C214: the patches of a field are drawn one by one -/
theorem C214_patches (ext : List ℚ → List ℚ) (o : Opts) (fs : List Fld) (i : Nat) (f : Fld) (h : fs[i]? = some f) :
    (patches ext o fs)[i]? = some (single ext o f) := by
  simp [patches, h]

/-- a field of two cells by one -/
def P2.exF : Fld := ⟨true, [0, 1, 2], [0, 1], [1 / 2, 3 / 2], [1 / 2], fun i _ => if i = 0 then some 3 else none⟩
example : P2.exF.cell = true ∧ Cells .pcolormesh ∧ P2.exF.data 0 0 = some 3 ∧ Contours .contourf ∧ 2 ≤ P2.exF.xc.length := by
  refine ⟨rfl, .inl rfl, rfl, .inr rfl, by decide⟩
example : ∃ p q, (single id ⟨.pcolormesh, none, some 2, true, false, false⟩ P2.exF).2 = some p ∧
    (single id ⟨.pcolormesh, none, some 2, true, false, false⟩ (again id ⟨.pcolormesh, none, some 2, true, false, false⟩ 1 P2.exF)).2 = some q ∧ p.dat 0 0 ≠ q.dat 0 0 :=
  C214_twice_violated id _ P2.exF 2 3 rfl (by norm_num) (by norm_num) (by norm_num) rfl (.inl rfl) rfl rfl rfl

end Viscid.Props
