import Verif.Model.Elementwise
import Mathlib.Tactic.Ring
import Mathlib.Tactic.Linarith
/-!
# C253: elementwise operations of fields
-/
namespace Viscid.Spec.Elementwise
open Viscid.Elementwise (Fld Kind)

/-- every finite value of `r` is the operation of the values of `f` and `g` at the same place -/
def Each2 (o : ℚ → ℚ → ℚ) (f g r : Fld) : Prop :=
  r.vals.length = f.vals.length ∧ (∀ (i : Nat) x y, f.vals[i]? = some (some x) → g.vals[i]? = some (some y) → r.vals[i]? = some (some (o x y))) ∧
  (∀ i : Nat, i < f.vals.length → (f.vals[i]? = some none ∨ g.vals[i]? = some none) → r.vals[i]? = some none) ∧
  (r.kind = .int ↔ f.kind = .int ∧ g.kind = .int)

/-- every finite value of `r` is the operation of the value of `f` at the same place -/
def Each1 (o : ℚ → ℚ) (f r : Fld) : Prop :=
  r.vals.length = f.vals.length ∧ (∀ (i : Nat) x, f.vals[i]? = some (some x) → r.vals[i]? = some (some (o x))) ∧
  (∀ i : Nat, f.vals[i]? = some none → r.vals[i]? = some none)

end Viscid.Spec.Elementwise

namespace Viscid.Props
open Viscid.Elementwise
open Viscid.Spec.Elementwise

namespace EW

theorem many {l : List (Option ℚ)} (h : l.length ≠ 1) (k : Kind) : ofNumpy (.arr k l) = .fld ⟨"", k, l⟩ := by
  match l, h with
  | [], _ => rfl
  | [_], h => exact absurd rfl h
  | _ :: _ :: _, _ => rfl

theorem manyW {l : List (Option ℚ)} (h : l.length ≠ 1) (f : Fld) (k : Kind) : wrap (.fld f) (.arr k l) = .ok (.fld ⟨f.name, k, l⟩) := by
  match l, h with
  | [], _ => rfl
  | [_], h => exact absurd rfl h
  | _ :: _ :: _, _ => rfl

theorem zip_fields (kd : Kind → Kind → Kind) (o : ℚ → ℚ → Option ℚ) (f g : Fld) (h : f.vals.length = g.vals.length) :
    zip kd o (.arr f.kind f.vals) (.arr g.kind g.vals) = .ok (.arr (kd f.kind g.kind) (List.zipWith (lift2 o) f.vals g.vals)) := by
  simp only [zip, if_pos h]

theorem join_int (a b : Kind) : join a b = .int ↔ a = .int ∧ b = .int := by cases a <;> cases b <;> simp [join]

theorem each2_of (o : ℚ → ℚ → ℚ) (f g : Fld) (n : String) (k : Kind) (hk : k = .int ↔ f.kind = .int ∧ g.kind = .int) (h : f.vals.length = g.vals.length) :
    Each2 o f g ⟨n, k, List.zipWith (lift2 fun x y => some (o x y)) f.vals g.vals⟩ := by
  refine ⟨by simp [h], fun i x y hx hy => ?_, fun i hi hn => ?_, hk⟩
  · simp [List.getElem?_zipWith, hx, hy, lift2]
  · have hg : i < g.vals.length := h ▸ hi
    rw [List.getElem?_eq_getElem hi, List.getElem?_eq_getElem hg] at hn
    simp only [List.getElem?_zipWith, List.getElem?_eq_getElem hi, List.getElem?_eq_getElem hg, Option.some.injEq] at hn ⊢
    rcases hn with hn | hn
    · rw [hn]; rfl
    · rw [hn]; cases f.vals[i] <;> rfl

theorem each1_of (o : ℚ → ℚ) (f : Fld) (n : String) (k : Kind) : Each1 o f ⟨n, k, f.vals.map fun x => x.map o⟩ := by
  refine ⟨by simp, fun i x hx => by simp [hx], fun i hn => by simp [hn]⟩

end EW

/-- **C253** the operations of one field -/
theorem C253_unary (k : Backend) (f : Fld) (h : f.vals.length ≠ 1) :
    (∃ r, neg k (.fld f) = .ok (.fld r) ∧ r.name = "- " ++ f.name ∧ r.kind = f.kind ∧ Each1 (fun x => -x) f r) ∧
    (∃ r, absVal k (.fld f) = .ok (.fld r) ∧ r.name = "absval " ++ f.name ∧ r.kind = f.kind ∧ Each1 (fun x => |x|) f r) := by
  have h' : ∀ o : Option ℚ → Option ℚ, (f.vals.map o).length ≠ 1 := fun o => by simpa using h
  constructor
  · refine ⟨⟨"- " ++ f.name, f.kind, f.vals.map fun x => x.map fun x => -x⟩, ?_, rfl, rfl, EW.each1_of ..⟩
    cases k
    · simp [neg, unary, negNe, VneCalc.call, normalizeScalar, Arg.data, evaluate, List.lookup, each, bind, Except.bind, EW.manyW (h' _), pure, Except.pure, Arg.name?, setName]
    · simp [neg, unary, negNp, Arg.data, each, bind, Except.bind, EW.many (h' _), pure, Except.pure, Arg.name?, setName]
  · refine ⟨⟨"absval " ++ f.name, f.kind, f.vals.map fun x => x.map fun x => |x|⟩, ?_, rfl, rfl, EW.each1_of ..⟩
    cases k
    · simp [absVal, unary, absValNe, VneCalc.call, normalizeScalar, Arg.data, evaluate, List.lookup, each, bind, Except.bind, EW.manyW (h' _), pure, Except.pure, Arg.name?, setName]
    · simp [absVal, unary, absValNp, Arg.data, each, bind, Except.bind, EW.many (h' _), pure, Except.pure, Arg.name?, setName]

/-- **C253** the operations of two fields: both backends, values at each place, names -/
theorem C253_binary (k : Backend) (f g : Fld) (h : f.vals.length = g.vals.length) (h1 : f.vals.length ≠ 1) :
    (∃ r, add k (.fld f) (.fld g) = .ok (.fld r) ∧ r.name = f.name ++ " + " ++ g.name ∧ Each2 (fun x y => x + y) f g r) ∧
    (∃ r, diff k (.fld f) (.fld g) = .ok (.fld r) ∧ r.name = f.name ++ " - " ++ g.name ∧ Each2 (fun x y => x - y) f g r) ∧
    (∃ r, mul k (.fld f) (.fld g) = .ok (.fld r) ∧ r.name = f.name ++ " * " ++ g.name ∧ Each2 (fun x y => x * y) f g r) ∧
    (∃ r, absDiff k (.fld f) (.fld g) = .ok (.fld r) ∧ r.name = f.name ++ " |-| " ++ g.name ∧ Each2 (fun x y => |x - y|) f g r) := by
  have h' : ∀ o : Option ℚ → Option ℚ → Option ℚ, (List.zipWith o f.vals g.vals).length ≠ 1 := fun o => by simpa [← h] using h1
  have h2 : ∀ (o : Option ℚ → Option ℚ) p, ((List.zipWith p f.vals g.vals).map o).length ≠ 1 := fun o p => by simpa [← h] using h1
  refine ⟨⟨⟨_, join f.kind g.kind, _⟩, ?_, rfl, EW.each2_of _ f g _ _ (EW.join_int ..) h⟩, ⟨⟨_, join f.kind g.kind, _⟩, ?_, rfl, EW.each2_of _ f g _ _ (EW.join_int ..) h⟩,
    ⟨⟨_, join f.kind g.kind, _⟩, ?_, rfl, EW.each2_of _ f g _ _ (EW.join_int ..) h⟩, ⟨⟨_, join f.kind g.kind, _⟩, ?_, rfl, EW.each2_of _ f g _ _ (EW.join_int ..) h⟩⟩
  · cases k
    · simp [add, binary, addNe, VneCalc.call, normalizeScalar, Arg.data, evaluate, List.lookup, plus, EW.zip_fields _ _ f g h, bind, Except.bind, EW.manyW (h' _), pure, Except.pure, Arg.name?, setName, String.append_assoc]
    · simp [add, binary, addNp, Arg.data, plus, EW.zip_fields _ _ f g h, bind, Except.bind, EW.many (h' _), Arg.name?, setName, String.append_assoc]
  · cases k
    · simp [diff, binary, diffNe, VneCalc.call, normalizeScalar, Arg.data, evaluate, List.lookup, minus, EW.zip_fields _ _ f g h, bind, Except.bind, EW.manyW (h' _), pure, Except.pure, Arg.name?, setName, String.append_assoc]
    · simp [diff, binary, diffNp, Arg.data, minus, EW.zip_fields _ _ f g h, bind, Except.bind, EW.many (h' _), Arg.name?, setName, String.append_assoc]
  · cases k
    · simp [mul, binary, mulNe, VneCalc.call, normalizeScalar, Arg.data, evaluate, List.lookup, times, EW.zip_fields _ _ f g h, bind, Except.bind, EW.manyW (h' _), pure, Except.pure, Arg.name?, setName, String.append_assoc]
    · simp [mul, binary, mulNp, Arg.data, times, EW.zip_fields _ _ f g h, bind, Except.bind, EW.many (h' _), Arg.name?, setName, String.append_assoc]
  · have e : (List.zipWith (lift2 fun x y => some (x - y)) f.vals g.vals).map (fun x => x.map fun x => |x|) = List.zipWith (lift2 fun x y => some |x - y|) f.vals g.vals := by
      rw [List.map_zipWith]
      congr 1
      funext a b
      cases a <;> cases b <;> rfl
    cases k
    · simp [absDiff, binary, absDiffNe, VneCalc.call, normalizeScalar, Arg.data, evaluate, List.lookup, minus, each, EW.zip_fields _ _ f g h, bind, Except.bind, e, EW.manyW (h' _), pure, Except.pure, Arg.name?, setName, String.append_assoc]
    · simp [absDiff, binary, absDiffNp, Arg.data, minus, each, EW.zip_fields _ _ f g h, bind, Except.bind, e, EW.many (h' _), Arg.name?, setName, String.append_assoc]

example : (⟨"a", .int, [some 1, none, some 3]⟩ : Fld).vals.length = (⟨"b", .flt, [some (1 / 2), some 5, some 4]⟩ : Fld).vals.length := rfl
example : diff .numexpr (.fld ⟨"a", .int, [some 1, none, some 3]⟩) (.fld ⟨"b", .flt, [some (1 / 2), some 5, some 4]⟩) =
    .ok (.fld ⟨"a - b", .flt, [some (1 / 2), none, some (-1)]⟩) := by decide +kernel

/-- **C253** a field and a number, in this order: both backends are alike -/
theorem C253_number (k : Backend) (f : Fld) (kd : Kind) (c : ℚ) (h1 : f.vals.length ≠ 1) :
    (∃ r, add k (.fld f) (.num kd (some c)) = .ok (.fld r) ∧ r.name = "+ " ++ f.name ∧ Each1 (fun x => x + c) f r) ∧
    (∃ r, diff k (.fld f) (.num kd (some c)) = .ok (.fld r) ∧ r.name = "- " ++ f.name ∧ Each1 (fun x => x - c) f r) ∧
    (∃ r, mul k (.fld f) (.num kd (some c)) = .ok (.fld r) ∧ r.name = "* " ++ f.name ∧ Each1 (fun x => x * c) f r) := by
  have h' : ∀ o : Option ℚ → Option ℚ, (f.vals.map o).length ≠ 1 := fun o => by simpa using h1
  have e : ∀ o : ℚ → ℚ → ℚ, (f.vals.map fun x => lift2 (fun x y => some (o x y)) x (some c)) = f.vals.map fun x => x.map fun x => o x c := fun o => by
    congr 1
    funext a
    cases a <;> rfl
  have hn : ∃ kd', normalizeScalar (.num kd (some c)) [.fld f, .num kd (some c)] = .num kd' (some c) := by
    simp only [normalizeScalar]
    split
    · exact ⟨_, rfl⟩
    · exact ⟨_, rfl⟩
  obtain ⟨kd', hn⟩ := hn
  have hf : normalizeScalar (.fld f) [.fld f, .num kd (some c)] = .fld f := rfl
  refine ⟨⟨⟨_, join f.kind (if k = .numpy then kd else kd'), _⟩, ?_, rfl, EW.each1_of _ f _ _⟩,
    ⟨⟨_, join f.kind (if k = .numpy then kd else kd'), _⟩, ?_, rfl, EW.each1_of _ f _ _⟩,
    ⟨⟨_, join f.kind (if k = .numpy then kd else kd'), _⟩, ?_, rfl, EW.each1_of _ f _ _⟩⟩
  · cases k
    · simp [add, binary, addNe, VneCalc.call, hn, hf, Arg.data, evaluate, List.lookup, plus, zip, e (· + ·), bind, Except.bind, EW.manyW (h' _), pure, Except.pure, Arg.name?, setName]
    · simp [add, binary, addNp, Arg.data, plus, zip, e (· + ·), bind, Except.bind, EW.many (h' _), Arg.name?, setName]
  · cases k
    · simp [diff, binary, diffNe, VneCalc.call, hn, hf, Arg.data, evaluate, List.lookup, minus, zip, e (· - ·), bind, Except.bind, EW.manyW (h' _), pure, Except.pure, Arg.name?, setName]
    · simp [diff, binary, diffNp, Arg.data, minus, zip, e (· - ·), bind, Except.bind, EW.many (h' _), Arg.name?, setName]
  · cases k
    · simp [mul, binary, mulNe, VneCalc.call, hn, hf, Arg.data, evaluate, List.lookup, times, zip, e (· * ·), bind, Except.bind, EW.manyW (h' _), pure, Except.pure, Arg.name?, setName]
    · simp [mul, binary, mulNp, Arg.data, times, zip, e (· * ·), bind, Except.bind, EW.many (h' _), Arg.name?, setName]

/-- **C253 is violated**: a number and a field, in this order: the value depends on what is installed. With numpy alone the result is right, with numexpr, which is preferred, the
same call raises. -/
theorem C253_left_violated (f : Fld) (kd : Kind) (c : ℚ) (h1 : f.vals.length ≠ 1) :
    (∃ r, add .numpy (.num kd (some c)) (.fld f) = .ok (.fld r) ∧ Each1 (fun x => c + x) f r) ∧
    (∃ r, diff .numpy (.num kd (some c)) (.fld f) = .ok (.fld r) ∧ Each1 (fun x => c - x) f r) ∧
    (∃ r, mul .numpy (.num kd (some c)) (.fld f) = .ok (.fld r) ∧ Each1 (fun x => c * x) f r) ∧
    add .numexpr (.num kd (some c)) (.fld f) = .error .attributeError ∧
    diff .numexpr (.num kd (some c)) (.fld f) = .error .attributeError ∧
    mul .numexpr (.num kd (some c)) (.fld f) = .error .attributeError := by
  have h' : ∀ o : Option ℚ → Option ℚ, (f.vals.map o).length ≠ 1 := fun o => by simpa using h1
  have e : ∀ o : ℚ → ℚ → ℚ, f.vals.map (lift2 (fun x y => some (o x y)) (some c)) = f.vals.map fun x => x.map fun x => o c x := fun o => by
    congr 1
    funext a
    cases a <;> rfl
  have hn : ∃ kd', normalizeScalar (.num kd (some c)) [.num kd (some c), .fld f] = .num kd' (some c) := by
    simp only [normalizeScalar]
    split
    · exact ⟨_, rfl⟩
    · exact ⟨_, rfl⟩
  obtain ⟨kd', hn⟩ := hn
  have hf : normalizeScalar (.fld f) [.num kd (some c), .fld f] = .fld f := rfl
  refine ⟨⟨⟨"+ " ++ f.name, join kd f.kind, _⟩, ?_, EW.each1_of _ f _ _⟩, ⟨⟨"- " ++ f.name, join kd f.kind, _⟩, ?_, EW.each1_of _ f _ _⟩,
    ⟨⟨"* " ++ f.name, join kd f.kind, _⟩, ?_, EW.each1_of _ f _ _⟩, ?_, ?_, ?_⟩
  · simp [add, binary, addNp, Arg.data, plus, zip, e (· + ·), bind, Except.bind, EW.many (h' _), Arg.name?, setName]
  · simp [diff, binary, diffNp, Arg.data, minus, zip, e (· - ·), bind, Except.bind, EW.many (h' _), Arg.name?, setName]
  · simp [mul, binary, mulNp, Arg.data, times, zip, e (· * ·), bind, Except.bind, EW.many (h' _), Arg.name?, setName]
  · simp [add, binary, addNe, VneCalc.call, hn, hf, Arg.data, evaluate, List.lookup, plus, zip, wrap, bind, Except.bind, pure, Except.pure]
  · simp [diff, binary, diffNe, VneCalc.call, hn, hf, Arg.data, evaluate, List.lookup, minus, zip, wrap, bind, Except.bind, pure, Except.pure]
  · simp [mul, binary, mulNe, VneCalc.call, hn, hf, Arg.data, evaluate, List.lookup, times, zip, wrap, bind, Except.bind, pure, Except.pure]

/-- **C253** (partial: fields of floats, or factors that are integers) scaling a field -/
theorem C253_scale_partial (k : Backend) (f : Fld) (kd : Kind) (c : ℚ) (h1 : f.vals.length ≠ 1) (hc : f.kind = .flt ∨ ∃ n : ℤ, c = n) :
    ∃ r, scale k kd c (.fld f) = .ok (.fld r) ∧ r.name = "*= " ++ f.name ∧ r.kind = f.kind ∧ Each1 (fun x => c * x) f r := by
  have h' : ∀ o : Option ℚ → Option ℚ, (f.vals.map o).length ≠ 1 := fun o => by simpa using h1
  have e : ∀ o : ℚ → ℚ → ℚ, f.vals.map (lift2 (fun x y => some (o x y)) (some c)) = f.vals.map fun x => x.map fun x => o c x := fun o => by
    congr 1
    funext a
    cases a <;> rfl
  have ha : asType f.kind c = c := by
    rcases hc with hc | ⟨n, hc⟩
    · rw [hc]; rfl
    · rw [hc]
      cases f.kind <;> simp [asType]
  have hj : join f.kind f.kind = f.kind := by cases f.kind <;> rfl
  refine ⟨⟨_, f.kind, _⟩, ?_, rfl, rfl, EW.each1_of _ f _ _⟩
  cases k
  · simp [scale, binary, scaleNe, evaluate, List.lookup, times, zip, ha, hj, e (· * ·), bind, Except.bind, EW.manyW (h' _), Arg.name?, setName]
  · simp [scale, binary, scaleNp, times, zip, ha, hj, e (· * ·), bind, Except.bind, EW.many (h' _), Arg.name?, setName]

example : scale .numpy .flt (1 / 2) (.fld ⟨"a", .flt, [some 3, none]⟩) = .ok (.fld ⟨"*= a", .flt, [some (3 / 2), none]⟩) := by decide +kernel

/-- **C253 is violated**: the factor is cut to an integer for a field of integers, so that scaling by any factor between -1 and 1 gives zeros, and no factor that is not an
integer gives the product anywhere but at zeros; multiplying by the same factor does -/
theorem C253_scale_violated (k : Backend) (f : Fld) (c : ℚ) (h1 : f.vals.length ≠ 1) (hk : f.kind = .int) (hc : ∀ n : ℤ, c ≠ n) :
    ∃ r s, scale k .flt c (.fld f) = .ok (.fld r) ∧ mul k (.fld f) (.num .flt (some c)) = .ok (.fld s) ∧
      ∀ (i : Nat) x, f.vals[i]? = some (some x) → s.vals[i]? = some (some (c * x)) ∧ (|c| < 1 → r.vals[i]? = some (some 0)) ∧
        (x ≠ 0 → r.vals[i]? ≠ some (some (c * x))) := by
  have h' : ∀ o : Option ℚ → Option ℚ, (f.vals.map o).length ≠ 1 := fun o => by simpa using h1
  obtain ⟨-, -, s, hs, -, hs'⟩ := C253_number k f .flt c h1
  have e : ∀ (d : ℚ) (o : ℚ → ℚ → ℚ), f.vals.map (lift2 (fun x y => some (o x y)) (some d)) = f.vals.map fun x => x.map fun x => o d x := fun d o => by
    congr 1
    funext a
    cases a <;> rfl
  refine ⟨⟨"*= " ++ f.name, .int, f.vals.map fun x => x.map fun x => asType .int c * x⟩, s, ?_, hs, fun i x hx => ⟨?_, fun hc1 => ?_, fun hx0 => ?_⟩⟩
  · cases k
    · simp [scale, binary, scaleNe, evaluate, List.lookup, times, zip, hk, join, e _ (· * ·), bind, Except.bind, EW.manyW (h' _), Arg.name?, setName]
    · simp [scale, binary, scaleNp, times, zip, hk, join, e _ (· * ·), bind, Except.bind, EW.many (h' _), Arg.name?, setName]
  · rw [hs'.2.1 i x hx, mul_comm]
  · have h0 : asType .int c = 0 := by
      rw [abs_lt] at hc1
      simp only [asType]
      split
      · next h0 => exact_mod_cast Int.floor_eq_zero_iff.2 ⟨h0, hc1.2⟩
      · next h0 => exact_mod_cast Int.ceil_eq_zero_iff.2 ⟨hc1.1, by linarith⟩
    simp [hx, h0]
  · simp only [List.getElem?_map, hx, Option.map_some, ne_eq, Option.some.injEq, mul_eq_mul_right_iff, hx0, or_false]
    intro h0
    simp only [asType] at h0
    split at h0
    · exact hc _ h0.symm
    · exact hc _ h0.symm

example : scale .numexpr .flt (1 / 2) (.fld ⟨"a", .int, [some 3, some 8]⟩) = .ok (.fld ⟨"*= a", .int, [some 0, some 0]⟩) := by decide +kernel

/-- **C253** `axpby` of two fields and two numbers is `a x + b y`, with both backends -/
theorem C253_axpby (k : Backend) (x y : Fld) (ka kb : Kind) (a b : ℚ) (h : x.vals.length = y.vals.length) (h1 : x.vals.length ≠ 1) :
    ∃ r, axpby k (.num ka (some a)) (.fld x) (.num kb (some b)) (.fld y) = .ok (.fld r) ∧
      r.vals.length = x.vals.length ∧ ∀ (i : Nat) u v, x.vals[i]? = some (some u) → y.vals[i]? = some (some v) → r.vals[i]? = some (some (a * u + b * v)) := by
  have hn : ∀ kc c, ∃ kc', normalizeScalar (.num kc (some c)) [.fld x, .fld y] = .num kc' (some c) := fun kc c => by
    simp only [normalizeScalar]
    split
    · exact ⟨_, rfl⟩
    · exact ⟨_, rfl⟩
  obtain ⟨ka', hna⟩ := hn ka a
  obtain ⟨kb', hnb⟩ := hn kb b
  have hl : (List.zipWith (lift2 fun x y => some (x + y)) (x.vals.map (lift2 (fun x y => some (x * y)) (some a))) (y.vals.map (lift2 (fun x y => some (x * y)) (some b)))).length = x.vals.length := by
    simp [h]
  have h' := hl ▸ h1
  have key : ∀ n kd, ∃ r : Fld, r = ⟨n, kd, List.zipWith (lift2 fun x y => some (x + y)) (x.vals.map (lift2 (fun x y => some (x * y)) (some a)))
      (y.vals.map (lift2 (fun x y => some (x * y)) (some b)))⟩ ∧ r.vals.length = x.vals.length ∧
      ∀ (i : Nat) u v, x.vals[i]? = some (some u) → y.vals[i]? = some (some v) → r.vals[i]? = some (some (a * u + b * v)) := fun n kd => by
    refine ⟨_, rfl, hl, fun i u v hu hv => ?_⟩
    simp [List.getElem?_zipWith, hu, hv, lift2]
  cases k
  · obtain ⟨r, hr, h2⟩ := key x.name (join (join ka' x.kind) (join kb' y.kind))
    refine ⟨r, ?_, h2⟩
    rw [hr]
    simp [axpby, axpbyNe, hna, hnb, Arg.data, evaluate, List.lookup, times, plus, zip, bind, Except.bind, h, EW.manyW h', -List.zipWith_map_left, -List.zipWith_map_right, -List.zipWith_map]
  · obtain ⟨r, hr, h2⟩ := key "" (join (join ka x.kind) (join kb y.kind))
    refine ⟨r, ?_, h2⟩
    rw [hr]
    simp only [axpby, axpbyNp, Arg.data, times, plus, zip, bind, Except.bind, List.length_map, if_pos h, EW.many h']

example : axpby .numexpr (.num .int (some 2)) (.fld ⟨"x", .flt, [some 1, some 5]⟩) (.num .flt (some (1 / 2))) (.fld ⟨"y", .int, [some 4, some 6]⟩) =
    .ok (.fld ⟨"x", .flt, [some 4, some 13]⟩) := by decide +kernel

/-- **C253** (partial: see `C253_relative_violated`) the relative difference of fields one of which is of floats: `(a - b) / a`, not finite where `a` is zero -/
theorem C253_relative_partial (k : Backend) (f g : Fld) (h : f.vals.length = g.vals.length) (h1 : f.vals.length ≠ 1) (_hk : f.kind = .flt ∨ g.kind = .flt) :
    ∃ r, relativeDiff k (.fld f) (.fld g) = .ok (.fld r) ∧ r.name = f.name ++ " %- " ++ g.name ∧ r.vals.length = f.vals.length ∧
      ∀ (i : Nat) a b, f.vals[i]? = some (some a) → g.vals[i]? = some (some b) →
        (a = 0 → r.vals[i]? = some none) ∧ (a ≠ 0 → r.vals[i]? = some (some ((a - b) / a))) := by
  have hl : (List.zipWith (lift2 fun x y => if y = 0 then none else some (x / y)) (List.zipWith (lift2 fun x y => some (x - y)) f.vals g.vals) f.vals).length = f.vals.length := by
    simp [h]
  have h' := hl ▸ h1
  refine ⟨⟨_, .flt, List.zipWith (lift2 fun x y => if y = 0 then none else some (x / y)) (List.zipWith (lift2 fun x y => some (x - y)) f.vals g.vals) f.vals⟩, ?_, rfl, hl,
    fun i a b ha hb => ?_⟩
  · cases k
    · simp [relativeDiff, binary, relativeDiffNe, VneCalc.call, normalizeScalar, Arg.data, evaluate, List.lookup, minus, over, zip, h, bind, Except.bind, EW.manyW h', pure, Except.pure, Arg.name?, setName, String.append_assoc]
    · simp [relativeDiff, binary, relativeDiffNp, Arg.data, minus, over, zip, h, bind, Except.bind, EW.many h', Arg.name?, setName, String.append_assoc]
  · constructor
    · intro h0
      simp [List.getElem?_zipWith, ha, hb, lift2, h0]
    · intro h0
      simp [List.getElem?_zipWith, ha, hb, lift2, h0]

/-- **C253 is violated**: the relative difference is documented as `abs(a - b) / a`; wherever `b` is greater than `a` its sign is the other one -/
theorem C253_relative_violated (k : Backend) (f g : Fld) (h : f.vals.length = g.vals.length) (h1 : f.vals.length ≠ 1) (hk : f.kind = .flt ∨ g.kind = .flt) :
    ∃ r, relativeDiff k (.fld f) (.fld g) = .ok (.fld r) ∧
      ∀ (i : Nat) a b, f.vals[i]? = some (some a) → g.vals[i]? = some (some b) → a ≠ 0 → a < b →
        r.vals[i]? = some (some (-(|a - b| / a))) ∧ r.vals[i]? ≠ some (some (|a - b| / a)) := by
  obtain ⟨r, hr, -, -, h2⟩ := C253_relative_partial k f g h h1 hk
  refine ⟨r, hr, fun i a b ha hb h0 hab => ?_⟩
  have e : |a - b| = -(a - b) := abs_of_neg (by linarith)
  rw [(h2 i a b ha hb).2 h0, e]
  have hne : (a - b) / a ≠ 0 := div_ne_zero (by linarith : a - b < 0).ne h0
  constructor
  · congr 2; ring
  · simp only [ne_eq, Option.some.injEq, neg_div]
    intro hh
    exact hne (by linarith)

example : relativeDiff .numpy (.fld ⟨"a", .flt, [some 2, some 4, some 0]⟩) (.fld ⟨"b", .flt, [some 3, some 1, some 1]⟩) =
    .ok (.fld ⟨"a %- b", .flt, [some (-1 / 2), some (3 / 4), none]⟩) := by decide +kernel

/-- **C253 is violated**: of fields with one value only the named operations raise -/
theorem C253_one_violated (k : Backend) (f g : Fld) (h : f.vals.length = 1) (h' : g.vals.length = 1) :
    neg k (.fld f) = .error .attributeError ∧ absVal k (.fld f) = .error .attributeError ∧
    add k (.fld f) (.fld g) = .error .attributeError ∧ diff k (.fld f) (.fld g) = .error .attributeError ∧
    mul k (.fld f) (.fld g) = .error .attributeError ∧ absDiff k (.fld f) (.fld g) = .error .attributeError := by
  obtain ⟨n, kd, l⟩ := f
  obtain ⟨n', kd', l'⟩ := g
  obtain ⟨x, rfl⟩ := List.length_eq_one_iff.1 h
  obtain ⟨y, rfl⟩ := List.length_eq_one_iff.1 h'
  cases k <;> exact ⟨rfl, rfl, rfl, rfl, rfl, rfl⟩

/-- fields of different lengths are refused by both backends -/
theorem C253_sizes (k : Backend) (f g : Fld) (h : f.vals.length ≠ g.vals.length) :
    add k (.fld f) (.fld g) = .error .valueError ∧ diff k (.fld f) (.fld g) = .error .valueError ∧ mul k (.fld f) (.fld g) = .error .valueError ∧
    absDiff k (.fld f) (.fld g) = .error .valueError ∧ relativeDiff k (.fld f) (.fld g) = .error .valueError := by
  cases k
  · refine ⟨?_, ?_, ?_, ?_, ?_⟩ <;>
      simp [add, diff, mul, absDiff, relativeDiff, binary, addNe, diffNe, mulNe, absDiffNe, relativeDiffNe, VneCalc.call, normalizeScalar, Arg.data, evaluate, List.lookup, plus, minus, times, over, zip, h,
        bind, Except.bind, pure, Except.pure]
  · refine ⟨?_, ?_, ?_, ?_, ?_⟩ <;>
      simp [add, diff, mul, absDiff, relativeDiff, binary, addNp, diffNp, mulNp, absDiffNp, relativeDiffNp, Arg.data, plus, minus, times, over, zip, h, bind, Except.bind]

namespace EW

theorem fold_none (o : ℚ → ℚ → ℚ) (l : List (Option ℚ)) : l.foldl (fun a b => lift2 (fun u v => some (o u v)) a b) none = none := by
  induction l with
  | nil => rfl
  | cons x l ih => exact ih

theorem fold_nan (o : ℚ → ℚ → ℚ) (l : List (Option ℚ)) (a : Option ℚ) (h : none ∈ l) : l.foldl (fun a b => lift2 (fun u v => some (o u v)) a b) a = none := by
  induction l generalizing a with
  | nil => cases h
  | cons x l ih =>
    rcases List.mem_cons.1 h with h | h
    · subst h
      have : lift2 (fun u v => some (o u v)) a none = none := by cases a <;> rfl
      rw [List.foldl_cons, this]
      exact fold_none o l
    · exact ih _ h

theorem fold_best (o : ℚ → ℚ → ℚ) (R : ℚ → ℚ → Prop) (hr : ∀ x, R x x) (ht : ∀ x y z, R x y → R y z → R x z) (ho : ∀ x y, (o x y = x ∨ o x y = y) ∧ R x (o x y) ∧ R y (o x y))
    (l : List (Option ℚ)) (hl : none ∉ l) (a : ℚ) :
    ∃ m, l.foldl (fun a b => lift2 (fun u v => some (o u v)) a b) (some a) = some m ∧ (m = a ∨ some m ∈ l) ∧ R a m ∧ ∀ x, some x ∈ l → R x m := by
  induction l generalizing a with
  | nil => exact ⟨a, rfl, .inl rfl, hr a, fun x h => by cases h⟩
  | cons x l ih =>
    cases x with
    | none => simp at hl
    | some x =>
      obtain ⟨m, h1, h2, h3, h4⟩ := ih (fun h => hl (List.mem_cons_of_mem _ h)) (o a x)
      refine ⟨m, h1, ?_, ht _ _ _ (ho a x).2.1 h3, fun y hy => ?_⟩
      · rcases h2 with h2 | h2
        · rcases (ho a x).1 with h5 | h5
          · exact .inl (h2.trans h5)
          · right; rw [h2, h5]; exact List.mem_cons_self
        · exact .inr (List.mem_cons_of_mem _ h2)
      · rcases List.mem_cons.1 hy with hy | hy
        · cases hy
          exact ht _ _ _ (ho a x).2.2 h3
        · exact h4 y hy

end EW

/-- **C253** the greatest and the least absolute value: one that is there and that bounds all; not finite if any value is not; an error for a field without values -/
theorem C253_absmax (f : Fld) :
    (f.vals = [] → absMax f = .error .valueError ∧ absMin f = .error .valueError) ∧
    (none ∈ f.vals → absMax f = .ok none ∧ absMin f = .ok none) ∧
    (f.vals ≠ [] → none ∉ f.vals → ∃ a b, absMax f = .ok (some |a|) ∧ some a ∈ f.vals ∧ absMin f = .ok (some |b|) ∧ some b ∈ f.vals ∧
      ∀ x, some x ∈ f.vals → |b| ≤ |x| ∧ |x| ≤ |a|) := by
  refine ⟨fun h => by simp [absMax, absMin, h, npReduce], fun h => ?_, fun h hn => ?_⟩
  · cases hv : f.vals with
    | nil => rw [hv] at h; cases h
    | cons x l =>
      rw [hv] at h
      simp only [absMax, absMin, hv, List.map_cons, npReduce]
      rcases List.mem_cons.1 h with h | h
      · subst h
        exact ⟨congrArg _ (EW.fold_none ..), congrArg _ (EW.fold_none ..)⟩
      · have hm : none ∈ l.map fun x : Option ℚ => x.map fun x => |x| := List.mem_map.2 ⟨none, h, rfl⟩
        exact ⟨congrArg _ (EW.fold_nan _ _ _ hm), congrArg _ (EW.fold_nan _ _ _ hm)⟩
  · cases hv : f.vals with
    | nil => exact absurd hv h
    | cons x l =>
      rw [hv] at hn
      cases x with
      | none => simp at hn
      | some x =>
        have hm : none ∉ l.map fun x : Option ℚ => x.map fun x => |x| := by
          intro hm
          obtain ⟨y, hy, e⟩ := List.mem_map.1 hm
          cases y with
          | none => exact hn (List.mem_cons_of_mem _ hy)
          | some y => cases e
        obtain ⟨p, p1, p2, p3, p4⟩ := EW.fold_best max (· ≤ ·) le_refl (fun _ _ _ => le_trans) (fun u v => ⟨max_choice u v, le_max_left .., le_max_right ..⟩) _ hm |x|
        obtain ⟨q, q1, q2, q3, q4⟩ := EW.fold_best min (· ≥ ·) le_refl (fun _ _ _ h h' => le_trans h' h) (fun u v => ⟨min_choice u v, min_le_left .., min_le_right ..⟩) _ hm |x|
        have back : ∀ m, (m = |x| ∨ some m ∈ l.map fun x : Option ℚ => x.map fun x => |x|) → ∃ a, m = |a| ∧ some a ∈ some x :: l := by
          rintro m (rfl | hm)
          · exact ⟨x, rfl, List.mem_cons_self⟩
          · obtain ⟨y, hy, e⟩ := List.mem_map.1 hm
            cases y with
            | none => cases e
            | some y => exact ⟨y, (Option.some.inj e).symm, List.mem_cons_of_mem _ hy⟩
        obtain ⟨a, rfl, ha⟩ := back p p2
        obtain ⟨b, rfl, hb⟩ := back q q2
        refine ⟨a, b, ?_, ha, ?_, hb, fun y hy => ?_⟩
        · simp only [absMax, hv, List.map_cons, npReduce]; exact congrArg _ p1
        · simp only [absMin, hv, List.map_cons, npReduce]; exact congrArg _ q1
        · rcases List.mem_cons.1 hy with hy | hy
          · cases hy; exact ⟨q3, p3⟩
          · have : some |y| ∈ l.map fun x : Option ℚ => x.map fun x => |x| := List.mem_map.2 ⟨some y, hy, rfl⟩
            exact ⟨q4 _ this, p4 _ this⟩

example : absMax ⟨"a", .flt, [some 2, some (-5), some 3]⟩ = .ok (some 5) ∧ absMin ⟨"a", .flt, [some 2, some (-5), some 3]⟩ = .ok (some 2) := by decide +kernel

end Viscid.Props
