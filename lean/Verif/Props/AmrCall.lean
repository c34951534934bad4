import Verif.Model.AmrCall
import Verif.Props.AmrSlice
/-!
# C255: methods of patches called through an AMR field
-/
namespace Viscid.Spec.AmrCall
open Viscid.AmrCall (Value)

/-- `n` patches have been called in turn, with these results -/
inductive Ran {P F V E : Type} (call : P → Except E (Value F V) × P) : List P → List P → List (Value F V) → Prop
  | nil : Ran call [] [] []
  | cons {p p' v ps ps' vs} : call p = (.ok v, p') → Ran call ps ps' vs → Ran call (p :: ps) (p' :: ps') (v :: vs)

end Viscid.Spec.AmrCall

namespace Viscid.Props
open Viscid.AmrCall
open Viscid.Spec.AmrCall
open Viscid.AmrSlice (Patch Sel Found Piece Res patchInds)

namespace ACL

theorem fields_some {l : List (Value F V)} {fs : List F} : fields l = some fs ↔ l = fs.map .field := by
  induction l generalizing fs with
  | nil => cases fs <;> simp [fields]
  | cons v l ih =>
    cases v with
    | other v => cases fs <;> simp [fields]
    | field f =>
      simp only [fields, Option.map_eq_some_iff]
      constructor
      · rintro ⟨gs, h, rfl⟩
        rw [ih.1 h, List.map_cons]
      · intro h
        cases fs with
        | nil => cases h
        | cons g fs =>
          simp only [List.map_cons, List.cons.injEq, Value.field.injEq] at h
          exact ⟨fs, ih.2 h.2, by rw [h.1]⟩

theorem fields_none {l : List (Value F V)} : fields l = none ↔ ∃ v, .other v ∈ l := by
  induction l with
  | nil => simp [fields]
  | cons v l ih => cases v <;> simp [fields, ih]

theorem callAll_ok {call : P → Except E (Value F V) × P} {ps ps' : List P} {vs : List (Value F V)} (h : Ran call ps ps' vs) :
    callAll call ps = (.ok vs, ps') := by
  induction h with
  | nil => rfl
  | cons h1 h2 ih => simp [callAll, h1, ih]

theorem callAll_error {call : P → Except E (Value F V) × P} {ps ps' : List P} {vs : List (Value F V)} (h : Ran call ps ps' vs) (q q' : P) (e : E) (hq : call q = (.error e, q'))
    (rest : List P) : callAll call (ps ++ q :: rest) = (.error (.method e), ps' ++ q' :: rest) := by
  induction h with
  | nil => simp [callAll, hq]
  | cons h1 h2 ih => simp [callAll, h1, ih]

end ACL

/-- **C255** a method that all patches have and that raises for none is called once on each, in order, with its effects on each; if all results are fields the result is an AMR
field of them, else the list of them -/
theorem C255_call {P E F V : Type} (has callable : P → Bool) (call : P → Except E (Value F V) × P) (p : P) (ps qs : List P) (vs : List (Value F V)) (hh : ∀ q ∈ p :: ps, has q = true)
    (hc : callable p = true) (hr : Ran call (p :: ps) qs vs) :
    ∃ o, callAttr has callable call (p :: ps) = (.ok o, qs) ∧ (∀ fs, vs = fs.map Value.field → o = .amr fs) ∧ ((∃ v, Value.other v ∈ vs) → o = .list vs) := by
  refine ⟨wrap vs, ?_, ?_, ?_⟩
  · have h1 : (p :: ps).any (fun q => !has q) = false := by
      rw [List.any_eq_false]
      intro q hq
      simp [hh q hq]
    simp only [callAttr, hh p List.mem_cons_self, hc, h1, ACL.callAll_ok hr]
    rfl
  · intro fs h
    simp only [wrap, ACL.fields_some.2 h]
  · intro h
    simp only [wrap, ACL.fields_none.2 h]

/-- **C255** if the method of a patch raises, so does the call, with the same exception; patches before have been called, those after not -/
theorem C255_raise {P E F V : Type} (has callable : P → Bool) (call : P → Except E (Value F V) × P) (before after' rest : List P) (vs : List (Value F V)) (q q' : P) (e : E)
    (hh : ∀ x ∈ before ++ q :: rest, has x = true) (hc : ∀ x ∈ before ++ q :: rest, callable x = true) (hr : Ran call before after' vs) (hq : call q = (.error e, q')) :
    callAttr has callable call (before ++ q :: rest) = (.error (.method e), after' ++ q' :: rest) := by
  have h1 : (before ++ q :: rest).any (fun q => !has q) = false := by
    rw [List.any_eq_false]
    intro x hx
    simp [hh x hx]
  have h2 := ACL.callAll_error hr q q' e hq rest
  cases hr with
  | nil =>
    simp only [List.nil_append] at *
    simp only [callAttr, hh q List.mem_cons_self, hc q List.mem_cons_self, h1, h2]
    rfl
  | cons h3 h4 =>
    simp only [List.cons_append] at *
    simp only [callAttr, hh _ List.mem_cons_self, hc _ List.mem_cons_self, h1, h2]
    rfl

/-- **C255** nothing is called if some patch lacks the method, or if there are no patches -/
theorem C255_missing {P E F V : Type} (has callable : P → Bool) (call : P → Except E (Value F V) × P) (ps : List P) (h : ∃ q ∈ ps, has q = false)
    (hc : ∀ p, ps.head? = some p → has p = true → callable p = true) :
    callAttr has callable call ps = (.error .attribute, ps) ∧ callAttr has callable call [] = (.error .index, []) := by
  refine ⟨?_, rfl⟩
  obtain ⟨q, hq, h⟩ := h
  cases ps with
  | nil => cases hq
  | cons p ps =>
    have h1 : (p :: ps).any (fun q => !has q) = true := List.any_eq_true.2 ⟨q, hq, by simp [h]⟩
    cases hp : has p with
    | false => simp [callAttr, hp]
    | true => simp [callAttr, hp, hc p rfl hp, h1]

/-- **C255** an attribute of the first patch that is not callable is not called on any patch -/
theorem C255_not_callable {P E F V : Type} (has callable : P → Bool) (call : P → Except E (Value F V) × P) (p : P) (ps : List P) (hh : has p = true) (hc : callable p = false) :
    callAttr has callable call (p :: ps) = (.error .notCallable, p :: ps) := by
  simp [callAttr, hh, hc]

/-- patches are counters, the method counts and gives a field; the third raises -/
example : callAttr (fun _ : Nat => true) (fun _ => true) (fun n => if n = 7 then (.error "seven", n) else ((.ok (.field (10 * n)) : Except String (Value Nat Unit)), n + 1)) [1, 2, 7, 3] =
    (.error (.method "seven"), [2, 3, 7, 3]) := by decide
example : callAttr (fun _ : Nat => true) (fun _ => true) (fun n => ((.ok (.field (10 * n)) : Except String (Value Nat Unit)), n + 1)) [1, 2] = (.ok (.amr [10, 20]), [2, 3]) := by decide

/-- **C255** after `with` the caches of all patches there are then have been cleared, whatever happened in it; exceptions go through and results are kept -/
theorem C255_with {P E R : Type} (clear : P → P) (body : List P → Except E R × List P) (ps : List P) :
    (withField clear body ps).1 = (body ps).1 ∧ (withField clear body ps).2.length = (body ps).2.length ∧
    ∀ (i : Nat) (p : P), (body ps).2[i]? = some p → (withField clear body ps).2[i]? = some (clear p) := by
  refine ⟨rfl, by simp [withField], fun i p h => by simp [withField, h]⟩

/-- **C255** (partial: for two patches or more, see `C255_indices_violated`) `patch_indices` gives the list of the patches that slicing uses -/
theorem C255_indices_partial (atol : ℚ) (ps : List Patch) (comp : Bool) (sel : List Sel) (i j : Nat) (l : List Nat) (h : patchInds atol ps comp sel = .ok (i :: j :: l)) :
    patchIndices atol ps comp sel = .ok (.many (i :: j :: l)) := by
  simp [patchIndices, h, Except.map, AmrSlice.found]

/-- **C255 is violated**: `patch_indices` is documented to return a list of indices, but is a number if there is one patch, and None if there is none -/
theorem C255_indices_violated (atol : ℚ) (ps : List Patch) (comp : Bool) (sel : List Sel) (l : List Nat) :
    (∀ i, patchInds atol ps comp sel = .ok [i] → patchIndices atol ps comp sel = .ok (.one i) ∧ patchIndices atol ps comp sel ≠ .ok (.many l)) ∧
    (patchInds atol ps comp sel = .ok [] → patchIndices atol ps comp sel = .ok .nothing ∧ patchIndices atol ps comp sel ≠ .ok (.many l)) := by
  constructor
  · intro i h
    simp [patchIndices, h, Except.map, AmrSlice.found]
  · intro h
    simp [patchIndices, h, Except.map, AmrSlice.found]

example : patchIndices 0 [⟨[0], [1]⟩, ⟨[1], [2]⟩] false [.one (.val (3 / 2))] = .ok (.one 1) := by decide +kernel
example : patchIndices 0 [⟨[0], [1]⟩, ⟨[1], [2]⟩] false [.slc (.val (1 / 2)) (.val (3 / 2)) none] = .ok (.many [0, 1]) := by decide +kernel

/-- **C255** (partial: for two patches or more, see `C255_interpolated_violated`) an interpolated slice is that of the patches, as other slices are -/
theorem C255_interpolated_partial [DecidableEq D] (atol : ℚ) (ps : List Patch) (comp : Bool) (sel : List Sel) (f : Nat → Piece D) (i j : Nat) (l : List Nat)
    (h : patchInds atol ps comp sel = .ok (i :: j :: l)) : interpolated atol ps comp sel f = AmrSlice.slice atol ps comp sel f := by
  simp [interpolated, AmrSlice.slice, h, AmrSlice.found]

/-- **C255 is violated**: an interpolated slice within one patch raises, though the slice of the patch is there and is what other slices give -/
theorem C255_interpolated_violated [DecidableEq D] (atol : ℚ) (ps : List Patch) (comp : Bool) (sel : List Sel) (f : Nat → Piece D) (i : Nat)
    (h : patchInds atol ps comp sel = .ok [i]) : interpolated atol ps comp sel f = .error .runtime ∧ AmrSlice.slice atol ps comp sel f = .ok (.single (f i)) := by
  simp [interpolated, AmrSlice.slice, h, AmrSlice.found]

/-- **C255** an interpolated slice that no patch meets is refused -/
theorem C255_interpolated_nothing [DecidableEq D] (atol : ℚ) (ps : List Patch) (comp : Bool) (sel : List Sel) (f : Nat → Piece D)
    (h : patchInds atol ps comp sel = .ok []) : interpolated atol ps comp sel f = .error .runtime := by
  simp [interpolated, h, AmrSlice.found]

example : patchInds 0 [⟨[0], [1]⟩, ⟨[1], [2]⟩] false [.one (.val 5)] = .ok [] := by decide +kernel

end Viscid.Props
