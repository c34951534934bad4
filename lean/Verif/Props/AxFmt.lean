import Verif.Model.AxFmt
/-!
# C270: formatters and locators of axes
-/
namespace Viscid.Spec.AxFmt
open Viscid.AxFmt

/-- Specification: what an axis has afterwards in one place, when `old` was there and `given` is the argument -/
inductive Becomes (old : Val) : Val → Val → Prop
  | unset : Becomes old .none old
  | empty : Becomes old (.str "") old
  | string (s : String) : s ≠ "" → Becomes old (.str s) (.str s)
  | object (n : Nat) : Becomes old (.obj n) (.obj n)
  | function : Becomes old .steveAxfmt .steveAxfmt

/-- Specification: the same for a formatter, which may be given by its name -/
inductive BecomesFmt (old : Val) : Val → Val → Prop
  | named : BecomesFmt old (.str "steve") .steveAxfmt
  | other (v r : Val) : v ≠ .str "steve" → Becomes old v r → BecomesFmt old v r

/-- Specification: all four places of an axis -/
def Changed (old new : Axis) (majorfmt minorfmt majorloc minorloc : Val) : Prop :=
  BecomesFmt old.majorFmt majorfmt new.majorFmt ∧ BecomesFmt old.minorFmt minorfmt new.minorFmt ∧
    Becomes old.majorLoc majorloc new.majorLoc ∧ Becomes old.minorLoc minorloc new.minorLoc

end Viscid.Spec.AxFmt

namespace Viscid.Props
open Viscid.AxFmt Viscid.Spec.AxFmt

namespace AF

theorem becomes (old v : Val) : Becomes old v (if v.truthy then v else old) := by
  cases v with
  | none => exact .unset
  | str s =>
    by_cases h : s = ""
    · subst h; exact .empty
    · simp only [Val.truthy, bne_iff_ne, ne_eq, h, not_false_eq_true, if_true]; exact .string s h
  | obj n => exact .object n
  | steveAxfmt => exact .function

theorem becomesFmt (old v : Val) : BecomesFmt old v (if (steve v).truthy then steve v else old) := by
  by_cases h : v = .str "steve"
  · subst h; exact .named
  · simp only [steve, h, if_false]; exact .other _ _ h (becomes old v)

theorem setAxis_eq (a : Axis) (p q r s : Val) : setAxis a p q r s =
    ⟨if p.truthy then p else a.majorFmt, if q.truthy then q else a.minorFmt, if r.truthy then r else a.majorLoc, if s.truthy then s else a.minorLoc⟩ := by
  unfold setAxis
  cases p.truthy <;> cases q.truthy <;> cases r.truthy <;> cases s.truthy <;> rfl

theorem setAxis_twice (a : Axis) (p q r s : Val) : setAxis (setAxis a p q r s) p q r s = setAxis a p q r s := by
  simp only [setAxis_eq]
  cases p.truthy <;> cases q.truthy <;> cases r.truthy <;> cases s.truthy <;> rfl

theorem changed (a : Axis) (p q r s : Val) : Changed a (setAxis a (steve p) (steve q) r s) p q r s := by
  rw [setAxis_eq]
  exact ⟨becomesFmt _ _, becomesFmt _ _, becomes _ _, becomes _ _⟩

/-- names before the first one that is not an axis -/
def good (c : Char) : Bool := c == 'x' || c == 'y'

theorem loop_spec (p q r s : Val) (cs : List Char) : ∀ ax : Axes, loop ax p q r s cs =
    (⟨if 'x' ∈ cs.takeWhile good then setAxis ax.x p q r s else ax.x, if 'y' ∈ cs.takeWhile good then setAxis ax.y p q r s else ax.y⟩,
      cs.all good) := by
  induction cs with
  | nil => intro ax; simp [loop]
  | cons c cs ih =>
    intro ax
    by_cases hx : c = 'x'
    · subst hx
      simp only [loop, if_true, ih, List.takeWhile_cons, good, List.all_cons]
      by_cases h : 'x' ∈ List.takeWhile good cs <;> simp [h, setAxis_twice]
    · by_cases hy : c = 'y'
      · subst hy
        simp only [loop, if_true, ih, List.takeWhile_cons, good, List.all_cons]
        by_cases h : 'y' ∈ List.takeWhile good cs <;> simp [h, setAxis_twice]
      · simp [loop, hx, hy, good]

theorem takeWhile_all {cs : List Char} (h : ∀ c ∈ cs, c = 'x' ∨ c = 'y') : cs.takeWhile good = cs := by
  induction cs with
  | nil => rfl
  | cons c cs ih =>
    have hc : good c = true := by
      rcases h c (by simp) with e | e <;> subst e <;> rfl
    rw [List.takeWhile_cons, hc, if_pos rfl, ih (fun d hd => h d (by simp [hd]))]

theorem takeWhile_append {cs ds : List Char} {c : Char} (h : ∀ c ∈ cs, c = 'x' ∨ c = 'y') (hx : c ≠ 'x') (hy : c ≠ 'y') :
    (cs ++ c :: ds).takeWhile good = cs := by
  induction cs with
  | nil => simp [good, hx, hy]
  | cons e cs ih =>
    have he : good e = true := by
      rcases h e (by simp) with e' | e' <;> subst e' <;> rfl
    rw [List.cons_append, List.takeWhile_cons, he, if_pos rfl, ih (fun d hd => h d (by simp [hd]))]

end AF

/-- **C270**: when all names are axes, each named axis has what was given, an argument that is not given (or is empty) leaves what was there, "steve" names a formatter but not a locator, and an axis that is not named is left alone. -/
theorem C270_axes (ax : Axes) (majorfmt minorfmt majorloc minorloc : Val) (names : List Char) (h : ∀ c ∈ names, c = 'x' ∨ c = 'y') :
    let r := applyAxfmt ax majorfmt minorfmt majorloc minorloc names
    r.2 = true ∧
      ('x' ∈ names → Changed ax.x r.1.x majorfmt minorfmt majorloc minorloc) ∧ ('x' ∉ names → r.1.x = ax.x) ∧
      ('y' ∈ names → Changed ax.y r.1.y majorfmt minorfmt majorloc minorloc) ∧ ('y' ∉ names → r.1.y = ax.y) := by
  simp only [applyAxfmt, AF.loop_spec, AF.takeWhile_all h]
  refine ⟨?_, fun hx => ?_, fun hx => ?_, fun hy => ?_, fun hy => ?_⟩
  · rw [List.all_eq_true]
    intro c hc
    rcases h c hc with e | e <;> subst e <;> rfl
  · rw [if_pos hx]; exact AF.changed _ _ _ _ _
  · rw [if_neg hx]
  · rw [if_pos hy]; exact AF.changed _ _ _ _ _
  · rw [if_neg hy]

/-- **C270**: order and repetition of names do not matter. -/
theorem C270_order (ax : Axes) (majorfmt minorfmt majorloc minorloc : Val) (names names' : List Char)
    (h : ∀ c ∈ names, c = 'x' ∨ c = 'y') (e : ∀ c, c ∈ names ↔ c ∈ names') :
    applyAxfmt ax majorfmt minorfmt majorloc minorloc names = applyAxfmt ax majorfmt minorfmt majorloc minorloc names' := by
  have h' : ∀ c ∈ names', c = 'x' ∨ c = 'y' := fun c hc => h c ((e c).2 hc)
  have a1 := (C270_axes ax majorfmt minorfmt majorloc minorloc names h).1
  have a2 := (C270_axes ax majorfmt minorfmt majorloc minorloc names' h').1
  simp only [applyAxfmt, AF.loop_spec, AF.takeWhile_all h, AF.takeWhile_all h', e] at a1 a2 ⊢
  rw [a1, a2]

/-- **C270**: a name that is no axis is an error, but the axes named before it are changed all the same, and those after it are not. -/
theorem C270_error (ax : Axes) (majorfmt minorfmt majorloc minorloc : Val) (names rest : List Char) (c : Char)
    (h : ∀ c ∈ names, c = 'x' ∨ c = 'y') (hx : c ≠ 'x') (hy : c ≠ 'y') :
    (applyAxfmt ax majorfmt minorfmt majorloc minorloc (names ++ c :: rest)).2 = false ∧
      (applyAxfmt ax majorfmt minorfmt majorloc minorloc (names ++ c :: rest)).1 = (applyAxfmt ax majorfmt minorfmt majorloc minorloc names).1 := by
  simp only [applyAxfmt, AF.loop_spec, AF.takeWhile_all h, AF.takeWhile_append h hx hy, and_true]
  simp [AF.good, hx, hy]

/-- A case: "steve" for major ticks of x only, and a locator that is left -/
example : applyAxfmt ⟨⟨.obj 1, .obj 2, .obj 3, .obj 4⟩, ⟨.obj 5, .obj 6, .obj 7, .obj 8⟩⟩ (.str "steve") .none (.obj 9) (.str "") ['x'] =
    (⟨⟨.steveAxfmt, .obj 2, .obj 9, .obj 4⟩, ⟨.obj 5, .obj 6, .obj 7, .obj 8⟩⟩, true) := by decide +kernel

example : (∀ c ∈ ['y', 'x', 'y'], c = 'x' ∨ c = 'y') ∧ (∀ c, c ∈ ['y', 'x', 'y'] ↔ c ∈ ['x', 'y']) ∧ 'z' ≠ 'x' ∧ 'z' ≠ 'y' := by
  refine ⟨by decide, fun c => ?_, by decide, by decide⟩
  simp only [List.mem_cons, List.not_mem_nil, or_false]
  constructor <;> intro h <;> rcases h with h | h | h <;> simp_all

end Viscid.Props
