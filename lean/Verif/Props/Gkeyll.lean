import Verif.Model.Gkeyll
import Verif.Spec.Gkeyll
import Verif.Props.GgcmFile
import Mathlib.Tactic.FieldSimp
import Mathlib.Tactic.Ring
import Mathlib.Tactic.Linarith
import Mathlib.Tactic.LinearCombination
/-!
# C196, C197: fields of Gkeyll grids; names of components, groups of Gkeyll and Athena files
-/
namespace Viscid.Props
open Viscid.Gkeyll
open Viscid.Spec.Gkeyll

namespace Gk
variable {ι : Type}

theorem fld_ok {g : Stored ι} {k v} (h : g k = some v) : fld g k = .ok v := by unfold fld; rw [h]

theorem bulk_ok {g : Stored ι} {a s m r} (hm : g ("rhou" ++ a ++ "_" ++ s) = some m) (hr : g ("rho_" ++ s) = some r) :
    bulk g a s = .ok fun i => m i / r i := by
  unfold bulk
  rw [fld_ok hm, fld_ok hr]
  rfl

theorem stress_ok {g : Stored ι} {p a b s v m n r} (hp : g ("p" ++ p ++ "_" ++ s) = some v) (hm : g ("rhou" ++ a ++ "_" ++ s) = some m)
    (hn : g ("rhou" ++ b ++ "_" ++ s) = some n) (hr : g ("rho_" ++ s) = some r) :
    stress g p a b s = .ok fun i => v i - m i * n i / r i := by
  unfold stress
  rw [fld_ok hp, fld_ok hm, fld_ok hn, fld_ok hr]
  rfl

theorem scalar_method {g : Stored ι} {k} (h : g k = none) : scalar g k =
    match method k with | .u a s => bulk g a s | .P p a b s => stress g p a b s | _ => .error .key := by
  unfold scalar
  rw [h]
  rfl

end Gk
open Gk
variable {ι : Type}

/-- bulk velocities of electrons and ions: momentum density is mass density times velocity, where there is mass -/
theorem C196_velocity (g : Stored ι) (a s : String) (ha : Letter a) (hs : Species s) (m r : ι → ℝ)
    (hm : g ("rhou" ++ a ++ "_" ++ s) = some m) (hr : g ("rho_" ++ s) = some r) (hk : g ("u" ++ a ++ "_" ++ s) = none) :
    ∃ u, scalar g ("u" ++ a ++ "_" ++ s) = .ok u ∧ ∀ i, r i ≠ 0 → Bulk (r i) (m i) (u i) := by
  refine ⟨fun i => m i / r i, ?_, fun i h => (mul_div_cancel₀ (m i) h).symm⟩
  rw [scalar_method hk, ← bulk_ok hm hr]
  cases ha <;> cases hs <;> rfl

/-- pressures: for the xx, xy, xz and yz components -/
theorem C196_pressure_partial (g : Stored ι) (a b s : String) (hab : Pair a b) (hs : Species s)
    (hyz : (a, b) ≠ ("y", "y") ∧ (a, b) ≠ ("z", "z")) (p m n r : ι → ℝ)
    (hp : g ("p" ++ (a ++ b) ++ "_" ++ s) = some p) (hm : g ("rhou" ++ a ++ "_" ++ s) = some m)
    (hn : g ("rhou" ++ b ++ "_" ++ s) = some n) (hr : g ("rho_" ++ s) = some r) (hk : g ("P" ++ (a ++ b) ++ "_" ++ s) = none) :
    ∃ P, scalar g ("P" ++ (a ++ b) ++ "_" ++ s) = .ok P ∧
      ∀ i ua ub, r i ≠ 0 → Bulk (r i) (m i) ua → Bulk (r i) (n i) ub → Pressure (r i) ua ub (p i) (P i) := by
  refine ⟨fun i => p i - m i * n i / r i, ?_, ?_⟩
  · rw [scalar_method hk, ← stress_ok hp hm hn hr]
    cases hab <;> cases hs <;> first | rfl | exact absurd rfl hyz.1 | exact absurd rfl hyz.2
  · intro i ua ub h h1 h2
    unfold Bulk at h1 h2
    show p i - m i * n i / r i = p i - r i * ua * ub
    rw [h1, h2]
    field_simp

/-- pressures: for the yy and zz components, the motion along x is taken off instead. They are right where the bulk speeds
are the same only -/
theorem C196_pressure_violated (g : Stored ι) (a s : String) (ha : Letter a) (hs : Species s) (p m n r : ι → ℝ)
    (hp : g ("p" ++ (a ++ a) ++ "_" ++ s) = some p) (hm : g ("rhou" ++ "x" ++ "_" ++ s) = some m)
    (hn : g ("rhou" ++ a ++ "_" ++ s) = some n) (hr : g ("rho_" ++ s) = some r) (hk : g ("P" ++ (a ++ a) ++ "_" ++ s) = none) :
    ∃ P, scalar g ("P" ++ (a ++ a) ++ "_" ++ s) = .ok P ∧
      ∀ i ux ua, r i ≠ 0 → Bulk (r i) (m i) ux → Bulk (r i) (n i) ua →
        (Pressure (r i) ua ua (p i) (P i) ↔ ux ^ 2 = ua ^ 2) := by
  refine ⟨fun i => p i - m i * m i / r i, ?_, ?_⟩
  · rw [scalar_method hk, ← stress_ok hp hm hm hr]
    cases ha <;> cases hs <;> rfl
  · intro i ux ua h h1 h2
    unfold Bulk at h1 h2
    unfold Pressure
    have e : p i - m i * m i / r i = p i - r i * ux * ux := by
      rw [h1]; field_simp
    show p i - m i * m i / r i = p i - r i * ua * ua ↔ _
    rw [e]
    constructor
    · intro h3
      have : r i * (ux ^ 2 - ua ^ 2) = 0 := by linear_combination -h3
      rcases mul_eq_zero.1 this with h4 | h4
      · exact absurd h4 h
      · linarith
    · intro h3
      linear_combination -(r i) * h3

/-- without the fields that are needed, a KeyError -/
theorem C196_missing (g : Stored ι) (a s : String) (ha : Letter a) (hs : Species s) (hk : g ("u" ++ a ++ "_" ++ s) = none)
    (h : g ("rhou" ++ a ++ "_" ++ s) = none ∨ g ("rho_" ++ s) = none) : scalar g ("u" ++ a ++ "_" ++ s) = .error .key := by
  have : bulk g a s = .error .key := by
    unfold bulk fld
    rcases h with h | h
    · rw [h]; rfl
    · rw [h]; cases g ("rhou" ++ a ++ "_" ++ s) <;> rfl
  rw [scalar_method hk, ← this]
  cases ha <;> cases hs <;> rfl

/-- vectors have the components that their names give -/
theorem C196_vector (g : Stored ι) (s : String) (hs : Species s) (x y z : ι → ℝ) :
    (scalar g ("ux_" ++ s) = .ok x → scalar g ("uy_" ++ s) = .ok y → scalar g ("uz_" ++ s) = .ok z →
      ∃ n, vector g ("u_" ++ s) = .ok (n, ![x, y, z])) ∧
    (g "Bx" = some x → g "By" = some y → g "Bz" = some z → ∃ n, vector g "b" = .ok (n, ![x, y, z])) := by
  constructor
  · intro h1 h2 h3
    refine ⟨"u", ?_⟩
    cases hs with
    | e =>
      have h1 : scalar g "ux_e" = .ok x := h1
      have h2 : scalar g "uy_e" = .ok y := h2
      have h3 : scalar g "uz_e" = .ok z := h3
      show (scalar g "ux_e" >>= fun x => scalar g "uy_e" >>= fun y => scalar g "uz_e" >>= fun z => Except.ok ("u", ![x, y, z])) = _
      rw [h1, h2, h3]; rfl
    | i =>
      have h1 : scalar g "ux_i" = .ok x := h1
      have h2 : scalar g "uy_i" = .ok y := h2
      have h3 : scalar g "uz_i" = .ok z := h3
      show (scalar g "ux_i" >>= fun x => scalar g "uy_i" >>= fun y => scalar g "uz_i" >>= fun z => Except.ok ("u", ![x, y, z])) = _
      rw [h1, h2, h3]; rfl
  · intro h1 h2 h3
    refine ⟨"B", ?_⟩
    have e : ∀ k v, g k = some v → scalar g k = .ok v := by intro k v h; unfold scalar; rw [h]
    show (scalar g "Bx" >>= fun x => scalar g "By" >>= fun y => scalar g "Bz" >>= fun z => Except.ok ("B", ![x, y, z])) = _
    rw [e _ _ h1, e _ _ h2, e _ _ h3]; rfl

/-- the velocity of the electrons and that of the ions have the same name -/
theorem C196_name_violated (g : Stored ι) (n n' : String) (v w : Fin 3 → ι → ℝ) (h : vector g "u_e" = .ok (n, v))
    (h' : vector g "u_i" = .ok (n', w)) : n = n' := by
  have key : ∀ k n v b sfx, method k = .vec b sfx → vector g k = .ok (n, v) → n = b := by
    intro k n v b sfx hm hv
    unfold vector at hv
    rw [hm] at hv
    simp only [bind, Except.bind] at hv
    split at hv
    · cases hv
    · split at hv
      · cases hv
      · split at hv
        · cases hv
        · injection hv with hv
          exact (congrArg Prod.fst hv).symm
  exact (key _ _ _ _ _ rfl h).trans (key _ _ _ _ _ rfl h').symm

/-! ### names of components -/

namespace Gk

/-- the lists of the module: as at first, with the names of correction potentials at the end any number of times -/
def Grown (t : Names) : Prop :=
  ∃ a b c, t.hydro = fresh.hydro ++ (List.replicate a ["phi_E", "phi_B"]).flatten ∧
    t.five = fresh.five ++ (List.replicate b ["phi_E", "phi_B"]).flatten ∧
    t.ten = fresh.ten ++ (List.replicate c ["phi_E", "phi_B"]).flatten

theorem rep_succ (a : Nat) : (List.replicate a ["phi_E", "phi_B"]).flatten ++ ["phi_E", "phi_B"] =
    (List.replicate (a + 1) ["phi_E", "phi_B"]).flatten := by
  rw [List.replicate_succ', List.flatten_append]
  rfl

theorem grow_grown {t : Names} (h : Grown t) (n : Nat) : Grown (t.grow n) := by
  obtain ⟨a, b, c, h1, h2, h3⟩ := h
  unfold Names.grow
  split
  · exact ⟨a + 1, b, c, by rw [← rep_succ, ← List.append_assoc, ← h1], h2, h3⟩
  · split
    · exact ⟨a, b + 1, c, h1, by rw [← rep_succ, ← List.append_assoc, ← h2], h3⟩
    · split
      · exact ⟨a, b, c + 1, h1, h2, by rw [← rep_succ, ← List.append_assoc, ← h3]⟩
      · exact ⟨a, b, c, h1, h2, h3⟩

theorem template_grown {t : Names} (h : Grown t) (n : Nat) : Grown (template t n).1 := by
  unfold template
  simp only
  split
  · exact h
  · split
    · exact grow_grown h _
    · exact h

theorem after_grown (l : List Nat) : Grown (after fresh l) := by
  unfold after
  have : ∀ t, Grown t → Grown (l.foldl (fun t n => (template t n).1) t) := by
    induction l with
    | nil => exact fun t h => h
    | cons n l ih => exact fun t h => ih _ (template_grown h n)
  exact this fresh ⟨0, 0, 0, by simp, by simp, by simp⟩

theorem take_grown {l : List String} {base : List String} {a n : Nat} (h : l = base ++ (List.replicate a ["phi_E", "phi_B"]).flatten)
    (hn : n = base.length) : l.take n = base := by rw [h, hn, List.take_left]

theorem take_grown2 {l : List String} {base : List String} {a n : Nat} (h : l = base ++ (List.replicate a ["phi_E", "phi_B"]).flatten)
    (hn : n = base.length + 2) : (l ++ ["phi_E", "phi_B"]).take n = base ++ ["phi_E", "phi_B"] := by
  rw [h, List.append_assoc, rep_succ, List.replicate_succ, List.flatten_cons, ← List.append_assoc, hn]
  have : base.length + 2 = (base ++ ["phi_E", "phi_B"]).length := by simp
  rw [this, List.take_left]

end Gk

/-- after any files were opened, a file of a known kind, with or without correction potentials, has the names of its
components in their order; others have numbered names -/
theorem C197_template (l : List Nat) :
    (template (after fresh l) 5).2 = ("hydro", hydro) ∧
    (template (after fresh l) 7).2 = ("hydro", hydro ++ ["phi_E", "phi_B"]) ∧
    (template (after fresh l) 16).2 = ("five-moment", fiveOf "e" ++ fiveOf "i" ++ fields) ∧
    (template (after fresh l) 18).2 = ("five-moment", fiveOf "e" ++ fiveOf "i" ++ fields ++ ["phi_E", "phi_B"]) ∧
    (template (after fresh l) 26).2 = ("ten-moment", tenOf "e" ++ tenOf "i" ++ fields) ∧
    (template (after fresh l) 28).2 = ("ten-moment", tenOf "e" ++ tenOf "i" ++ fields ++ ["phi_E", "phi_B"]) ∧
    (∀ n, n ∉ [5, 7, 16, 18, 26, 28] →
      (template (after fresh l) n).2.1 = "unknown" ∧ (template (after fresh l) n).2.2.length = n ∧
        ∀ i, i < n → (template (after fresh l) n).2.2[i]? = some ("Q" ++ toString i)) := by
  obtain ⟨a, b, c, h1, h2, h3⟩ := after_grown l
  generalize after fresh l = t at h1 h2 h3
  refine ⟨?_, ?_, ?_, ?_, ?_, ?_, ?_⟩
  · show ("hydro", t.hydro.take 5) = _
    rw [take_grown (n := 5) h1 rfl]; rfl
  · show ("hydro", (t.hydro ++ ["phi_E", "phi_B"]).take 7) = _
    rw [take_grown2 (n := 7) h1 rfl]; rfl
  · show ("five-moment", t.five.take 16) = _
    rw [take_grown (n := 16) h2 rfl]; rfl
  · show ("five-moment", (t.five ++ ["phi_E", "phi_B"]).take 18) = _
    rw [take_grown2 (n := 18) h2 rfl]; rfl
  · show ("ten-moment", t.ten.take 26) = _
    rw [take_grown (n := 26) h3 rfl]; rfl
  · show ("ten-moment", (t.ten ++ ["phi_E", "phi_B"]).take 28) = _
    rw [take_grown2 (n := 28) h3 rfl]; rfl
  · intro n hn
    simp only [List.mem_cons, List.not_mem_nil, or_false, not_or] at hn
    have e1 : t.info n = none := by
      unfold Names.info
      rw [if_neg (by omega), if_neg (by omega), if_neg (by omega)]
    have e2 : t.info (n - 2) = none := by
      unfold Names.info
      rw [if_neg (by omega), if_neg (by omega), if_neg (by omega)]
    have e : (template t n).2 = ("unknown", ((List.range n).map fun i => "Q" ++ toString i).take n) := by
      unfold template
      simp only [e1, e2]
      rfl
    rw [e]
    refine ⟨rfl, by simp, ?_⟩
    intro i hi
    simp only
    rw [List.take_of_length_le (by simp), List.getElem?_map, List.getElem?_range hi]
    rfl

/-- the kind of a file, as its grid has it, is lost when the file is one of a collection -/
theorem C197_kind_violated (l : List Nat) : kind (after fresh l) 26 false = "ten-moment" ∧ kind (after fresh l) 26 true = "q" := by
  obtain ⟨-, -, -, -, h, -⟩ := C197_template l
  exact ⟨congrArg Prod.fst h, rfl⟩

/-! ### groups of files -/

namespace Gk
open Viscid.GgcmFile

theorem insertBy_map (f : α → β) (le : β → β → Bool) (a : α) (l : List α) :
    insertBy le (f a) (l.map f) = (insertBy (fun x y => le (f x) (f y)) a l).map f := by
  induction l with
  | nil => rfl
  | cons b l ih =>
    simp only [List.map_cons, insertBy]
    split
    · rfl
    · rw [ih]; rfl

theorem sortBy_map (f : α → β) (le : β → β → Bool) (l : List α) :
    sortBy le (l.map f) = (sortBy (fun x y => le (f x) (f y)) l).map f := by
  induction l with
  | nil => rfl
  | cons a l ih =>
    show insertBy le (f a) (sortBy le (l.map f)) = (insertBy _ a (sortBy _ l)).map f
    rw [ih, insertBy_map]

theorem groupRuns_map (f : α → β) (same : β → β → Bool) (l : List α) :
    groupRuns same (l.map f) = (groupRuns (fun x y => same (f x) (f y)) l).map (List.map f) := by
  induction l with
  | nil => rfl
  | cons a l ih =>
    rw [List.map_cons, groupRuns, groupRuns, ih]
    cases h : groupRuns (fun x y => same (f x) (f y)) l with
    | nil => rfl
    | cons g gs =>
      cases g with
      | nil => rfl
      | cons b g =>
        simp only [List.map_cons]
        split <;> rfl

theorem sortBy_true (l : List α) : sortBy (fun _ _ => true) l = l := by
  induction l with
  | nil => rfl
  | cons a l ih =>
    show insertBy _ a (sortBy _ l) = _
    rw [ih]
    cases l <;> rfl

/-- as OpenGGCM files have it: always with a number -/
def asMatch (m : Found) : Match := ⟨m.run, m.ftype, some (some m.frame)⟩
/-- the same without type -/
def asMatch' (m : Found) : Match := ⟨m.run, "", some (some m.frame)⟩

theorem before_ne {a b : Match} (h : Spec.GgcmFile.Before a b) : ¬ (a.run = b.run ∧ a.ftype = b.ftype) := by
  rintro ⟨h1, h2⟩
  rcases h with h | ⟨-, h⟩
  · rw [h1] at h; exact lt_irrefl _ h
  · rw [h2] at h; exact lt_irrefl _ h

theorem find_matchAll (re : N → Option Found) (c : Found → Match) (names : List N) :
    matchAll (fun n => (re n).map c) names = (find re names).map fun l => l.map fun x => (x.1, c x.2) := by
  induction names with
  | nil => rfl
  | cons n ns ih =>
    unfold matchAll find
    rw [ih]
    cases re n with
    | none => rfl
    | some m => cases find re ns <;> rfl

theorem drop_id (c : Found → Match) (hc : ∀ m, (c m).grp3 ≠ none) (g : List (N × Found)) :
    (dropRunLevel (g.map fun x => (x.1, c x.2))).map (·.1) = g.map (·.1) := by
  have : dropRunLevel (g.map fun x => (x.1, c x.2)) = g.map fun x => (x.1, c x.2) := by
    unfold dropRunLevel
    split
    · rw [List.filter_eq_self]
      intro x hx
      rw [List.mem_map] at hx
      obtain ⟨y, _, rfl⟩ := hx
      simpa using hc y.2
    · rfl
  rw [this, List.map_map]
  rfl

theorem gkeyll_eq (re : N → Option Found) (names : List N) :
    groupGkeyll re names = groupFiles (fun n => (re n).map asMatch) names := by
  unfold groupGkeyll groupFiles
  rw [find_matchAll]
  cases h : find re names with
  | error e => rfl
  | ok l =>
    cases l with
    | nil => rfl
    | cons x l =>
      simp only [Except.map, List.map_cons]
      rw [show (x.1, asMatch x.2) :: l.map (fun x => (x.1, asMatch x.2)) = (x :: l).map (fun x => (x.1, asMatch x.2)) from rfl]
      rw [sortBy_map, sortBy_map, sortBy_map, groupRuns_map, List.map_map]
      congr 1
      apply List.map_congr_left
      intro g _
      exact (drop_id asMatch (fun m => by simp [asMatch]) g).symm

theorem athena_eq (re : N → Option Found) (names : List N) :
    groupAthena re names = groupFiles (fun n => (re n).map asMatch') names := by
  unfold groupAthena groupFiles
  rw [find_matchAll]
  cases h : find re names with
  | error e => rfl
  | ok l =>
    cases l with
    | nil => rfl
    | cons x l =>
      simp only [Except.map, List.map_cons]
      rw [show (x.1, asMatch' x.2) :: l.map (fun x => (x.1, asMatch' x.2)) = (x :: l).map (fun x => (x.1, asMatch' x.2)) from rfl]
      rw [sortBy_map, sortBy_map, sortBy_map, groupRuns_map, List.map_map]
      have e : (fun x y : N × Found => decide ((asMatch' x.2).ftype ≤ (asMatch' y.2).ftype)) = fun _ _ => true := by
        funext x y
        simp [asMatch']
      rw [e, sortBy_true]
      have e2 : (fun x y : N × Found => decide ((asMatch' x.2).run = (asMatch' y.2).run ∧ (asMatch' x.2).ftype = (asMatch' y.2).ftype)) =
          fun a b => decide (a.2.run = b.2.run) := by
        funext x y
        simp [asMatch']
      rw [e2]
      congr 1
      apply List.map_congr_left
      intro g _
      exact (drop_id asMatch' (fun m => by simp [asMatch']) g).symm

end Gk

open Viscid.GgcmFile (Err) in
/-- Gkeyll files: every name is in exactly one group as often as it was given; the files of a group have the same run and type and
come in the order of their frames; different groups have different runs or types -/
theorem C197_gkeyll (re : N → Option Found) (m : N → Found) (names : List N) (h : ∀ n ∈ names, re n = some (m n)) (hne : names ≠ []) :
    ∃ gs, groupGkeyll re names = .ok gs ∧ gs.flatten.Perm names ∧
      (∀ g ∈ gs, g ≠ [] ∧ (∀ a ∈ g, ∀ b ∈ g, (m a).run = (m b).run ∧ (m a).ftype = (m b).ftype) ∧
        g.Pairwise fun a b => (m a).frame ≤ (m b).frame) ∧
      gs.Pairwise fun g g' => ∀ a ∈ g, ∀ b ∈ g', (m a).run ≠ (m b).run ∨ (m a).ftype ≠ (m b).ftype := by
  obtain ⟨gs, h1, h2, h3, h4⟩ := C113_groups (fun n => (re n).map asMatch) (fun n => asMatch (m n)) names
    (fun n hn => by rw [h n hn]; rfl) hne
  refine ⟨gs, (gkeyll_eq re names).trans h1, ?_, ?_, ?_⟩
  · refine h2.trans (.of_eq ?_)
    rw [List.filter_eq_self]
    intro n _
    simp only [decide_eq_true_eq]
    exact .inl (by simp [Spec.GgcmFile.Slice, asMatch])
  · intro g hg
    obtain ⟨e1, e2, e3⟩ := h3 g hg
    exact ⟨e1, e2, e3.imp fun {a b} h => h _ _ rfl rfl⟩
  · refine h4.imp fun {g g'} h a ha b hb => ?_
    have := before_ne (h a ha b hb)
    by_contra hc
    rw [not_or, not_not, not_not] at hc
    exact this hc

open Viscid.GgcmFile (Err) in
/-- Athena files: the same, with groups by run -/
theorem C197_athena (re : N → Option Found) (m : N → Found) (names : List N) (h : ∀ n ∈ names, re n = some (m n)) (hne : names ≠ []) :
    ∃ gs, groupAthena re names = .ok gs ∧ gs.flatten.Perm names ∧
      (∀ g ∈ gs, g ≠ [] ∧ (∀ a ∈ g, ∀ b ∈ g, (m a).run = (m b).run) ∧ g.Pairwise fun a b => (m a).frame ≤ (m b).frame) ∧
      gs.Pairwise fun g g' => ∀ a ∈ g, ∀ b ∈ g', (m a).run ≠ (m b).run := by
  obtain ⟨gs, h1, h2, h3, h4⟩ := C113_groups (fun n => (re n).map asMatch') (fun n => asMatch' (m n)) names
    (fun n hn => by rw [h n hn]; rfl) hne
  refine ⟨gs, (athena_eq re names).trans h1, ?_, ?_, ?_⟩
  · refine h2.trans (.of_eq ?_)
    rw [List.filter_eq_self]
    intro n _
    simp only [decide_eq_true_eq]
    exact .inl (by simp [Spec.GgcmFile.Slice, asMatch'])
  · intro g hg
    obtain ⟨e1, e2, e3⟩ := h3 g hg
    exact ⟨e1, fun a ha b hb => (e2 a ha b hb).1, e3.imp fun {a b} h => h _ _ rfl rfl⟩
  · refine h4.imp fun {g g'} h a ha b hb hc => ?_
    exact before_ne (h a ha b hb) ⟨hc, rfl⟩

/-- no names are an IndexError, and a name that does not match an AttributeError -/
theorem C197_refused (re : N → Option Found) (names : List N) :
    groupGkeyll re ([] : List N) = .error .index ∧ groupAthena re ([] : List N) = .error .index ∧
    ((∃ n ∈ names, re n = none) → groupGkeyll re names = .error .attribute ∧ groupAthena re names = .error .attribute) := by
  refine ⟨rfl, rfl, ?_⟩
  rintro ⟨n, hn, h⟩
  rw [gkeyll_eq, athena_eq]
  exact ⟨(C113_refused _ names).2 ⟨n, hn, by rw [h]; rfl⟩, (C113_refused _ names).2 ⟨n, hn, by rw [h]; rfl⟩⟩

example : groupGkeyll (fun n : Nat => some ⟨if n % 2 = 0 then "b" else "a", "q", n⟩) [12, 3, 2, 7] = .ok [[3, 7], [2, 12]] := by
  decide +kernel
example : groupAthena (fun n : Nat => some ⟨if n % 2 = 0 then "b" else "a", "", n⟩) [12, 3, 2, 7] = .ok [[3, 7], [2, 12]] := by
  decide +kernel
example : (template (after fresh [7, 7, 18, 3]) 7).2.2 = ["rho", "rhoux", "rhouy", "rhouz", "e", "phi_E", "phi_B"] := by decide +kernel

/-- a file of ten moments, at one point -/
noncomputable def exGkeyll : Stored Unit
  | "rho_e" => some fun _ => 1
  | "rhoux_e" => some fun _ => 2
  | "rhouy_e" => some fun _ => 3
  | "pyy_e" => some fun _ => 10
  | "pxy_e" => some fun _ => 7
  | _ => none

example : ∃ P, scalar exGkeyll "Pyy_e" = .ok P ∧ ¬ Pressure 1 3 3 10 (P ()) := by
  obtain ⟨P, h1, h2⟩ := C196_pressure_violated exGkeyll "y" "e" .y .e _ _ _ _ rfl rfl rfl rfl rfl
  refine ⟨P, h1, fun h => ?_⟩
  have := (h2 () 2 3 (by norm_num) (by norm_num [Bulk]) (by norm_num [Bulk])).1 h
  norm_num at this
example : ∃ P, scalar exGkeyll "Pxy_e" = .ok P ∧ P () = 1 := by
  obtain ⟨P, h1, h2⟩ := C196_pressure_partial exGkeyll "x" "y" "e" .xy .e (by decide) _ _ _ _ rfl rfl rfl rfl rfl
  exact ⟨P, h1, by have := h2 () 2 3 (by norm_num) (by norm_num [Bulk]) (by norm_num [Bulk]); rw [this]; norm_num⟩

end Viscid.Props
