import Verif.Model.FileOpts
import Verif.Spec.FileOpts
import Mathlib.Data.List.Nodup
import Mathlib.Data.List.Induction
/-!
# C236: options with which files are loaded
-/
namespace Viscid.Props
open Viscid.FileOpts Viscid.Spec.FileOpts

namespace FO
variable {V : Type}

def Keys (d : List (String × V)) : Prop := (d.map (·.1)).Nodup

theorem put_keys (d : List (String × V)) (h : Keys d) (k : String) (v : V) : Keys (put d k v) := by
  unfold put
  split
  · unfold Keys at *
    have : (d.map fun e => if e.1 == k then (k, v) else e).map (·.1) = d.map (·.1) := by
      rw [List.map_map]
      apply List.map_congr_left
      intro e _
      simp only [Function.comp]
      split
      · rename_i h; simpa using (beq_iff_eq.1 h).symm
      · rfl
    rw [this]; exact h
  · rename_i hn
    unfold Keys at *
    rw [List.map_append, List.nodup_append]
    refine ⟨h, by simp, ?_⟩
    intro a ha b hb
    simp only [List.map_cons, List.map_nil, List.mem_singleton] at hb
    subst hb
    rintro rfl
    apply hn
    obtain ⟨e, he, rfl⟩ := List.mem_map.1 ha
    exact List.any_eq_true.2 ⟨e, he, by simp⟩

theorem mem_given (d : List (String × V)) (h : Keys d) (k : String) (v : V) : given d k = some v ↔ (k, v) ∈ d := by
  unfold given
  constructor
  · intro hg
    obtain ⟨e, he, rfl⟩ := Option.map_eq_some_iff.1 hg
    have h1 := List.mem_of_find?_eq_some he
    have h2 := List.find?_some he
    simp only [beq_iff_eq] at h2
    subst h2
    exact List.mem_reverse.1 h1
  · intro hm
    cases hf : d.reverse.find? (·.1 == k) with
    | none =>
      have := List.find?_eq_none.1 hf (k, v) (List.mem_reverse.2 hm)
      simp at this
    | some e =>
      have h1 := List.mem_reverse.1 (List.mem_of_find?_eq_some hf)
      have h2 := List.find?_some hf
      simp only [beq_iff_eq] at h2
      have : e = (k, v) := by
        unfold Keys at h
        obtain ⟨i, hi, e1⟩ := List.getElem_of_mem h1
        obtain ⟨j, hj, e2⟩ := List.getElem_of_mem hm
        have : i = j := by
          refine (h.getElem_inj_iff (hi := by simpa using hi) (hj := by simpa using hj)).1 ?_
          rw [List.getElem_map, List.getElem_map, e1, e2, h2]
        subst this
        rw [← e1, e2]
      rw [this]; rfl

theorem put_given (d : List (String × V)) (h : Keys d) (k : String) (v : V) (k' : String) :
    given (put d k v) k' = if k' = k then some v else given d k' := by
  split
  · rename_i e; subst e
    rw [mem_given _ (put_keys d h k' v)]
    unfold put
    split
    · rename_i ha
      obtain ⟨e, he, h1⟩ := List.any_eq_true.1 ha
      exact List.mem_map.2 ⟨e, he, by rw [if_pos h1]⟩
    · simp
  · rename_i hne
    apply Option.ext
    intro w
    rw [mem_given _ (put_keys d h k v), mem_given _ h]
    unfold put
    split
    · rw [List.mem_map]
      constructor
      · rintro ⟨e, he, h1⟩
        split at h1
        · cases h1; exact absurd rfl hne
        · rw [← h1]; exact he
      · intro he
        exact ⟨_, he, by rw [if_neg (by simpa using hne)]⟩
    · rw [List.mem_append]
      simp only [List.mem_singleton, Prod.mk.injEq]
      exact ⟨fun h => h.elim id fun h => absurd h.1 hne, .inl⟩

theorem update_given (e : List (String × V)) : ∀ d : List (String × V), Keys d → Keys (update d e) ∧
    ∀ k, given (update d e) k = (given e k).or (given d k) := by
  induction e using List.reverseRecOn with
  | nil => intro d h; exact ⟨h, fun k => rfl⟩
  | append_singleton e kv ih =>
    intro d h
    obtain ⟨h1, h2⟩ := ih d h
    have hu : update d (e ++ [kv]) = put (update d e) kv.1 kv.2 := by simp [update]
    rw [hu]
    refine ⟨put_keys _ h1 _ _, fun k => ?_⟩
    rw [put_given _ h1, h2]
    unfold given
    rw [List.reverse_append]
    simp only [List.reverse_cons, List.reverse_nil, List.nil_append, List.singleton_append, List.find?_cons]
    split
    · rename_i e'; subst e'; simp
    · rename_i hne
      rw [show (kv.1 == k) = false by simpa using fun h => hne h.symm]

end FO

variable {G D V : Type}

/-- C236: the grids of a new file are of the class asked for when it was loaded, or of that of the reader; a reader's own choice for a grid
comes first. Their options are those of the class of the reader, with those of the reader's call before them. Missing: the options given when
the file was loaded, see `C236_opts_violated`. -/
theorem C236_grids_partial (cls : Cls G D V) (hc : (cls.gridOpts.map (·.1)).Nodup) (gt : Option G) (go : Option (List (String × V)))
    (own : Option G) (kw : List (String × V)) :
    match own.or (gt.or cls.gridType) with
    | none => (File.new cls gt go).makeGrid own kw = .error .type
    | some g => ∃ r, (File.new cls gt go).makeGrid own kw = .ok r ∧ r.cls = g ∧
        ∀ k, given r.opts k = (given kw k).or (given cls.gridOpts k) := by
  have hu := (FO.update_given kw cls.gridOpts hc).2
  cases own with
  | some g => exact ⟨_, rfl, rfl, hu⟩
  | none =>
    cases gt with
    | some g => exact ⟨_, rfl, rfl, hu⟩
    | none =>
      cases hg : cls.gridType with
      | none =>
        show (File.new cls none go).makeGrid none kw = .error .type
        simp [File.makeGrid, File.new, hg]
      | some g =>
        refine ⟨⟨g, update cls.gridOpts kw⟩, ?_, rfl, hu⟩
        simp [File.makeGrid, File.new, hg]

/-- C236 is violated: the options for grids given when a file is loaded change no grid of any file. -/
theorem C236_opts_violated (cls : Cls G D V) (gt : Option G) (go : List (String × V)) (own : Option G) (kw : List (String × V)) :
    (File.new cls gt (some go)).makeGrid own kw = (File.new cls gt none).makeGrid own kw := rfl

/-- C236: a file that is not loaded yet is made with the options of the call; other files stay. -/
theorem C236_load (b : List (String × File G D V)) (h : String) (cls : Cls G D V) (gt : Option G) (go : Option (List (String × V)))
    (hn : ∀ f, (h, f) ∉ b) : load b h cls gt go = (b ++ [(h, File.new cls gt go)], File.new cls gt go) := by
  unfold load
  rw [List.find?_eq_none.2]
  rintro ⟨k, f⟩ hm
  simp only [beq_iff_eq]
  rintro rfl
  exact hn f hm

/-- C236 is violated: when a file is loaded again, with other options, it is the same file with the same class of grids. -/
theorem C236_again_violated (b : List (String × File G D V)) (h : String) (cls cls' : Cls G D V) (gt gt' : Option G)
    (go go' : Option (List (String × V))) (hn : ∀ f, (h, f) ∉ b) :
    load (load b h cls gt go).1 h cls' gt' go' = load b h cls gt go := by
  rw [C236_load b h cls gt go hn]
  unfold load
  have : (b ++ [(h, File.new cls gt go)]).find? (·.1 == h) = some (h, File.new cls gt go) := by
    rw [List.find?_append, List.find?_eq_none.2]
    · simp
    · rintro ⟨k, f⟩ hm
      simp only [beq_iff_eq]
      rintro rfl
      exact hn f hm
  simp only [this]

/-- C236: datasets by name, in any case, and no other names. Missing: classes, see `C236_class_violated`. -/
theorem C236_datasets_partial (f : File G D V) (s : String) :
    (s.toLower = "dataset" → f.makeDataset (.text s) = .ok f.cls.datasetType) ∧
    (s.toLower = "temporal" → f.makeDataset (.text s) = .ok f.cls.temporalType) ∧
    ((∃ d, f.makeDataset (.text s) = .ok d) → s.toLower ∈ ["dataset", "temporal"]) := by
  unfold File.makeDataset
  refine ⟨fun h => by simp only [h, if_true], fun h => by simp only [h, if_true]; rfl, ?_⟩
  rintro ⟨d, h⟩
  by_cases h1 : s.toLower = "dataset"
  · simp [h1]
  · by_cases h2 : s.toLower = "temporal"
    · simp [h2]
    · simp [h1, h2] at h

/-- C236 is violated: a class of datasets, which is documented, is always refused. -/
theorem C236_class_violated (f : File G D V) (d : D) : f.makeDataset (.cls d) = .error .attribute := rfl

/-- The hypotheses of C236 are met. -/
example : ((⟨some 1, (), (), [("a", 1), ("b", 2)]⟩ : Cls Nat Unit Nat).gridOpts.map (·.1)).Nodup := by decide
example : (File.new (⟨some 1, (), (), [("a", 1), ("b", 2)]⟩ : Cls Nat Unit Nat) (some 5) none).makeGrid none [("b", 7)]
    = .ok ⟨5, [("a", 1), ("b", 7)]⟩ := rfl
example : ∀ f : File Nat Unit Nat, ("x.npz", f) ∉ ([] : List (String × File Nat Unit Nat)) := by simp

end Viscid.Props
