import Verif.Model.Dict
namespace Viscid.Dict
variable {K V : Type} [DecidableEq K]

@[simp] theorem get?_nil (k : K) : get? ([] : Dict K V) k = none := rfl

theorem get?_set (d : Dict K V) (k k' : K) (v : V) :
    get? (set d k v) k' = if k' = k then some v else get? d k' := by
  induction d with
  | nil =>
    simp only [set, get?]
    by_cases h : k = k'
    · subst h; simp
    · rw [if_neg h, if_neg (fun e => h e.symm)]
  | cons p d ih =>
    obtain ⟨a, b⟩ := p
    simp only [set]
    by_cases h : a = k
    · subst h
      simp only [if_true, get?]
      by_cases h2 : a = k'
      · subst h2; simp
      · rw [if_neg h2, if_neg h2, if_neg (fun e => h2 e.symm)]
    · simp only [h, if_false, get?, ih]
      by_cases h2 : a = k'
      · subst h2; simp [h]
      · simp [h2]

theorem keys_set (d : Dict K V) (k : K) (v : V) :
    keys (set d k v) = if k ∈ keys d then keys d else keys d ++ [k] := by
  induction d with
  | nil => simp [set, keys]
  | cons p d ih =>
    obtain ⟨a, b⟩ := p
    simp only [set]
    by_cases h : a = k
    · subst h; simp [keys]
    · have hk : ¬ k = a := fun e => h e.symm
      simp only [h, if_false]
      show a :: keys (set d k v) = _
      rw [ih]
      by_cases h2 : k ∈ keys d
      · have : k ∈ keys ((a, b) :: d) := List.mem_cons_of_mem _ h2
        rw [if_pos h2, if_pos this]; rfl
      · have : k ∉ keys ((a, b) :: d) := by
          simp only [keys, List.map_cons, List.mem_cons, not_or]; exact ⟨hk, h2⟩
        rw [if_neg h2, if_neg this]; rfl

theorem mem_keys_iff (d : Dict K V) (k : K) : k ∈ keys d ↔ (get? d k).isSome := by
  induction d with
  | nil => simp [keys]
  | cons p d ih =>
    obtain ⟨a, b⟩ := p
    simp only [keys, List.map_cons, List.mem_cons, get?]
    by_cases h : a = k
    · simp [h]
    · simp only [h, if_false]
      rw [← ih]
      constructor
      · rintro (rfl | h2)
        · exact absurd rfl h
        · exact h2
      · exact Or.inr

theorem get?_of_mem (d : Dict K V) (h : WF d) {k : K} {v : V} (hm : (k, v) ∈ d) : get? d k = some v := by
  induction d with
  | nil => cases hm
  | cons p d ih =>
    obtain ⟨a, b⟩ := p
    unfold WF keys at h
    rw [List.map_cons, List.nodup_cons] at h
    rcases List.mem_cons.mp hm with e | e
    · cases e; simp [get?]
    · have : a ≠ k := fun h' => h.1 (List.mem_map.mpr ⟨_, e, h'.symm⟩)
      simp only [get?, if_neg this]
      exact ih h.2 e

theorem not_mem_keys_iff (d : Dict K V) (k : K) : k ∉ keys d ↔ get? d k = none := by
  rw [mem_keys_iff]; cases get? d k <;> simp

omit [DecidableEq K] in
theorem WF_nil : WF ([] : Dict K V) := by simp [WF, keys]

theorem WF_set (d : Dict K V) (k : K) (v : V) (h : WF d) : WF (set d k v) := by
  unfold WF at *
  rw [keys_set]
  split
  · exact h
  · next hk =>
    rw [List.nodup_append]
    refine ⟨h, by simp, ?_⟩
    intro a ha b hb
    simp at hb; subst hb
    intro e; subst e; exact hk ha

theorem keys_del (d : Dict K V) (k : K) : keys (del d k) = (keys d).erase k := by
  induction d with
  | nil => rfl
  | cons p d ih =>
    obtain ⟨a, b⟩ := p
    by_cases h : a = k
    · subst h; simp [del, keys]
    · simp only [del, h, if_false]
      show a :: keys (del d k) = (a :: keys d).erase k
      rw [ih, List.erase_cons_tail]
      simpa using h

theorem WF_del (d : Dict K V) (k : K) (h : WF d) : WF (del d k) := by
  unfold WF at *
  rw [keys_del]
  exact h.erase k

theorem get?_del (d : Dict K V) (k k' : K) (h : WF d) :
    get? (del d k) k' = if k' = k then none else get? d k' := by
  induction d with
  | nil => simp [del]
  | cons p d ih =>
    obtain ⟨a, b⟩ := p
    have hnd : a ∉ keys d ∧ WF d := by
      have : (a :: keys d).Nodup := h
      rw [List.nodup_cons] at this; exact this
    by_cases ha : a = k
    · subst ha
      simp only [del, if_true]
      by_cases hk : k' = a
      · subst hk; rw [if_pos rfl]; exact (not_mem_keys_iff d k').mp hnd.1
      · rw [if_neg hk]; simp only [get?]; rw [if_neg (fun e => hk e.symm)]
    · simp only [del, ha, if_false, get?, ih hnd.2]
      by_cases hk : a = k'
      · subst hk; simp [ha]
      · simp [hk]

end Viscid.Dict
