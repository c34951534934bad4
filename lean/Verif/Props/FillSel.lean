import Verif.Lemmas.FillSel
/-!
# C16: selections expand to one entry per axis
-/
namespace Viscid.FillSel
variable {N S : Type} [DecidableEq N] [DecidableEq S]

/-- C16, shape of every accepted selection.  `hnamed`: a named entry is text, never `slice(None)`.
`hell`: with an Ellipsis, no more selections than axes (C16_too_many_violated shows why). -/
theorem C16_shape_partial (full : S) (newName : Nat → N) (ax : List N) (es : List (Entry N S)) (rows : List (Row N S))
    (hnamed : ∀ e ∈ es, e.name.isSome → e.kind ≠ .sel full)
    (hell : (∃ e ∈ es, e.kind = .ellipsis) →
      es.countP (fun e => decide (e.kind ≠ .newax ∧ e.kind ≠ .ellipsis)) ≤ ax.length)
    (h : fill full newName ax es = .ok rows) : Expansion full ax es rows := by
  rcases ell_cases es with hno | ⟨pre, x, post, rfl, hx, hpre, hpost⟩ | htwo
  · -- no ellipsis
    obtain ⟨st, hrun, hrows, _⟩ := fill_plain full newName ax es rows hno h
    have hi := run_inv full newName ax es [] _ st (inv_init full ax) (by simpa using hnamed) hrun
    rw [List.nil_append] at hi
    refine expansion_of_inv full ax es es rows st hi hrows (fun e he => Or.inl he) rfl ?_
    apply List.filter_congr
    intro k hk
    obtain ⟨e, he, rfl⟩ := List.mem_map.mp hk
    simp [plainSel, hno e he]
  · -- one ellipsis
    by_cases hpp : pre = [] ∧ post = []
    · obtain ⟨rfl, rfl⟩ := hpp
      obtain ⟨nm, k⟩ := x
      dsimp only at hx
      subst hx
      cases nm with
      | some nm => exact absurd h (fill_named_ell full newName ax [] [] nm rows (by simp) (by simp))
      | none =>
        simp only [List.nil_append] at h ⊢
        rw [fill, if_pos rfl] at h
        cases h
        exact expansion_full full ax
    · have hxn : x.name = none := by
        cases hn : x.name with
        | none => rfl
        | some nm =>
          exfalso
          obtain ⟨n', k'⟩ := x
          dsimp only at hx hn
          subst hx hn
          exact fill_named_ell full newName ax pre post nm rows hpre hpost h
      have hc : selCount pre + selCount post ≤ ax.length := by
        have := hell ⟨x, by simp, hx⟩
        rw [List.countP_append, List.countP_cons] at this
        unfold selCount
        omega
      obtain ⟨st, hrun, hrows⟩ := fill_ell full newName ax pre post x rows hx hpre hpost hc hpp h
      have hi := run_inv full newName ax _ [] _ st (inv_init full ax) (by
        intro e he hs
        simp only [List.nil_append, List.mem_append, List.mem_replicate] at he
        rcases he with (he | ⟨_, rfl⟩) | he
        · exact hnamed e (by simp [he]) hs
        · cases hs
        · exact hnamed e (by simp [he]) hs) hrun
      rw [List.nil_append] at hi
      have hk : ∀ l : List (Entry N S), (∀ e ∈ l, e.kind ≠ .ellipsis) →
          (l.map Entry.kind).filter (plainSel full) =
          (l.map Entry.kind).filter fun k => decide (k ≠ .newax ∧ k ≠ .sel full ∧ k ≠ .ellipsis) := by
        intro l hl
        apply List.filter_congr
        intro k hk
        obtain ⟨e, he, rfl⟩ := List.mem_map.mp hk
        simp [plainSel, hl e he]
      refine expansion_of_inv full ax _ _ rows st hi hrows ?_ ?_ ?_
      · intro e he
        simp only [List.mem_append, List.mem_cons] at he ⊢
        rcases he with he | rfl | he
        · exact Or.inl (Or.inl (Or.inl he))
        · exact Or.inr hxn
        · exact Or.inl (Or.inr he)
      · simp [List.countP_append, List.countP_cons, List.countP_replicate, hx]
      · simp only [List.map_append, List.filter_append, List.map_cons, List.filter_cons, hx, hk pre hpre,
          hk post hpost, List.map_replicate]
        simp [plainSel]
  · exact absurd h (fill_two full newName ax es rows htwo)

/-- C16, unnamed selections without Ellipsis: accepted exactly when there are no more selections than
axes; entries keep their order and the remaining axes get the full slice. -/
theorem C16_unnamed (full : S) (newName : Nat → N) (ax : List N) (es : List (Entry N S))
    (hun : ∀ e ∈ es, e.name = none) (hel : ∀ e ∈ es, e.kind ≠ .ellipsis) :
    let c := es.countP fun e => decide (e.kind ≠ .newax ∧ e.kind ≠ .ellipsis)
    (c ≤ ax.length → ∃ rows, fill full newName ax es = .ok rows ∧
      rows.map Row.kind = es.map Entry.kind ++ List.replicate (ax.length - c) (.sel full)) ∧
    (ax.length < c → fill full newName ax es = .error .indexError) := by
  have hru := run_unnamed full newName ax es ⟨[], ax, 0⟩ hun hel
  have hf := fill_plain_eq full newName ax es hel
  refine ⟨fun hc => ?_, fun hc => ?_⟩
  · obtain ⟨st', rows, h1, h2, h3, h4⟩ := hru.1 hc
    rw [h1] at hf
    have hlen : (st'.rows ++ st'.remaining.map fun n => (⟨n, .sel full, false⟩ : Row N S)).length =
        ax.length + es.countP (fun e => decide (e.kind = .newax)) := by
      rw [h2, h4]
      have e1 : rows.length = es.length := by
        have := congrArg List.length h3; simpa using this
      have e2 := sel_new_count es hel
      dsimp only at hc ⊢
      unfold selCount at *
      simp only [List.nil_append, List.length_append, List.length_map, List.length_drop]
      omega
    refine ⟨_, hf.trans (if_pos hlen), ?_⟩
    rw [h2, h4]
    simp only [List.nil_append, List.map_append, h3, List.map_map]
    congr 1
    unfold selCount
    rw [List.eq_replicate_iff]
    refine ⟨by simp, ?_⟩
    intro b hb
    simp only [List.mem_map] at hb
    obtain ⟨_, _, rfl⟩ := hb
    rfl
  · rw [hru.2 hc] at hf
    exact hf

/-- C16, unnamed selections with one Ellipsis: accepted exactly when there are no more selections than
axes; the Ellipsis stands for the missing full slices. -/
theorem C16_ellipsis (full : S) (newName : Nat → N) (ax : List N) (pre post : List (Entry N S))
    (hun : ∀ e ∈ pre ++ post, e.name = none) (hel : ∀ e ∈ pre ++ post, e.kind ≠ .ellipsis) :
    let c := (pre ++ post).countP fun e => decide (e.kind ≠ .newax ∧ e.kind ≠ .ellipsis)
    (c ≤ ax.length → ∃ rows, fill full newName ax (pre ++ ⟨none, .ellipsis⟩ :: post) = .ok rows ∧
      rows.map Row.kind = pre.map Entry.kind ++ List.replicate (ax.length - c) (.sel full) ++ post.map Entry.kind) ∧
    (ax.length < c → ∃ e, fill full newName ax (pre ++ ⟨none, .ellipsis⟩ :: post) = .error e) := by
  have hpre : ∀ e ∈ pre, e.kind ≠ .ellipsis := fun e he => hel e (by simp [he])
  have hpost : ∀ e ∈ post, e.kind ≠ .ellipsis := fun e he => hel e (by simp [he])
  have hcc : selCount (pre ++ post) = selCount pre + selCount post := by simp [selCount, List.countP_append]
  refine ⟨fun hc => ?_, fun hc => ?_⟩
  · by_cases hpp : pre = [] ∧ post = []
    · obtain ⟨rfl, rfl⟩ := hpp
      refine ⟨ax.map fun n => ⟨n, .sel full, false⟩, by simp [fill], ?_⟩
      simp only [List.nil_append, List.map_nil, List.append_nil, List.map_map]
      rw [List.eq_replicate_iff]
      refine ⟨by simp, ?_⟩
      intro b hb
      simp only [List.mem_map] at hb
      obtain ⟨_, _, rfl⟩ := hb
      rfl
    · have hc' : selCount pre + selCount post ≤ ax.length := by rw [← hcc]; exact hc
      have hf := fill_ell_eq full newName ax pre post ⟨none, .ellipsis⟩ rfl hpre hpost hc' hpp
        (named_eq_of_unnamed pre post hun)
      have hcount : selCount (pre ++ List.replicate (ax.length - (selCount pre + selCount post)) ⟨none, .sel full⟩ ++ post)
          = ax.length := by
        have hr : ∀ n, selCount (List.replicate n (⟨none, .sel full⟩ : Entry N S)) = n := by
          intro n; simp [selCount, List.countP_replicate]
        have ha : ∀ a b : List (Entry N S), selCount (a ++ b) = selCount a + selCount b := by
          intro a b; simp [selCount, List.countP_append]
        rw [ha, ha, hr]
        omega
      have hru := run_unnamed full newName ax
        (pre ++ List.replicate (ax.length - (selCount pre + selCount post)) ⟨none, .sel full⟩ ++ post) ⟨[], ax, 0⟩
        (by
          intro e he
          simp only [List.mem_append, List.mem_replicate] at he
          rcases he with (he | ⟨_, rfl⟩) | he
          · exact hun e (by simp [he])
          · rfl
          · exact hun e (by simp [he]))
        (by
          intro e he
          simp only [List.mem_append, List.mem_replicate] at he
          rcases he with (he | ⟨_, rfl⟩) | he
          · exact hpre e he
          · simp
          · exact hpost e he)
      obtain ⟨st', rows, h1, h2, h3, h4⟩ := hru.1 (by rw [hcount]; exact Nat.le_refl _)
      rw [h1] at hf
      rw [hcount] at h4
      dsimp only at h4
      rw [List.drop_length] at h4
      have hk : (rows.map Row.kind).length = ax.length + (pre ++ post).countP (fun e => decide (e.kind = .newax)) := by
        rw [h3]
        have e2 := sel_new_count pre hpre
        have e3 := sel_new_count post hpost
        simp only [List.length_map, List.length_append, List.length_replicate, List.countP_append]
        omega
      dsimp only at hf
      rw [h4] at hf
      simp only [List.map_nil, List.append_nil] at hf
      refine ⟨st'.rows, hf.trans (if_pos ?_), ?_⟩
      · rw [h2]; simpa using hk
      · rw [h2]
        simp only [List.nil_append, h3, List.map_append]
        congr 3
        rw [List.map_replicate, ← hcc]
        rfl
  · cases hf : fill full newName ax (pre ++ ⟨none, .ellipsis⟩ :: post) with
    | error e => exact ⟨e, rfl⟩
    | ok rows =>
      exfalso
      exact fill_ell_too_many full newName ax pre post rows hun hpre hpost (by rw [← hcc]; exact hc) hf

/-- C16: two Ellipses are rejected. -/
theorem C16_two_ellipses (full : S) (newName : Nat → N) (ax : List N) (es : List (Entry N S))
    (h : es.countP (fun e => decide (e.kind = .ellipsis)) > 1) :
    fill full newName ax es = .error .indexError := by
  unfold fill
  rw [if_neg]
  · dsimp only
    rw [if_pos h]
  · intro he; rw [he] at h; simp at h

/-- C16: the axes of the result have distinct names, when the axes have and nobody names an axis the
way automatic names look (C16_name_clash_violated). -/
theorem C16_names_distinct_partial (full : S) (newName : Nat → N) (ax : List N) (es : List (Entry N S))
    (rows : List (Row N S)) (hnd : ax.Nodup)
    (hinj : ∀ i j, newName i = newName j → i = j) (hax : ∀ k, newName k ∉ ax)
    (hnm : ∀ e ∈ es, ∀ nm, e.name = some nm → ∀ k, nm ≠ newName k)
    (hell : (∃ e ∈ es, e.kind = .ellipsis) →
      es.countP (fun e => decide (e.kind ≠ .newax ∧ e.kind ≠ .ellipsis)) ≤ ax.length)
    (h : fill full newName ax es = .ok rows) : (rows.map Row.name).Nodup := by
  have h0 : NameInv newName ax (⟨[], ax, 0⟩ : St N S) := ⟨by simp, by simp, fun n h => h, hnd, by simp⟩
  rcases ell_cases es with hno | ⟨pre, x, post, rfl, hx, hpre, hpost⟩ | htwo
  · obtain ⟨st, hrun, hrows, _⟩ := fill_plain full newName ax es rows hno h
    rw [hrows]
    exact names_final full newName ax st (run_names full newName ax es _ st hinj hax hnm h0 hrun)
  · by_cases hpp : pre = [] ∧ post = []
    · obtain ⟨rfl, rfl⟩ := hpp
      obtain ⟨nm, k⟩ := x
      dsimp only at hx
      subst hx
      cases nm with
      | some nm => exact absurd h (fill_named_ell full newName ax [] [] nm rows (by simp) (by simp))
      | none =>
        rw [List.nil_append, fill, if_pos rfl] at h
        cases h
        simpa [Function.comp_def] using hnd
    · have hc : selCount pre + selCount post ≤ ax.length := by
        have := hell ⟨x, by simp, hx⟩
        rw [List.countP_append, List.countP_cons] at this
        unfold selCount
        omega
      obtain ⟨st, hrun, hrows⟩ := fill_ell full newName ax pre post x rows hx hpre hpost hc hpp h
      rw [hrows]
      refine names_final full newName ax st (run_names full newName ax _ _ st hinj hax ?_ h0 hrun)
      intro e he
      simp only [List.mem_append, List.mem_replicate] at he
      rcases he with (he | ⟨_, rfl⟩) | he
      · exact hnm e (by simp [he])
      · intro nm hn; cases hn
      · exact hnm e (by simp [he])
  · exact absurd h (fill_two full newName ax es rows htwo)

/-- C16 fails: `('new-x0=newaxis', newaxis)` makes two axes of the same name. -/
theorem C16_name_clash_violated :
    fill 0 (fun k => k + 10) [1] [⟨some 10, .newax⟩, ⟨none, .newax⟩] =
      .ok [⟨10, .newax, true⟩, ⟨10, .newax, true⟩, ⟨1, .sel 0, false⟩] := by decide +kernel

/-- Non-vacuity: `(newaxis, 5, 'z=7')` on axes x, y, z. -/
example : fill "full" (fun k => s!"new-x{k}") ["x", "y", "z"]
    [⟨none, .newax⟩, ⟨none, .sel "5"⟩, ⟨some "z", .sel "7"⟩] =
    .ok [⟨"new-x0", .newax, true⟩, ⟨"x", .sel "5", false⟩, ⟨"y", .sel "full", false⟩, ⟨"z", .sel "7", false⟩] := by
  decide +kernel

/-- C16 fails: on one axis x, `(:, Ellipsis, A, 'x=newaxis')` has two selections for one axis, yet it
is accepted: the row of x is overwritten with a newaxis and A lands on a new axis. -/
theorem C16_too_many_violated :
    fill 0 (fun k => k + 10) [1] [⟨none, .sel 0⟩, ⟨none, .ellipsis⟩, ⟨none, .sel 5⟩, ⟨some 1, .newax⟩] =
      .ok [⟨1, .newax, false⟩, ⟨10, .sel 5, true⟩] := by decide +kernel

end Viscid.FillSel
