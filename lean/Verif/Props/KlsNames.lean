import Verif.Spec.KlsNames
import Verif.Props.AsCotr
import Mathlib.Tactic.ByContra
/-! # C210, C211: classes by name -/
namespace Viscid.Props
open Viscid.KlsNames
open Viscid.Readers (Cls)
open Viscid.Spec.KlsNames

namespace KN

theorem lower_iff (s t : Text) : LowerOf s t ↔ t = lower s := AC.small_map s t

theorem isIn_iff (s t : Text) : isIn s t = true ↔ s <:+: t := by
  induction t with
  | nil => simp [isIn]
  | cons c cs ih =>
    simp only [isIn, Bool.or_eq_true, ih, List.isPrefixOf_iff_prefix, List.infix_cons_iff]

theorem dropFile_bare (s : Text) : Bare s (dropFile s) := by
  induction s with
  | nil => exact .inl ⟨by decide, rfl⟩
  | cons c cs ih =>
    unfold dropFile
    by_cases h : "file".toList.isPrefixOf (c :: cs) = true
    · rw [if_pos h]
      obtain ⟨b, hb⟩ := List.isPrefixOf_iff_prefix.1 h
      refine .inr ⟨[], b, by simpa using hb.symm, ?_, by simp⟩
      rw [← hb]; rfl
    · rw [if_neg h]
      have hp : ¬ "file".toList <+: (c :: cs) := fun hh => h (List.isPrefixOf_iff_prefix.2 hh)
      rcases ih with ⟨h1, h2⟩ | ⟨a, b, h1, h2, h3⟩
      · refine .inl ⟨fun hh => ?_, by rw [h2]⟩
        rcases List.infix_cons_iff.1 hh with hh | hh
        · exact hp hh
        · exact h1 hh
      · refine .inr ⟨c :: a, b, by simp [h1], by simp [h2], fun a' b' hab => ?_⟩
        cases a' with
        | nil => exact absurd ⟨b', by simpa using hab.symm⟩ hp
        | cons x a' =>
          simp only [List.cons_append, List.cons.injEq] at hab
          have := h3 a' b' hab.2
          simp only [List.length_cons]; omega

theorem bare_unique {s t t' : Text} (h : Bare s t) (h' : Bare s t') : t = t' := by
  rcases h with ⟨h1, rfl⟩ | ⟨a, b, h1, rfl, h3⟩ <;> rcases h' with ⟨g1, rfl⟩ | ⟨a', b', g1, rfl, g3⟩
  · rfl
  · exact absurd ⟨a', b', g1.symm⟩ h1
  · exact absurd ⟨a, b, h1.symm⟩ g1
  · have hl : a.length = a'.length := le_antisymm (h3 a' b' g1) (g3 a b h1)
    rw [h1] at g1
    have h1 := List.append_inj g1 (by simp [hl])
    have h2 := List.append_inj h1.1 hl
    rw [h2.1, h1.2]

theorem bare_iff (s t : Text) : Bare s t ↔ t = dropFile s :=
  ⟨fun h => bare_unique h (dropFile_bare s), fun h => h ▸ dropFile_bare s⟩

theorem filters (s : Text) : ((s.filter (· ≠ ' ')).filter (· ≠ '_')).filter (· ≠ '-') =
    s.filter (fun c => ¬ (c = ' ' ∨ c = '_' ∨ c = '-')) := by
  rw [List.filter_filter, List.filter_filter]
  congr 1
  funext c
  by_cases h1 : c = ' ' <;> by_cases h2 : c = '_' <;> by_cases h3 : c = '-' <;> simp [h1, h2, h3]

theorem says_iff (s t : Text) : Says s t ↔ t = normal s := by
  unfold Says normal
  rw [filters]
  constructor
  · rintro ⟨s₁, s₂, rfl, h2, h3⟩
    rw [lower_iff] at h2
    rw [bare_iff] at h3
    rw [h3, h2]
  · rintro rfl
    exact ⟨_, _, rfl, (lower_iff _ _).2 rfl, dropFile_bare _⟩

theorem called_iff (t : Text) (k : Kls) : Called t k ↔ isIn t (dropFile (lower k.name)) = true := by
  rw [isIn_iff]
  constructor
  · rintro ⟨u, v, h1, h2, h3⟩
    rw [lower_iff] at h1
    rw [bare_iff] at h2
    rwa [h2, h1] at h3
  · exact fun h => ⟨_, _, (lower_iff _ _).2 rfl, dropFile_bare _, h⟩

theorem mem_dropFile (s : Text) (c : Char) (h : c ∈ dropFile s) : c ∈ s := by
  induction s with
  | nil => exact h
  | cons x xs ih =>
    unfold dropFile at h
    split at h
    · exact List.mem_of_mem_drop h
    · rcases List.mem_cons.1 h with rfl | h
      · simp
      · simp [ih h]

theorem lower_lower (c : Char) : c.toLower.toLower = c.toLower := by
  have h := AC.toLower_small c
  have h' := AC.toLower_small c.toLower
  unfold Viscid.Spec.AsCotr.SmallOf at h h'
  split at h
  · rw [if_neg (by omega)] at h'; exact h'
  · rw [h] at h' ⊢
    split at h'
    · contradiction
    · exact h'

theorem small_sep (c : Char) (h : c.toLower = ' ' ∨ c.toLower = '_' ∨ c.toLower = '-') : c = ' ' ∨ c = '_' ∨ c = '-' := by
  have hs := AC.toLower_small c
  unfold Viscid.Spec.AsCotr.SmallOf at hs
  split at hs
  · exfalso
    rcases h with h | h | h <;> rw [h] at hs <;> simp at hs <;> omega
  · rw [hs] at h; exact h

/-- What has been normalised stays as it is, if there is no other "file" in it. -/
theorem norm_norm (s : Text) (h : ¬ "file".toList <:+: normal s) : normal (normal s) = normal s := by
  have hmem : ∀ c ∈ normal s, c.toLower = c ∧ ¬ (c = ' ' ∨ c = '_' ∨ c = '-') := by
    intro c hc
    unfold normal at hc
    rw [filters] at hc
    have hc := mem_dropFile _ _ hc
    unfold lower at hc
    obtain ⟨d, hd, rfl⟩ := List.mem_map.1 hc
    have hd := (List.mem_filter.1 hd).2
    refine ⟨lower_lower d, fun hh => ?_⟩
    have := small_sep d hh
    simp [this] at hd
  have hf : (normal s).filter (fun c => ¬ (c = ' ' ∨ c = '_' ∨ c = '-')) = normal s := by
    rw [List.filter_eq_self]
    intro c hc
    simpa using (hmem c hc).2
  have hl : lower (normal s) = normal s := by
    unfold lower
    conv => rhs; rw [← List.map_id (normal s)]
    apply List.map_congr_left
    intro c hc
    exact (hmem c hc).1
  have hu : ∀ x : Text, normal x = dropFile (lower (x.filter (fun c => ¬ (c = ' ' ∨ c = '_' ∨ c = '-')))) := by
    intro x; unfold normal; rw [filters]
  rw [hu (normal s), hf, hl]
  exact ((bare_iff (normal s) (normal s)).1 (.inl ⟨h, rfl⟩)).symm

mutual
theorem resolve_none (t : Text) (ht : normal t = t) : ∀ c : Cls Kls, resolve c t = none ↔ NoneIn (Called t) c
  | .node k subs => by
    have ih := resolveRev_none t ht subs
    unfold resolve
    simp only [ht]
    cases hr : resolveRev subs t with
    | some i =>
      simp only [reduceCtorEq, false_iff]
      intro hn
      have := ih.2 (fun c hc k' hk' => hn k' (.down hc hk'))
      rw [hr] at this; cases this
    | none =>
      dsimp only
      by_cases hk : Called t k
      · rw [if_pos ((called_iff t k).1 hk)]
        simp only [reduceCtorEq, false_iff]
        exact fun hn => hn k .here hk
      · rw [if_neg (fun hh => hk ((called_iff t k).2 hh))]
        simp only [true_iff]
        intro k' hk'
        cases hk' with
        | here => exact hk
        | down hc hw => exact ih.1 hr _ hc k' hw
theorem resolveRev_none (t : Text) (ht : normal t = t) : ∀ cs : List (Cls Kls), resolveRev cs t = none ↔ ∀ c ∈ cs, NoneIn (Called t) c
  | [] => by simp [resolveRev]
  | c :: cs => by
    have ih1 := resolveRev_none t ht cs
    have ih2 := resolve_none t ht c
    unfold resolveRev
    simp only [List.forall_mem_cons]
    cases hr : resolveRev cs t with
    | some i =>
      simp only [reduceCtorEq, false_iff]
      intro hn
      have := ih1.2 hn.2
      rw [hr] at this; cases this
    | none =>
      dsimp only
      rw [ih2]
      exact ⟨fun h => ⟨h, ih1.1 hr⟩, fun h => h.1⟩
end

mutual
theorem resolve_some (t : Text) (ht : normal t = t) : ∀ (c : Cls Kls) (i : Nat), resolve c t = some i → Deepest (Called t) c i
  | .node k subs, i => by
    intro h
    have ih := resolveRev_some t ht subs i
    unfold resolve at h
    simp only [ht] at h
    cases hr : resolveRev subs t with
    | some j =>
      simp only [hr, Option.some.injEq] at h
      subst h
      obtain ⟨l₁, c, l₂, rfl, h1, h2⟩ := ih hr
      exact .down h1 h2
    | none =>
      simp only [hr] at h
      split at h
      · rename_i hk
        cases h
        exact .here ((resolveRev_none t ht subs).1 hr) ((called_iff t k).2 hk)
      · cases h
theorem resolveRev_some (t : Text) (ht : normal t = t) : ∀ (cs : List (Cls Kls)) (i : Nat), resolveRev cs t = some i →
    ∃ l₁ c l₂, cs = l₁ ++ c :: l₂ ∧ (∀ c' ∈ l₂, NoneIn (Called t) c') ∧ Deepest (Called t) c i
  | [], i => by intro h; cases h
  | c :: cs, i => by
    intro h
    unfold resolveRev at h
    cases hr : resolveRev cs t with
    | some j =>
      simp only [hr, Option.some.injEq] at h
      subst h
      obtain ⟨l₁, c', l₂, rfl, h1, h2⟩ := resolveRev_some t ht cs j hr
      exact ⟨c :: l₁, c', l₂, rfl, h1, h2⟩
    | none =>
      simp only [hr] at h
      exact ⟨[], c, cs, rfl, (resolveRev_none t ht cs).1 hr, resolve_some t ht c i h⟩
end

theorem deepest_within {M : Kls → Prop} {c i} (h : Deepest M c i) : ∃ k, Within k c ∧ M k ∧ k.id = i := by
  induction h with
  | down _ _ ih =>
    obtain ⟨k, h1, h2, h3⟩ := ih
    exact ⟨k, .down (by simp) h1, h2, h3⟩
  | here _ hk => exact ⟨_, .here, hk, rfl⟩

theorem split_unique {M : Kls → Prop} {l₁ l₁' l₂ l₂' : List (Cls Kls)} {c c' : Cls Kls} (h : l₁ ++ c :: l₂ = l₁' ++ c' :: l₂')
    (h2 : ∀ d ∈ l₂, NoneIn M d) (h2' : ∀ d ∈ l₂', NoneIn M d) (hc : ¬ NoneIn M c) (hc' : ¬ NoneIn M c') : c = c' := by
  rcases List.append_eq_append_iff.1 h with ⟨a, rfl, hb⟩ | ⟨a, rfl, hb⟩
  · cases a with
    | nil => simp at hb; exact hb.1
    | cons x a =>
      simp only [List.cons_append, List.cons.injEq] at hb
      exact absurd (h2 c' (by rw [hb.2]; simp)) hc'
  · cases a with
    | nil => simp at hb; exact hb.1.symm
    | cons x a =>
      simp only [List.cons_append, List.cons.injEq] at hb
      exact absurd (h2' c (by rw [hb.2]; simp)) hc

theorem deepest_unique {M : Kls → Prop} {c i j} (h : Deepest M c i) (h' : Deepest M c j) : i = j := by
  have hit : ∀ {c i}, Deepest M c i → ¬ NoneIn M c := by
    intro c i h hn
    obtain ⟨k, h1, h2, _⟩ := deepest_within h
    exact hn k h1 h2
  induction h generalizing j with
  | @down k l₁ c l₂ i hl hd ih =>
    generalize hx : Cls.node k (l₁ ++ c :: l₂) = x at h'
    cases h' with
    | @down k' l₁' c' l₂' _ hl' hd' =>
      simp only [Cls.node.injEq] at hx
      have := split_unique hx.2 hl hl' (hit hd) (hit hd')
      subst this
      exact ih hd'
    | here hn hk =>
      simp only [Cls.node.injEq] at hx
      exact absurd (hn c (by rw [← hx.2]; simp)) (hit hd)
  | @here k subs hn hk =>
    generalize hx : Cls.node k subs = x at h'
    cases h' with
    | @down k' l₁' c' l₂' _ hl' hd' =>
      simp only [Cls.node.injEq] at hx
      exact absurd (hn c' (by rw [hx.2]; simp)) (hit hd')
    | here hn' hk' =>
      simp only [Cls.node.injEq] at hx
      rw [hx.1]

theorem resolve_norm (c : Cls Kls) (s : Text) (h : ¬ "file".toList <:+: normal s) : resolve c s = resolve c (normal s) := by
  cases c with
  | node k subs =>
    unfold resolve
    simp only [norm_norm s h]

end KN

/-- C210: a reader that is asked for by a text is the deepest, most recent class whose name has in it what the text says (in which there is not
another "file"). -/
theorem C210_found_partial (c : Cls Kls) (s t : Text) (i : Nat) (hs : Says s t) (hf : ¬ "file".toList <:+: t) :
    resolve c s = some i ↔ Deepest (Called t) c i := by
  rw [KN.says_iff] at hs
  subst hs
  rw [KN.resolve_norm c s hf]
  have ht := KN.norm_norm s hf
  refine ⟨KN.resolve_some _ ht c i, fun hd => ?_⟩
  cases hr : resolve c (normal s) with
  | none =>
    obtain ⟨k, h1, h2, _⟩ := KN.deepest_within hd
    exact absurd h2 ((KN.resolve_none _ ht c).1 hr k h1)
  | some j => rw [KN.deepest_unique hd (KN.resolve_some _ ht c j hr)]

/-- C210: None if there is no such class, and only then. -/
theorem C210_none_partial (c : Cls Kls) (s t : Text) (hs : Says s t) (hf : ¬ "file".toList <:+: t) :
    resolve c s = none ↔ ∀ k, Within k c → ¬ Called t k := by
  rw [KN.says_iff] at hs
  subst hs
  rw [KN.resolve_norm c s hf]
  exact KN.resolve_none _ (KN.norm_norm s hf) c

/-- C210: the name of a class finds that class, if no other class has that name in its own. -/
theorem C210_exact_partial (c : Cls Kls) (k : Kls) (t : Text) (hk : Within k c) (hs : Says k.name t) (hf : ¬ "file".toList <:+: t)
    (hc : Called t k) (ho : ∀ k', Within k' c → k' ≠ k → ¬ Called t k') : resolve c k.name = some k.id := by
  cases hr : resolve c k.name with
  | none => exact absurd hc ((C210_none_partial c _ t hs hf).1 hr k hk)
  | some i =>
    obtain ⟨k', h1, h2, h3⟩ := KN.deepest_within ((C210_found_partial c _ t i hs hf).1 hr)
    by_cases h : k' = k
    · rw [← h3, h]
    · exact absurd h2 (ho k' h1 h)

/-- C210 is false: the name of a class never finds that class, if there is one below it that has the name in its own. -/
theorem C210_exact_violated (k k' : Kls) (subs : List (Cls Kls)) (d : Cls Kls) (t : Text) (hs : Says k.name t)
    (hf : ¬ "file".toList <:+: t) (hd : d ∈ subs) (hk' : Within k' d) (hc : Called t k')
    (hid : ∀ x, Within x (.node k subs) → x.id = k.id → x = k) (hone : ∀ e ∈ subs, ¬ Within k e) : resolve (.node k subs) k.name ≠ some k.id := by
  intro h
  have h := (C210_found_partial _ _ t _ hs hf).1 h
  generalize hx : Cls.node k subs = x at h
  generalize hi : k.id = i at h
  cases h with
  | @down k₁ l₁ e l₂ _ hl he =>
    simp only [Cls.node.injEq] at hx
    obtain ⟨y, h1, _, h3⟩ := KN.deepest_within he
    have hmem : e ∈ subs := by rw [hx.2]; simp
    have := hid y (.down hmem h1) (by rw [h3, hi])
    subst this
    exact hone e hmem h1
  | here hn _ =>
    simp only [Cls.node.injEq] at hx
    exact hn d (hx.2 ▸ hd) k' hk' hc

/-- C210 is false: nothing at all ("", "file", "_") is a name that finds a class. -/
theorem C210_nothing_violated (c : Cls Kls) (s : Text) (hs : Says s []) : ∃ i, resolve c s = some i := by
  cases hr : resolve c s with
  | some i => exact ⟨i, rfl⟩
  | none =>
    have := (C210_none_partial c s [] hs (by decide)).1 hr
    cases c with
    | node k subs => exact absurd ((KN.called_iff _ k).2 ((KN.isIn_iff _ _).2 (List.nil_infix))) (this k .here)

namespace KN

theorem istype_iff (k : Kls) (s : Text) : istype k s = true ↔ LowerOf s k.name := by
  rw [lower_iff, istype, beq_iff_eq]

mutual
theorem mem_spider (k : Kls) : ∀ c : Cls Kls, k ∈ spider c ↔ Within k c
  | .node r subs => by
    have ih := mem_spiderRev k subs
    simp only [spider, List.mem_cons, ih]
    constructor
    · rintro (rfl | ⟨c, hc, hk⟩)
      · exact .here
      · exact .down hc hk
    · intro h
      cases h with
      | here => exact .inl rfl
      | down hc hk => exact .inr ⟨_, hc, hk⟩
theorem mem_spiderRev (k : Kls) : ∀ cs : List (Cls Kls), k ∈ spiderRev cs ↔ ∃ c ∈ cs, Within k c
  | [] => by simp [spiderRev]
  | c :: cs => by
    simp only [spiderRev, List.mem_append, mem_spiderRev k cs, mem_spider k c, List.mem_cons, exists_eq_or_imp]
    exact or_comm
end

theorem find_none (M : Kls → Bool) (c : Cls Kls) : (spider c).find? M = none ↔ NoneIn (fun k => M k = true) c := by
  simp only [List.find?_eq_none, mem_spider, NoneIn]

theorem findRev_none (M : Kls → Bool) (cs : List (Cls Kls)) : (spiderRev cs).find? M = none ↔ ∀ c ∈ cs, NoneIn (fun k => M k = true) c := by
  simp only [List.find?_eq_none, mem_spiderRev, NoneIn]
  exact ⟨fun h c hc k hk => h k ⟨c, hc, hk⟩, fun h k ⟨c, hc, hk⟩ => h c hc k hk⟩

mutual
theorem find_some (M : Kls → Bool) : ∀ (c : Cls Kls) (k : Kls), (spider c).find? M = some k → Topmost (fun k => M k = true) c k.id
  | .node r subs, k => by
    intro h
    have ih := findRev_some M subs k
    rw [spider, List.find?_cons] at h
    split at h
    · cases h; exact .here (by assumption)
    · rename_i hr
      obtain ⟨l₁, c, l₂, rfl, h1, h2⟩ := ih h
      exact .down (by simp [hr]) h1 h2
theorem findRev_some (M : Kls → Bool) : ∀ (cs : List (Cls Kls)) (k : Kls), (spiderRev cs).find? M = some k →
    ∃ l₁ c l₂, cs = l₁ ++ c :: l₂ ∧ (∀ c' ∈ l₂, NoneIn (fun k => M k = true) c') ∧ Topmost (fun k => M k = true) c k.id
  | [], k => by intro h; cases h
  | c :: cs, k => by
    intro h
    rw [spiderRev, List.find?_append] at h
    cases hr : (spiderRev cs).find? M with
    | some j =>
      rw [hr] at h
      simp only [Option.some_or, Option.some.injEq] at h
      subst h
      obtain ⟨l₁, c', l₂, rfl, h1, h2⟩ := findRev_some M cs j hr
      exact ⟨c :: l₁, c', l₂, rfl, h1, h2⟩
    | none =>
      rw [hr, Option.none_or] at h
      exact ⟨[], c, cs, rfl, (findRev_none M cs).1 hr, find_some M c k h⟩
end

theorem topmost_within {M : Kls → Prop} {c i} (h : Topmost M c i) : ∃ k, Within k c ∧ M k ∧ k.id = i := by
  induction h with
  | down _ _ _ ih =>
    obtain ⟨k, h1, h2, h3⟩ := ih
    exact ⟨k, .down (by simp) h1, h2, h3⟩
  | here hk => exact ⟨_, .here, hk, rfl⟩

theorem topmost_unique {M : Kls → Prop} {c i j} (h : Topmost M c i) (h' : Topmost M c j) : i = j := by
  have hit : ∀ {c i}, Topmost M c i → ¬ NoneIn M c := by
    intro c i h hn
    obtain ⟨k, h1, h2, _⟩ := topmost_within h
    exact hn k h1 h2
  induction h generalizing j with
  | @down k l₁ c l₂ i hk hl hd ih =>
    generalize hx : Cls.node k (l₁ ++ c :: l₂) = x at h'
    cases h' with
    | @down k' l₁' c' l₂' _ _ hl' hd' =>
      simp only [Cls.node.injEq] at hx
      have := split_unique hx.2 hl hl' (hit hd) (hit hd')
      subst this
      exact ih hd'
    | here hk' =>
      simp only [Cls.node.injEq] at hx
      exact absurd (hx.1 ▸ hk') hk
  | @here k subs hk =>
    generalize hx : Cls.node k subs = x at h'
    cases h' with
    | @down k' l₁' c' l₂' _ hk' hl' hd' =>
      simp only [Cls.node.injEq] at hx
      exact absurd (hx.1 ▸ hk) hk'
    | here hk' =>
      simp only [Cls.node.injEq] at hx
      rw [hx.1]

end KN

/-- C211: the class for the name of a type, in any case, is the first one of that type, from the top, the most recent ones first. -/
theorem C211_first (c : Cls Kls) (s : Text) (i : Nat) : lookup c s = some i ↔ Topmost (fun k => LowerOf s k.name) c i := by
  have hM : (fun k : Kls => LowerOf s k.name) = fun k => istype k s = true := by
    funext k; exact propext (KN.istype_iff k s).symm
  rw [hM]
  unfold lookup
  constructor
  · intro h
    obtain ⟨k, hk, rfl⟩ := Option.map_eq_some_iff.1 h
    exact KN.find_some _ c k hk
  · intro h
    cases hr : (spider c).find? (istype · s) with
    | none =>
      obtain ⟨k, h1, h2, _⟩ := KN.topmost_within h
      exact absurd h2 ((KN.find_none _ c).1 hr k h1)
    | some k => rw [Option.map_some, KN.topmost_unique h (KN.find_some _ c k hr)]

/-- C211: None if there is no class of that type. -/
theorem C211_none (c : Cls Kls) (s : Text) : lookup c s = none ↔ ∀ k, Within k c → ¬ LowerOf s k.name := by
  unfold lookup
  rw [Option.map_eq_none_iff, KN.find_none]
  simp only [NoneIn, KN.istype_iff]

namespace KN
theorem lookup_iff (c : Cls Kls) (hnd : ((spider c).map (·.name)).Nodup) (k : Kls) (hk : k ∈ spider c) (hid : ((spider c).map (·.id)).Nodup)
    (s : Text) : lookup c s = some k.id ↔ LowerOf s k.name := by
  unfold lookup
  constructor
  · intro h
    obtain ⟨k', hk', he⟩ := Option.map_eq_some_iff.1 h
    have h1 := List.mem_of_find?_eq_some hk'
    have h2 := List.find?_some hk'
    have : k' = k := List.inj_on_of_nodup_map hid h1 hk he
    rw [this] at h2
    exact (istype_iff _ _).1 h2
  · intro h
    have h' := (istype_iff _ _).2 h
    cases hr : (spider c).find? (istype · s) with
    | none => exact absurd h' (by simpa using (List.find?_eq_none.1 hr) k hk)
    | some k' =>
      have h1 := List.mem_of_find?_eq_some hr
      have h2 := List.find?_some hr
      have h3 : k'.name = k.name := by
        have a := (lower_iff _ _).1 ((istype_iff _ _).1 h2)
        have b := (lower_iff _ _).1 h
        rw [a, b]
      have : k' = k := List.inj_on_of_nodup_map hnd h1 hk h3
      rw [this]; rfl
end KN

/-- C211: the types of fields, as they are called. -/
theorem C211_fields (s : Text) :
    (fieldType (.text s) = .ok (some 1) ↔ LowerOf s "scalar".toList) ∧ (fieldType (.text s) = .ok (some 2) ↔ LowerOf s "vector".toList) ∧
    (fieldType (.text s) = .ok (some 3) ↔ LowerOf s "matrix".toList) ∧ (fieldType (.text s) = .ok (some 4) ↔ LowerOf s "tensor".toList) ∧
    (fieldType (.text s) = .ok (some 0) ↔ LowerOf s "none".toList) ∧
    (fieldType (.text s) = .ok none ↔ ∀ t ∈ ["none", "scalar", "vector", "matrix", "tensor"], ¬ LowerOf s t.toList) := by
  have key := fun k hk => KN.lookup_iff fieldTree (by decide) k hk (by decide) s
  have hn : lookup fieldTree s = none ↔ ∀ t ∈ ["none", "scalar", "vector", "matrix", "tensor"], ¬ LowerOf s t.toList := by
    rw [C211_none]
    simp only [← KN.mem_spider]
    simp [fieldTree, spider, spiderRev]
    grind
  simp only [fieldType, Except.ok.injEq]
  exact ⟨key ⟨1, _⟩ (by decide), key ⟨2, _⟩ (by decide), key ⟨3, _⟩ (by decide), key ⟨4, _⟩ (by decide), key ⟨0, _⟩ (by decide), hn⟩

/-- C211: a class of fields stands for itself; what is neither class nor text raises AttributeError. -/
theorem C211_class (i : Nat) : fieldType (.cls i true) = .ok (some i) ∧ fieldType (.cls i false) = .error .attr ∧ fieldType .other = .error .attr :=
  ⟨rfl, rfl, rfl⟩

/-- C211: the types of coordinates, as they are called; others, and what is no text, raise NotImplementedError. -/
theorem C211_crds (s : Text) (build : Nat → Option Unit) (hb : ∀ i, build i = some ()) :
    (wrapCrds (.text s) build = .ok 2 ↔ LowerOf s "uniform".toList) ∧ (wrapCrds (.text s) build = .ok 3 ↔ LowerOf s "nonuniform".toList) ∧
    (wrapCrds (.text s) build = .ok 4 ↔ LowerOf s "uniform_cartesian".toList) ∧
    (wrapCrds (.text s) build = .ok 5 ↔ LowerOf s "nonuniform_cartesian".toList) ∧
    (wrapCrds (.text s) build = .ok 6 ↔ LowerOf s "uniform_spherical".toList) ∧
    (wrapCrds (.text s) build = .ok 7 ↔ LowerOf s "nonuniform_spherical".toList) ∧
    (wrapCrds (.text s) build = .ok 8 ↔ LowerOf s "unstructured".toList) ∧
    (wrapCrds (.text s) build = .ok 1 ↔ LowerOf s "structured".toList) ∧
    (wrapCrds (.text s) build = .ok 0 ↔ LowerOf s "none".toList) ∧
    (wrapCrds (.text s) build = .error .notImplemented ↔
      ∀ t ∈ ["none", "structured", "unstructured", "uniform", "nonuniform", "uniform_cartesian", "nonuniform_cartesian", "uniform_spherical",
        "nonuniform_spherical"], ¬ LowerOf s t.toList) ∧
    wrapCrds .other build = .error .notImplemented := by
  have key := fun k hk => KN.lookup_iff crdsTree (by decide) k hk (by decide) s
  have hn : lookup crdsTree s = none ↔ ∀ t ∈ ["none", "structured", "unstructured", "uniform", "nonuniform", "uniform_cartesian",
      "nonuniform_cartesian", "uniform_spherical", "nonuniform_spherical"], ¬ LowerOf s t.toList := by
    rw [C211_none]
    simp only [← KN.mem_spider]
    simp [crdsTree, spider, spiderRev]
    grind
  have ho : ∀ i, wrapCrds (.text s) build = .ok i ↔ lookup crdsTree s = some i := by
    intro i
    unfold wrapCrds
    cases hx : lookup crdsTree s <;> simp [hb, hx]
  have he : wrapCrds (.text s) build = .error .notImplemented ↔ lookup crdsTree s = none := by
    unfold wrapCrds
    cases hx : lookup crdsTree s <;> simp [hb, hx]
  simp only [ho, he]
  exact ⟨key ⟨2, _⟩ (by decide), key ⟨3, _⟩ (by decide), key ⟨4, _⟩ (by decide), key ⟨5, _⟩ (by decide), key ⟨6, _⟩ (by decide),
    key ⟨7, _⟩ (by decide), key ⟨8, _⟩ (by decide), key ⟨1, _⟩ (by decide), key ⟨0, _⟩ (by decide), hn, rfl⟩

/-- C211 is false: if the coordinates of a type that exists raise a TypeError, the message is the one for types that do not. -/
theorem C211_blame_violated (s u : Text) (build : Nat → Option Unit) (i : Nat) (hi : lookup crdsTree s = some i) (hb : build i = none)
    (hu : lookup crdsTree u = none) : wrapCrds (.text s) build = wrapCrds (.text u) build := by
  simp [wrapCrds, hi, hb, hu]

/-! ### Cases -/

/-- `FileXDMF` and the readers below it, in the order they are imported (readers/__init__.py:15-32) -/
def xdmfTree : Cls Kls := .node ⟨0, "FileXDMF".toList⟩
  [.node ⟨1, "GGCMFileXDMF".toList⟩ [.node ⟨2, "GGCMIonoFileXDMF".toList⟩ [], .node ⟨3, "GGCMAncFileXDMF".toList⟩ []],
   .node ⟨4, "PscFieldFile".toList⟩ [], .node ⟨5, "AthenaFileXDMF".toList⟩ []]

/-- `FileXDMF` is not what "FileXDMF" finds: that is the reader for Athena. -/
example : resolve xdmfTree "FileXDMF".toList = some 5 ∧ resolve xdmfTree "psc_field-file".toList = some 4 ∧
    resolve xdmfTree "GGCMFileXDMF".toList = some 1 ∧ resolve xdmfTree "hdf5".toList = none ∧ resolve xdmfTree "".toList = some 5 := by decide +kernel

example : Says "FileXDMF".toList "xdmf".toList ∧ ¬ "file".toList <:+: "xdmf".toList :=
  ⟨(KN.says_iff _ _).2 (by decide +kernel), by decide⟩

/-- `C210_exact_violated` -/
example : Within ⟨5, "AthenaFileXDMF".toList⟩ (.node ⟨5, "AthenaFileXDMF".toList⟩ []) ∧ Called "xdmf".toList ⟨5, "AthenaFileXDMF".toList⟩ :=
  ⟨.here, (KN.called_iff _ _).2 (by decide +kernel)⟩

/-- `C210_exact_partial` -/
example : Within ⟨4, "PscFieldFile".toList⟩ xdmfTree ∧ Says "PscFieldFile".toList "pscfield".toList ∧
    ∀ k ∈ spider xdmfTree, k ≠ ⟨4, "PscFieldFile".toList⟩ → ¬ Called "pscfield".toList k := by
  refine ⟨(KN.mem_spider _ _).1 (by decide), (KN.says_iff _ _).2 (by decide +kernel), ?_⟩
  simp only [KN.called_iff]
  decide +kernel

example : Says "file_".toList [] := (KN.says_iff _ _).2 (by decide +kernel)

example : fieldType (.text "Vector".toList) = .ok (some 2) ∧ lookup crdsTree "Uniform_Spherical".toList = some 6 := by decide +kernel

end Viscid.Props
