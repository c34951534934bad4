import Verif.Spec.Npz
import Verif.Lemmas.Dict
import Mathlib.Data.List.Forall2
import Mathlib.Data.List.Perm.Basic
import Mathlib.Data.List.Nodup
/-!
# C150: fields saved in npz files
-/
namespace Viscid.Npz
open Viscid.Spec.Npz

variable {A : Type}

theorem foldl_set {X K V : Type} [DecidableEq K] (k : X → K) (v : X → V) (l : List X) : ∀ d : Dict K V, (d.keys ++ l.map k).Nodup →
    l.foldl (fun d x => Dict.set d (k x) (v x)) d = d ++ l.map fun x => (k x, v x) := by
  have set_new : ∀ (d : Dict K V) (k : K) (v : V), k ∉ d.keys → d.set k v = d ++ [(k, v)] := by
    intro d k v h
    induction d with
    | nil => rfl
    | cons p d ih =>
      have h1 : p.1 ≠ k := fun e => h (by simp [Dict.keys, e])
      have h2 : k ∉ Dict.keys d := fun e => h (by simp only [Dict.keys, List.map_cons, List.mem_cons]; exact .inr e)
      obtain ⟨a, b⟩ := p
      simp only [Dict.set, if_neg h1, ih h2, List.cons_append]
  induction l with
  | nil => intro d _; simp
  | cons x l ih =>
    intro d h
    rw [List.foldl_cons]
    have hx : k x ∉ d.keys := fun e => by
      rw [List.nodup_append] at h
      exact h.2.2 _ e _ (by simp) rfl
    rw [ih, set_new d _ _ hx]
    · simp
    · rw [set_new d _ _ hx]
      simpa [Dict.keys] using h

theorem toDict_eq (flds : List (Fld A)) (h : (flds.map Fld.name).Nodup) : toDict flds = flds.map fun f => (f.name, f) := by
  have := foldl_set (V := Fld A) Fld.name (fun f => f) flds [] (by simpa [Dict.keys] using h)
  simpa [toDict] using this

/-- the arrays of a file -/
def contents (crds : List (String × A)) (flds : List (Fld A)) : Dict String (Entry A) :=
  crds.map (fun c => (c.1, Entry.arr c.2)) ++ [("crd_names", .names (crds.map Prod.fst))] ++ flds.map (fun f => (f.name, .arr f.data)) ++
    keyFlds.map fun ck => (ck.2, .names ((flds.filter fun f => f.center = ck.1).map Fld.name))

theorem contents_keys (crds : List (String × A)) (flds : List (Fld A)) :
    (contents crds flds).keys = crds.map Prod.fst ++ ["crd_names"] ++ flds.map Fld.name ++ keyFlds.map Prod.snd := by
  simp [contents, Dict.keys, Function.comp_def]

theorem contents_wf {ndim : A → Nat} {crds : List (String × A)} {flds : List (Fld A)} (h : Savable ndim crds flds) :
    (crds.map Prod.fst ++ ["crd_names"] ++ flds.map Fld.name ++ keyFlds.map Prod.snd).Nodup := by
  rw [List.nodup_append, List.nodup_append, List.nodup_append]
  refine ⟨⟨⟨h.axes, by simp, ?_⟩, h.names, ?_⟩, by decide, ?_⟩
  · intro a ha b hb e
    obtain ⟨c, hc, rfl⟩ := List.mem_map.1 ha
    rw [List.mem_singleton] at hb
    exact h.axes_free c hc (by rw [e, hb]; simp)
  · intro a ha b hb e
    obtain ⟨f, hf, rfl⟩ := List.mem_map.1 hb
    rcases List.mem_append.1 ha with ha | ha
    · exact h.no_axis f hf (e ▸ ha)
    · rw [List.mem_singleton] at ha
      exact h.names_free f hf (by rw [← e, ha]; simp)
  · intro a ha b hb e
    subst e
    have hb : a ∈ ["crd_names", "field_names_nc", "field_names_cc", "field_names_fc", "field_names_ec", "file"] ∧ a ≠ "crd_names" := by
      simp only [keyFlds, List.map_cons, List.map_nil, List.mem_cons, List.not_mem_nil, or_false] at hb
      rcases hb with rfl | rfl | rfl | rfl <;> simp
    rcases List.mem_append.1 ha with ha | ha
    · rcases List.mem_append.1 ha with ha | ha
      · obtain ⟨c, hc, rfl⟩ := List.mem_map.1 ha
        exact h.axes_free c hc hb.1
      · exact hb.2 (List.mem_singleton.1 ha)
    · obtain ⟨f, hf, rfl⟩ := List.mem_map.1 ha
      exact h.names_free f hf hb.1

theorem save_eq {ndim : A → Nat} {crds : List (String × A)} {flds : List (Fld A)} (h : Savable ndim crds flds) :
    save (toDict flds) = .ok (contents crds flds) := by
  have wf := contents_wf h
  have wf3 := (List.nodup_append.1 wf).1
  have wf2 := (List.nodup_append.1 wf3).1
  have wf1 := (List.nodup_append.1 wf2).1
  rw [toDict_eq flds h.names]
  obtain ⟨f0, fs, hfs⟩ := List.exists_cons_of_ne_nil h.some_fields
  have h0 : f0.crds = crds := h.same_crds f0 (by simp [hfs])
  have hc : (flds.map fun f => (f.name, f)).all (fun nf => (keyFlds.map Prod.fst).contains nf.2.center) = true := by
    rw [List.all_eq_true]
    intro x hx
    obtain ⟨f, hf, rfl⟩ := List.mem_map.1 hx
    have := h.centers f hf
    simp only [List.mem_cons, List.not_mem_nil, or_false] at this
    rcases this with e | e | e | e <;> simp [e, keyFlds]
  have e1 : crds.foldl (fun d c => Dict.set d c.1 (Entry.arr c.2)) ([] : Dict String (Entry A)) = crds.map fun c => (c.1, Entry.arr c.2) := by
    rw [foldl_set Prod.fst (fun c => Entry.arr c.2)]
    · rfl
    · simpa [Dict.keys] using wf1
  have e2 : Dict.set (crds.map fun c => (c.1, Entry.arr c.2)) "crd_names" (.names (crds.map Prod.fst)) =
      crds.map (fun c => (c.1, Entry.arr c.2)) ++ [("crd_names", .names (crds.map Prod.fst))] := by
    have := foldl_set (fun _ => "crd_names") (fun _ => Entry.names (A := A) (crds.map Prod.fst)) [()] (crds.map fun c => (c.1, Entry.arr c.2))
      (by simpa [Dict.keys, Function.comp_def] using wf2)
    simpa using this
  have e3 : (flds.map fun f => (f.name, f)).foldl (fun d nf => Dict.set d nf.1 (.arr nf.2.data))
      (crds.map (fun c => (c.1, Entry.arr c.2)) ++ [("crd_names", .names (crds.map Prod.fst))]) =
      crds.map (fun c => (c.1, Entry.arr c.2)) ++ [("crd_names", .names (crds.map Prod.fst))] ++ flds.map (fun f => (f.name, .arr f.data)) := by
    rw [List.foldl_map, foldl_set Fld.name (fun f => Entry.arr f.data)]
    simpa [Dict.keys, Function.comp_def] using wf3
  have e4 : keyFlds.foldl (fun d ck => Dict.set d ck.2 (.names (((flds.map fun f => (f.name, f)).filter fun nf => nf.2.center = ck.1).map Prod.fst)))
      (crds.map (fun c => (c.1, Entry.arr c.2)) ++ [("crd_names", .names (crds.map Prod.fst))] ++ flds.map (fun f => (f.name, .arr f.data))) =
      contents crds flds := by
    rw [foldl_set Prod.snd (fun ck => Entry.names (((flds.map fun f => (f.name, f)).filter fun nf => nf.2.center = ck.1).map Prod.fst))]
    · simp [contents, List.filter_map, Function.comp_def]
    · simpa [Dict.keys, Function.comp_def] using wf
  have hfile : Dict.get? (contents crds flds) "file" = none := by
    rw [← Dict.not_mem_keys_iff, contents_keys]
    intro hm
    simp only [List.mem_append, List.mem_map, List.mem_singleton] at hm
    rcases hm with ((⟨c, hc, e⟩ | e) | ⟨f, hf, e⟩) | ⟨k, hk, e⟩
    · exact h.axes_free c hc (by rw [e]; simp)
    · exact absurd e (by decide)
    · exact h.names_free f hf (by rw [e]; simp)
    · simp only [keyFlds, List.mem_cons, List.not_mem_nil, or_false] at hk
      rcases hk with rfl | rfl | rfl | rfl <;> exact absurd e (by decide)
  have hcons : (flds.map fun f => (f.name, f)) = (f0.name, f0) :: fs.map fun f => (f.name, f) := by rw [hfs]; rfl
  rw [hcons]
  unfold save
  dsimp only
  rw [← hcons, h0, e1, e2, if_pos hc, e3, e4, hfile]
  rfl

/-! ## Loading -/

theorem remove_ok {l : List String} {x : String} (hn : l.Nodup) (hx : x ∈ l) :
    ∃ l', remove l x = .ok l' ∧ l'.Nodup ∧ ∀ y, y ∈ l' ↔ y ∈ l ∧ y ≠ x :=
  ⟨l.erase x, by rw [remove, if_pos hx], hn.erase x, fun y => by rw [hn.mem_erase_iff]; tauto⟩

theorem removeAll_ok {xs : List String} : ∀ {l : List String}, l.Nodup → xs.Nodup → (∀ x ∈ xs, x ∈ l) →
    ∃ l', removeAll l xs = .ok l' ∧ l'.Nodup ∧ ∀ y, y ∈ l' ↔ y ∈ l ∧ y ∉ xs := by
  induction xs with
  | nil => intro l hn _ _; exact ⟨l, rfl, hn, fun y => by simp⟩
  | cons x xs ih =>
    intro l hn hx hs
    obtain ⟨l1, e1, n1, m1⟩ := remove_ok hn (hs x (by simp))
    obtain ⟨hx1, hx2⟩ := List.nodup_cons.1 hx
    obtain ⟨l2, e2, n2, m2⟩ := ih n1 hx2 (fun y hy => (m1 y).2 ⟨hs y (by simp [hy]), fun e => hx1 (e ▸ hy)⟩)
    refine ⟨l2, by rw [removeAll, e1]; exact e2, n2, fun y => ?_⟩
    rw [m2, m1, List.mem_cons]
    tauto

theorem loadNames_ok (ndim : A → Nat) (d : Dict String (Entry A)) (nr : Nat) (center : String) (g : String → LFld A) {ns : List String}
    (hw : ∀ n ∈ ns, wrapField ndim d nr n center = .ok (g n)) : ∀ {l : List String}, l.Nodup → ns.Nodup → (∀ x ∈ ns, x ∈ l) →
    ∃ l', loadNames ndim d nr center ns l = .ok (ns.map g, l') ∧ l'.Nodup ∧ ∀ y, y ∈ l' ↔ y ∈ l ∧ y ∉ ns := by
  induction ns with
  | nil => intro l hn _ _; exact ⟨l, rfl, hn, fun y => by simp⟩
  | cons x xs ih =>
    intro l hn hx hs
    obtain ⟨l1, e1, n1, m1⟩ := remove_ok hn (hs x (by simp))
    obtain ⟨hx1, hx2⟩ := List.nodup_cons.1 hx
    obtain ⟨l2, e2, n2, m2⟩ := ih (fun n h => hw n (by simp [h])) n1 hx2
      (fun y hy => (m1 y).2 ⟨hs y (by simp [hy]), fun e => hx1 (e ▸ hy)⟩)
    refine ⟨l2, ?_, n2, fun y => ?_⟩
    · rw [loadNames, hw x (by simp)]
      simp only [e1, e2, List.map_cons]
    · rw [m2, m1, List.mem_cons]
      tauto

theorem loadCenters_ok (ndim : A → Nat) (d : Dict String (Entry A)) (nr : Nat) (N : String → List String) (g : String → String → LFld A)
    {cks : List (String × String)} (hd : ∀ ck ∈ cks, d.get? ck.2 = some (.names (N ck.1)))
    (hw : ∀ ck ∈ cks, ∀ n ∈ N ck.1, wrapField ndim d nr n ck.1 = .ok (g ck.1 n)) (hN : ∀ c, (N c).Nodup)
    (hk : (cks.map Prod.snd).Nodup) (hc : (cks.map Prod.fst).Nodup) (hkN : ∀ ck ∈ cks, ∀ c, ck.2 ∉ N c)
    (hdis : ∀ a b x, x ∈ N a → x ∈ N b → a = b) :
    ∀ {l : List String}, l.Nodup → (∀ ck ∈ cks, ck.2 ∈ l) → (∀ ck ∈ cks, ∀ x ∈ N ck.1, x ∈ l) →
    ∃ l', loadCenters ndim d nr cks l = .ok (cks.flatMap (fun ck => (N ck.1).map (g ck.1)), l') ∧ l'.Nodup ∧
      ∀ y, y ∈ l' ↔ y ∈ l ∧ y ∉ cks.map Prod.snd ∧ ∀ ck ∈ cks, y ∉ N ck.1 := by
  induction cks with
  | nil => intro l hn _ _; exact ⟨l, rfl, hn, fun y => by simp⟩
  | cons ck cks ih =>
    intro l hn hkl hNl
    obtain ⟨c, k⟩ := ck
    have hk' := List.nodup_cons.1 hk
    have hc' := List.nodup_cons.1 hc
    have hck : (c, k) ∈ (c, k) :: cks := List.mem_cons_self ..
    obtain ⟨l1, e1, n1, m1⟩ := remove_ok hn (hkl _ hck)
    obtain ⟨l2, e2, n2, m2⟩ := loadNames_ok ndim d nr c (g c) (hw _ hck) n1 (hN c)
      (fun x hx => (m1 x).2 ⟨hNl _ hck x hx, fun e => hkN _ hck c (e ▸ hx)⟩)
    obtain ⟨l3, e3, n3, m3⟩ := ih (fun ck h => hd ck (by simp [h])) (fun ck h => hw ck (by simp [h])) hk'.2 hc'.2
      (fun ck h => hkN ck (by simp [h])) n2
      (fun ck h => (m2 _).2 ⟨(m1 _).2 ⟨hkl ck (by simp [h]), fun e => hk'.1 (e ▸ List.mem_map_of_mem h)⟩, hkN ck (by simp [h]) c⟩)
      (fun ck h x hx => (m2 _).2 ⟨(m1 _).2 ⟨hNl ck (by simp [h]) x hx, fun e => hkN _ hck ck.1 (e ▸ hx)⟩,
        fun hx' => hc'.1 (hdis _ _ _ hx' hx ▸ List.mem_map_of_mem h)⟩)
    refine ⟨l3, ?_, n3, fun y => ?_⟩
    · rw [loadCenters, hd _ hck]
      simp only [e1, e2, e3, List.flatMap_cons]
    · rw [m3, m2, m1]
      simp only [List.map_cons, List.mem_cons, forall_eq_or_imp]
      tauto

/-- the field that is loaded for a field -/
def again (ndim : A → Nat) (f : Fld A) : LFld A := ⟨f.name, f.center, 0, ndim f.data ≠ f.crds.length, .arr f.data⟩

theorem load_eq {ndim : A → Nat} {crds : List (String × A)} {flds : List (Fld A)} (h : Savable ndim crds flds) :
    load ndim (contents crds flds) = .ok ⟨crds.map fun c => (c.1, .arr c.2),
      ["node", "cell", "face", "edge"].flatMap fun c => (flds.filter fun f => f.center = c).map (again ndim)⟩ := by
  have wf := contents_wf h
  have wfd : (contents crds flds).WF := by unfold Dict.WF; rw [contents_keys]; exact wf
  have gcrd : ∀ c ∈ crds, (contents crds flds).get? c.1 = some (.arr c.2) := fun c hc =>
    Dict.get?_of_mem _ wfd (by simp only [contents, List.mem_append]; exact .inl (.inl (.inl (List.mem_map_of_mem (f := fun c => (c.1, Entry.arr c.2)) hc))))
  have gfld : ∀ f ∈ flds, (contents crds flds).get? f.name = some (.arr f.data) := fun f hf =>
    Dict.get?_of_mem _ wfd (by
      simp only [contents, List.mem_append]
      exact .inl (.inr (List.mem_map_of_mem (f := fun f : Fld A => (f.name, Entry.arr f.data)) hf)))
  have gkey : ∀ ck ∈ keyFlds, (contents crds flds).get? ck.2 = some (.names ((flds.filter fun f => f.center = ck.1).map Fld.name)) := fun ck hck =>
    Dict.get?_of_mem _ wfd (by
      simp only [contents, List.mem_append]
      exact .inr (List.mem_map_of_mem (f := fun ck : String × String => (ck.2, Entry.names ((flds.filter fun f => f.center = ck.1).map Fld.name))) hck))
  have gnames : (contents crds flds).get? "crd_names" = some (.names (crds.map Prod.fst)) :=
    Dict.get?_of_mem _ wfd (by simp [contents])
  rw [← contents_keys] at wf
  -- the axes
  obtain ⟨l1, e1, n1, m1⟩ := remove_ok (x := "crd_names") wf (by rw [contents_keys]; simp)
  have ec : crdNames (contents crds flds) (contents crds flds).keys = .ok (crds.map Prod.fst, l1) := by
    unfold crdNames
    rw [gnames]
    have : ((crds.map Prod.fst).all fun a => ((contents crds flds).get? a).isSome) = true := by
      rw [List.all_eq_true]
      intro a ha
      obtain ⟨c, hc, rfl⟩ := List.mem_map.1 ha
      rw [gcrd c hc]
      rfl
    simp only [this, if_true, e1]
  obtain ⟨l2, e2, n2, m2⟩ := removeAll_ok (xs := crds.map Prod.fst) n1 h.axes (fun x hx => (m1 x).2 ⟨by
    rw [contents_keys]; exact List.mem_append_left _ (List.mem_append_left _ (List.mem_append_left _ hx)), by
    rintro rfl
    obtain ⟨c, hc, e⟩ := List.mem_map.1 hx
    exact h.axes_free c hc (by rw [e]; simp)⟩)
  have hmem2 : ∀ y, y ∈ l2 ↔ y ∈ flds.map Fld.name ∨ y ∈ keyFlds.map Prod.snd := by
    intro y
    rw [m2, m1, contents_keys]
    have wf' := wf
    rw [contents_keys, List.nodup_append, List.nodup_append, List.nodup_append] at wf'
    obtain ⟨⟨⟨_, _, a⟩, _, b⟩, _, c⟩ := wf'
    simp only [List.mem_append, List.mem_singleton]
    constructor
    · rintro ⟨⟨((hy | hy) | hy) | hy, h1⟩, h2⟩
      · exact absurd hy h2
      · exact absurd hy h1
      · exact .inl hy
      · exact .inr hy
    · rintro (hy | hy)
      · exact ⟨⟨.inl (.inr hy), fun e => b y (by simp [e]) y hy rfl⟩, fun e => b y (List.mem_append_left _ e) y hy rfl⟩
      · exact ⟨⟨.inr hy, fun e => c y (by simp [e]) y hy rfl⟩, fun e => c y (List.mem_append_left _ (List.mem_append_left _ e)) y hy rfl⟩
  -- the fields
  have hw : ∀ f ∈ flds, wrapField ndim (contents crds flds) (crds.map Prod.fst).length f.name f.center = .ok (again ndim f) := by
    intro f hf
    unfold wrapField
    rw [gfld f hf]
    simp only [Entry.ndim, List.length_map, again, h.same_crds f hf]
    rcases h.dims f hf with e | e
    · simp [e]
    · simp [e]
  have hinj : ∀ f ∈ flds, ∀ g ∈ flds, f.name = g.name → f = g := fun f hf g hg e => List.inj_on_of_nodup_map h.names hf hg e
  classical
  have hne : Nonempty (LFld A) := ⟨again ndim (flds.head h.some_fields)⟩
  let g : String → LFld A := fun n => if hx : ∃ f ∈ flds, f.name = n then again ndim hx.choose else Classical.choice hne
  have hg : ∀ f ∈ flds, g f.name = again ndim f := by
    intro f hf
    have hx : ∃ f' ∈ flds, f'.name = f.name := ⟨f, hf, rfl⟩
    have : hx.choose = f := hinj _ hx.choose_spec.1 _ hf hx.choose_spec.2
    simp only [g, dif_pos hx, this]
  have hmemN : ∀ c n, n ∈ (flds.filter fun f => f.center = c).map Fld.name → ∃ f ∈ flds, f.center = c ∧ f.name = n := by
    intro c n hn
    obtain ⟨f, hf, rfl⟩ := List.mem_map.1 hn
    obtain ⟨hf, hc⟩ := List.mem_filter.1 hf
    exact ⟨f, hf, by simpa using hc, rfl⟩
  have hkf : ∀ ck ∈ keyFlds, ck.2 ∈ ["crd_names", "field_names_nc", "field_names_cc", "field_names_fc", "field_names_ec", "file"] := by decide
  obtain ⟨l3, e3, n3, m3⟩ := loadCenters_ok ndim (contents crds flds) (crds.map Prod.fst).length
    (fun c => (flds.filter fun f => f.center = c).map Fld.name) (fun _ => g) (cks := keyFlds) gkey
    (by
      intro ck _ n hn
      obtain ⟨f, hf, hc, rfl⟩ := hmemN _ _ hn
      rw [hg f hf, ← hc]
      exact hw f hf)
    (fun c => h.names.sublist (List.filter_sublist.map _)) (by decide) (by decide)
    (by
      intro ck hck c hn
      obtain ⟨f, hf, _, e⟩ := hmemN _ _ hn
      exact h.names_free f hf (e ▸ hkf ck hck))
    (by
      intro a b x ha hb
      obtain ⟨f, hf, rfl, rfl⟩ := hmemN _ _ ha
      obtain ⟨f', hf', e1, e2⟩ := hmemN _ _ hb
      rw [← e1, hinj _ hf' _ hf e2])
    n2 (fun ck hck => (hmem2 _).2 (.inr (List.mem_map_of_mem hck)))
    (fun ck _ x hx => (hmem2 _).2 (.inl (by
      obtain ⟨f, hf, _, rfl⟩ := hmemN _ _ hx
      exact List.mem_map_of_mem hf)))
  have hl3 : l3 = [] := by
    apply List.eq_nil_iff_forall_not_mem.2
    intro y hy
    obtain ⟨h1, h2, h4⟩ := (m3 y).1 hy
    rcases (hmem2 y).1 h1 with hy | hy
    · obtain ⟨f, hf, rfl⟩ := List.mem_map.1 hy
      have hc := h.centers f hf
      have : ∃ k, (f.center, k) ∈ keyFlds := by
        simp only [List.mem_cons, List.not_mem_nil, or_false] at hc
        rcases hc with e | e | e | e <;> rw [e]
        · exact ⟨"field_names_nc", by decide⟩
        · exact ⟨"field_names_cc", by decide⟩
        · exact ⟨"field_names_fc", by decide⟩
        · exact ⟨"field_names_ec", by decide⟩
      obtain ⟨k, hk⟩ := this
      exact h4 _ hk (List.mem_map_of_mem (List.mem_filter.2 ⟨hf, by simp⟩))
    · exact h2 hy
  have eflds : keyFlds.flatMap (fun ck => ((flds.filter fun f => f.center = ck.1).map Fld.name).map g) =
      ["node", "cell", "face", "edge"].flatMap fun c => (flds.filter fun f => f.center = c).map (again ndim) := by
    have : ∀ c, ((flds.filter fun f => f.center = c).map Fld.name).map g = (flds.filter fun f => f.center = c).map (again ndim) := by
      intro c
      rw [List.map_map]
      exact List.map_congr_left fun f hf => hg f (List.mem_filter.1 hf).1
    simp only [keyFlds, List.flatMap_cons, List.flatMap_nil, this]
  unfold load
  rw [ec]
  simp only [e2, e3, hl3, loadRest, List.append_nil, eflds]
  congr 2
  rw [List.filterMap_map]
  have : ∀ l : List (String × A), (∀ c ∈ l, c ∈ crds) →
      l.filterMap ((fun a => ((contents crds flds).get? a).map fun e => (a, e)) ∘ Prod.fst) = l.map fun c => (c.1, Entry.arr c.2) := by
    intro l
    induction l with
    | nil => intro _; rfl
    | cons c l ih =>
      intro hl
      rw [List.filterMap_cons, Function.comp_apply, gcrd c (hl c (by simp))]
      simp only [Option.map_some, List.map_cons]
      rw [ih fun c hc => hl c (by simp [hc])]
  exact this crds fun _ h => h

end Viscid.Npz

namespace Viscid.Props
open Viscid.Npz Viscid.Spec.Npz

variable {A : Type}

/-- C150: fields that are saved and loaded again have their names, centers, data and coordinates; they come by center, otherwise in order. Missing:
times other than 0, fields with different coordinates, names the file uses itself. -/
theorem C150_roundtrip_partial (ndim : A → Nat) (crds : List (String × A)) (flds : List (Fld A)) (h : Savable ndim crds flds) :
    ∃ d l, save (toDict flds) = .ok d ∧ load ndim d = .ok l ∧ l.crds = crds.map (fun c => (c.1, .arr c.2)) ∧
      List.Forall₂ (Same ndim) (["node", "cell", "face", "edge"].flatMap fun c => flds.filter fun f => f.center = c) l.flds := by
  refine ⟨_, _, save_eq h, load_eq h, rfl, ?_⟩
  simp only [← List.map_flatMap]
  rw [List.forall₂_map_right_iff, List.forall₂_same]
  intro f hf
  obtain ⟨c, _, hf⟩ := List.mem_flatMap.1 hf
  have hf := (List.mem_filter.1 hf).1
  refine ⟨rfl, rfl, (h.start f hf).symm, rfl, ?_⟩
  simp only [again, decide_eq_true_eq]
  rw [h.same_crds f hf]
  rcases h.dims f hf with e | e <;> simp [e]

/-- arrays as lists of sizes -/
def boxCrds : List (String × List Nat) := [("x", [5]), ("y", [4])]
def boxFlds : List (Fld (List Nat)) := [⟨"rr", "cell", 0, boxCrds, [4, 3]⟩, ⟨"b", "node", 0, boxCrds, [5, 4, 3]⟩, ⟨"pp", "cell", 0, boxCrds, [4, 3]⟩]

example : Savable List.length boxCrds boxFlds := by
  constructor <;> decide

/-- C150: whatever the file is, the fields loaded from it have time 0. -/
theorem C150_time_violated (ndim : A → Nat) (d : Dict String (Entry A)) (l : Loaded A) (h : load ndim d = .ok l) : ∀ f ∈ l.flds, f.time = 0 := by
  have wrap : ∀ {nr n c f}, wrapField ndim d nr n c = .ok f → f.time = 0 := by
    intro nr n c f h
    unfold wrapField at h
    split at h
    · cases h
    · split at h
      · cases h; rfl
      · split at h
        · cases h; rfl
        · cases h
  have names : ∀ {nr c ns left fs left'}, loadNames ndim d nr c ns left = .ok (fs, left') → ∀ f ∈ fs, f.time = 0 := by
    intro nr c ns
    induction ns with
    | nil => intro left fs left' h; cases h; simp
    | cons n ns ih =>
      intro left fs left' h
      rw [loadNames] at h
      cases h1 : wrapField ndim d nr n c with
      | error e => rw [h1] at h; cases h
      | ok f =>
        cases h2 : remove left n with
        | error e => rw [h1] at h; simp only [h2] at h; cases h
        | ok l1 =>
          cases h3 : loadNames ndim d nr c ns l1 with
          | error e => rw [h1] at h; simp only [h2, h3] at h; cases h
          | ok r =>
            rw [h1] at h
            simp only [h2, h3] at h
            cases h
            intro g hg
            rcases List.mem_cons.1 hg with rfl | hg
            · exact wrap h1
            · exact ih h3 g hg
  have centers : ∀ {nr cks left fs left'}, loadCenters ndim d nr cks left = .ok (fs, left') → ∀ f ∈ fs, f.time = 0 := by
    intro nr cks
    induction cks with
    | nil => intro left fs left' h; cases h; simp
    | cons ck cks ih =>
      intro left fs left' h
      obtain ⟨c, k⟩ := ck
      rw [loadCenters] at h
      split at h
      · cases h
      · rename_i ns l1 _
        cases h2 : loadNames ndim d nr c ns l1 with
        | error e => simp only [h2] at h; cases h
        | ok r =>
          obtain ⟨gs, l2⟩ := r
          cases h3 : loadCenters ndim d nr cks l2 with
          | error e => simp only [h2, h3] at h; cases h
          | ok q =>
            simp only [h2, h3] at h
            cases h
            intro g hg
            rcases List.mem_append.1 hg with hg | hg
            · exact names h2 g hg
            · exact ih h3 g hg
  have rest : ∀ {nr ns fs}, loadRest ndim d nr ns = .ok fs → ∀ f ∈ fs, f.time = 0 := by
    intro nr ns
    induction ns with
    | nil => intro fs h; cases h; simp
    | cons n ns ih =>
      intro fs h
      rw [loadRest] at h
      cases h1 : wrapField ndim d nr n "node" with
      | error e => rw [h1] at h; cases h
      | ok f =>
        cases h2 : loadRest ndim d nr ns with
        | error e => rw [h1] at h; simp only [h2] at h; cases h
        | ok r =>
          rw [h1] at h
          simp only [h2] at h
          cases h
          intro g hg
          rcases List.mem_cons.1 hg with rfl | hg
          · exact wrap h1
          · exact ih h2 g hg
  unfold load at h
  split at h
  · cases h
  · split at h
    · cases h
    · split at h
      · cases h
      · rename_i h3
        split at h
        · cases h
        · rename_i h4
          cases h
          intro f hf
          rcases List.mem_append.1 hf with hf | hf
          · exact centers h3 f hf
          · exact rest h4 f hf

/-- C150: coordinates of all fields but the first are not in the file: with any others it is the same. -/
theorem C150_crds_violated (n : String) (f : Fld A) (fs : Dict String (Fld A)) (other : Fld A → List (String × A)) :
    save ((n, f) :: fs.map fun nf => (nf.1, { nf.2 with crds := other nf.2 })) = save ((n, f) :: fs) := by
  have : ∀ c : String, ((((n, f) :: fs.map fun nf => (nf.1, { nf.2 with crds := other nf.2 })).filter fun nf => nf.2.center = c).map Prod.fst) =
      (((n, f) :: fs).filter fun nf => nf.2.center = c).map Prod.fst := by
    intro c
    simp only [List.filter_cons, List.filter_map, Function.comp_def]
    split <;> simp [Function.comp_def]
  unfold save
  simp only [List.all_cons, List.all_map, List.foldl_cons, List.foldl_map, this, Function.comp_def]
  rfl

/-- what saving and loading gives -/
def saveLoad (ndim : A → Nat) (flds : List (Fld A)) : Except Exc (Loaded A) := match save (toDict flds) with
  | .ok d => load ndim d
  | .error e => .error e

/-- C150: a field with the name of an axis can be saved, but the file cannot be loaded. -/
theorem C150_axis_violated : saveLoad List.length [⟨"x", "cell", 0, boxCrds, [4, 3]⟩] = .error .value := by decide +kernel

/-- C150: a field `file` cannot be saved. -/
theorem C150_file_violated (ndim : A → Nat) (crds : List (String × A)) (t : ℚ) (a : A) : saveLoad ndim [⟨"file", "node", t, crds, a⟩] = .error .type := by
  have : save (toDict [⟨"file", "node", t, crds, a⟩]) = .error .type := by
    simp only [toDict, List.foldl_cons, List.foldl_nil, Dict.set, save, keyFlds]
    simp only [List.all_cons, List.all_nil, List.map_cons, List.map_nil]
    rw [if_pos (by decide)]
    simp only [Dict.get?_set]
    rfl
  simp only [saveLoad, this]

/-- C150: a field with a name of one of the arrays of names is lost, and the file cannot be loaded. -/
theorem C150_reserved_violated : saveLoad List.length [⟨"field_names_nc", "node", 0, boxCrds, [5, 4]⟩] = .error .io := by decide +kernel

/-- C150: of fields with the same name only the last is saved. -/
theorem C150_duplicate_violated (f g : Fld A) (h : f.name = g.name) : toDict [f, g] = [(g.name, g)] := by
  simp [toDict, Dict.set, h]

/-- C150: a file somebody else wrote, of plain arrays: `x`, `y` and `z`, as far as they are there, are the axes, and all the other arrays are fields at
nodes, in the order of the file. -/
theorem C150_plain (ndim : A → Nat) (file : List (String × A)) (hn : (file.map Prod.fst).Nodup)
    (hr : ∀ a ∈ file, a.1 ∉ ["crd_names", "field_names_nc", "field_names_cc", "field_names_fc", "field_names_ec"])
    (axes : List (String × A)) (ha : axes = ["x", "y", "z"].filterMap fun n => file.find? fun a => a.1 = n)
    (hd : ∀ a ∈ file, a.1 ∉ ["x", "y", "z"] → ndim a.2 = axes.length ∨ ndim a.2 = axes.length + 1) :
    load ndim (file.map fun a => (a.1, .arr a.2)) = .ok ⟨axes.map fun a => (a.1, .arr a.2),
      (file.filter fun a => a.1 ∉ ["x", "y", "z"]).map fun a => ⟨a.1, "node", 0, ndim a.2 ≠ axes.length, .arr a.2⟩⟩ := by
  have hk : Dict.keys (file.map fun a => (a.1, Entry.arr a.2)) = file.map Prod.fst := by simp [Dict.keys, Function.comp_def]
  have hg : ∀ n, Dict.get? (file.map fun a => (a.1, Entry.arr a.2)) n = (file.find? fun a => a.1 = n).map fun a => Entry.arr a.2 := by
    intro n
    clear hn hr ha hd hk
    induction file with
    | nil => rfl
    | cons a l ih =>
      simp only [List.map_cons, Dict.get?, List.find?_cons]
      by_cases h : a.1 = n
      · simp [h]
      · simp [h, ih]
  have hg0 : ∀ n ∈ ["crd_names", "field_names_nc", "field_names_cc", "field_names_fc", "field_names_ec"],
      Dict.get? (file.map fun a => (a.1, Entry.arr a.2)) n = none := by
    intro n h
    rw [hg, Option.map_eq_none_iff, List.find?_eq_none]
    intro a ha e
    exact hr a ha (by simpa [of_decide_eq_true e] using h)
  have hm : ∀ a ∈ file, file.find? (fun b => b.1 = a.1) = some a := by
    intro a ha
    obtain ⟨b, hb⟩ : ∃ b, file.find? (fun b => b.1 = a.1) = some b := by
      rw [← Option.isSome_iff_exists, List.find?_isSome]
      exact ⟨a, ha, by simp⟩
    rw [hb, List.inj_on_of_nodup_map hn (List.mem_of_find?_eq_some hb) ha (by simpa using List.find?_some hb)]
  -- the axes
  have hax : axes.map Prod.fst = ["x", "y", "z"].filter fun n => (Dict.get? (file.map fun a => (a.1, Entry.arr a.2)) n).isSome := by
    rw [ha]
    have : ∀ l : List String, (l.filterMap fun n => file.find? fun a => a.1 = n).map Prod.fst =
        l.filter fun n => (Dict.get? (file.map fun a => (a.1, Entry.arr a.2)) n).isSome := by
      intro l
      induction l with
      | nil => rfl
      | cons n l ih =>
        rw [List.filterMap_cons, List.filter_cons, hg, ← ih]
        cases e : file.find? fun a => a.1 = n with
        | none => simp
        | some b =>
          have : b.1 = n := by simpa using List.find?_some e
          simp [this]
    exact this _
  have hc : crdNames (file.map fun a => (a.1, Entry.arr a.2)) (Dict.keys (file.map fun a => (a.1, Entry.arr a.2))) =
      .ok (axes.map Prod.fst, file.map Prod.fst) := by
    unfold crdNames
    rw [hg0 _ (by simp), hax, hk]
  have hlen : (axes.map Prod.fst).length = axes.length := List.length_map ..
  have hsub : (axes.map Prod.fst).Sublist ["x", "y", "z"] := by rw [hax]; exact List.filter_sublist
  -- what is left
  have hleft : removeAll (file.map Prod.fst) (axes.map Prod.fst) = .ok ((file.filter fun a => a.1 ∉ ["x", "y", "z"]).map Prod.fst) := by
    have key : ∀ (xs l : List String), l.Nodup → xs.Nodup → (∀ x ∈ xs, x ∈ l) → removeAll l xs = .ok (l.filter fun y => y ∉ xs) := by
      intro xs
      induction xs with
      | nil => intro l _ _ _; simp [removeAll]
      | cons x xs ih =>
        intro l hl hx hs
        obtain ⟨hx1, hx2⟩ := List.nodup_cons.1 hx
        rw [removeAll, remove, if_pos (hs x (by simp))]
        simp only
        rw [ih _ (hl.erase x) hx2 (fun y hy => (hl.mem_erase_iff).2 ⟨fun e => hx1 (e ▸ hy), hs y (by simp [hy])⟩), hl.erase_eq_filter, List.filter_filter]
        congr 1
        apply List.filter_congr
        intro y _
        simp only [List.mem_cons, not_or]
        by_cases h1 : y = x <;> by_cases h2 : y ∈ xs <;> simp [h1, h2]
    rw [key _ _ hn (hsub.nodup (by decide)), List.filter_map]
    · congr 2
      apply List.filter_congr
      intro a ha'
      have : a.1 ∈ axes.map Prod.fst ↔ a.1 ∈ ["x", "y", "z"] := by
        rw [hax, List.mem_filter, hg, hm a ha']
        simp
      simp only [Function.comp_apply, this]
    · intro x hx
      rw [hax, List.mem_filter, hg] at hx
      simpa using hx.2
  have hcen : ∀ (cks : List (String × String)) (l : List String), (∀ ck ∈ cks, ck ∈ keyFlds) →
      loadCenters ndim (file.map fun a => (a.1, Entry.arr a.2)) (axes.map Prod.fst).length cks l = .ok ([], l) := by
    intro cks
    induction cks with
    | nil => intro l _; rfl
    | cons ck cks ih =>
      intro l h
      obtain ⟨c, k⟩ := ck
      have hck : k ∈ ["crd_names", "field_names_nc", "field_names_cc", "field_names_fc", "field_names_ec"] := by
        have := h (c, k) (by simp)
        simp only [keyFlds, List.mem_cons, List.not_mem_nil, or_false, Prod.mk.injEq] at this
        rcases this with ⟨_, rfl⟩ | ⟨_, rfl⟩ | ⟨_, rfl⟩ | ⟨_, rfl⟩ <;> simp
      rw [loadCenters, hg0 k hck]
      simp only [loadNames, ih l fun ck hc => h ck (by simp [hc]), List.append_nil]
  have hrest : ∀ l : List (String × A), (∀ a ∈ l, a ∈ file ∧ a.1 ∉ ["x", "y", "z"]) →
      loadRest ndim (file.map fun a => (a.1, Entry.arr a.2)) (axes.map Prod.fst).length (l.map Prod.fst) =
      .ok (l.map fun a => ⟨a.1, "node", 0, ndim a.2 ≠ axes.length, .arr a.2⟩) := by
    intro l
    induction l with
    | nil => intro _; rfl
    | cons a l ih =>
      intro h
      have ⟨h1, h2⟩ := h a (by simp)
      have hw : wrapField ndim (file.map fun a => (a.1, Entry.arr a.2)) (axes.map Prod.fst).length a.1 "node" =
          .ok ⟨a.1, "node", 0, ndim a.2 ≠ axes.length, .arr a.2⟩ := by
        unfold wrapField
        rw [hg, hm a h1, hlen]
        simp only [Option.map_some, Entry.ndim]
        rcases hd a h1 h2 with e | e <;> simp [e]
      rw [List.map_cons, loadRest, hw]
      simp only [ih fun b hb => h b (by simp [hb]), List.map_cons]
  unfold load
  rw [hc]
  simp only [hleft, hcen keyFlds _ fun _ h => h]
  rw [hrest _ fun a h => by simpa using List.mem_filter.1 h]
  simp only [List.nil_append]
  congr 2
  rw [List.filterMap_map]
  have : ∀ l : List (String × A), (∀ c ∈ l, c ∈ file) →
      l.filterMap ((fun a => (Dict.get? (file.map fun a => (a.1, Entry.arr a.2)) a).map fun e => (a, e)) ∘ Prod.fst) = l.map fun c => (c.1, Entry.arr c.2) := by
    intro l
    induction l with
    | nil => intro _; rfl
    | cons c l ih =>
      intro hl
      rw [List.filterMap_cons, Function.comp_apply, hg, hm c (hl c (by simp))]
      simp only [Option.map_some, List.map_cons]
      rw [ih fun c hc => hl c (by simp [hc])]
  apply this
  intro c hc
  rw [ha] at hc
  obtain ⟨n, _, e⟩ := List.mem_filterMap.1 hc
  exact List.mem_of_find?_eq_some e

/-- such a file: two axes, not in order, a scalar and a vector field -/
example : load List.length ([("y", [5]), ("pp", [4, 5]), ("x", [4]), ("v", [4, 5, 3])].map fun a => (a.1, .arr a.2)) = .ok
    ⟨[("x", .arr [4]), ("y", .arr [5])], [⟨"pp", "node", 0, false, .arr [4, 5]⟩, ⟨"v", "node", 0, true, .arr [4, 5, 3]⟩]⟩ :=
  C150_plain List.length _ (by decide) (by decide) [("x", [4]), ("y", [5])] (by decide) (by decide)

/-- C150: a file whose list of axes has one that is not there is read as one without a list; then the list itself is a field, or cannot be read. -/
theorem C150_missing_axis_violated :
    load List.length [("crd_names", .names ["x", "t"]), ("x", .arr [5]), ("pp", .arr [5])] =
      .ok ⟨[("x", .arr [5])], [⟨"crd_names", "node", 0, false, .names ["x", "t"]⟩, ⟨"pp", "node", 0, false, .arr [5]⟩]⟩ ∧
    load List.length [("crd_names", .names ["x", "y", "t"]), ("x", .arr [5]), ("y", .arr [4]), ("pp", .arr [5, 4])] = .error .io := by
  decide +kernel

/-- C150: no fields at all, and centers that do not exist -/
theorem C150_refused (f : Fld A) (fs : List (Fld A)) (h : f.center ∉ ["node", "cell", "face", "edge"]) (hn : ((f :: fs).map Fld.name).Nodup) :
    save (toDict ([] : List (Fld A))) = .error .assertion ∧ save (toDict (f :: fs)) = .error .key := by
  refine ⟨rfl, ?_⟩
  rw [toDict_eq _ hn]
  simp only [List.map_cons, save]
  rw [if_neg]
  simp only [List.all_cons, Bool.and_eq_true, not_and_or]
  left
  simpa [keyFlds] using h

end Viscid.Props
