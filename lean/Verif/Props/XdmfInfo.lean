import Verif.Model.XdmfInfo
/-!
# C265: Information elements of XDMF files
-/
namespace Viscid.Spec.XdmfInfo
open Viscid.XdmfInfo

/-- `b` is somewhere inside of `a` -/
inductive Within : Elem → Elem → Prop where
  | kid {a b : Elem} : b ∈ a.kids → Within b a
  | deeper {a b c : Elem} : b ∈ a.kids → Within c b → Within c a

/-- what an Information element is meant to say: its Value, the data of a DataItem in it, or its text -/
inductive Says (item : Elem → Except E D) (e : Elem) : Val D → Prop where
  | value (v : String) : e.get "Value" = some v → Says item e (.text (some v))
  | data (di : Elem) (d : D) : e.get "Value" = none → Within di e → di.tag = "DataItem" → item di = .ok d → Says item e (.data d)
  | text : e.get "Value" = none → (∀ di, Within di e → di.tag ≠ "DataItem") → Says item e (.text e.text)

end Viscid.Spec.XdmfInfo

namespace Viscid.Props
open Viscid.XdmfInfo Viscid.Spec.XdmfInfo

namespace XI

mutual
theorem mem_all : ∀ (e b : Elem), b ∈ e.all ↔ b = e ∨ Within b e
  | .mk t a x k, b => by
    rw [Elem.all, List.mem_cons, mem_allOf k b]
    refine or_congr_right ⟨?_, ?_⟩
    · rintro ⟨c, hc, rfl | h⟩
      · exact .kid hc
      · exact .deeper hc h
    · intro h
      cases h with
      | kid h => exact ⟨b, h, Or.inl rfl⟩
      | deeper h1 h2 => exact ⟨_, h1, Or.inr h2⟩
theorem mem_allOf : ∀ (l : List Elem) (b : Elem), b ∈ Elem.allOf l ↔ ∃ c ∈ l, b = c ∨ Within b c
  | [], b => by simp [Elem.allOf]
  | e :: es, b => by
    rw [Elem.allOf, List.mem_append, mem_all e b, mem_allOf es b]
    simp only [List.mem_cons, exists_eq_or_imp]
end

theorem mem_kids (e b : Elem) : b ∈ Elem.allOf e.kids ↔ Within b e := by
  rw [mem_allOf]
  constructor
  · rintro ⟨c, hc, rfl | h⟩
    · exact .kid hc
    · exact .deeper hc h
  · intro h
    cases h with
    | kid h => exact ⟨b, h, Or.inl rfl⟩
    | deeper h1 h2 => exact ⟨_, h1, Or.inr h2⟩

theorem find_some {e di : Elem} {t : String} (h : e.find t = some di) : Within di e ∧ di.tag = t :=
  ⟨(mem_kids e di).1 (List.mem_of_find?_eq_some h), by simpa using List.find?_some h⟩

theorem find_none {e : Elem} {t : String} (h : e.find t = none) : ∀ di, Within di e → di.tag ≠ t := by
  intro di hw
  have := List.find?_eq_none.1 h di ((mem_kids e di).2 hw)
  simpa using this

theorem parse_says {item : Elem → Except E D} {e : Elem} {k : Option String} {v : Val D} (hk : ∀ di, e.get "Value" = none → Within di e → di.tag = "DataItem" → di.kids ≠ [])
    (h : parseInformation item e = .ok (k, v)) : k = e.get "Name" ∧ Says item e v := by
  unfold parseInformation at h
  split at h
  · next x hx =>
    simp only [Except.ok.injEq, Prod.mk.injEq] at h
    obtain ⟨rfl, rfl⟩ := h
    exact ⟨rfl, .value x hx⟩
  · next hx =>
    split at h
    · next di hd =>
      obtain ⟨h1, h2⟩ := find_some hd
      have : di.truthy = true := by
        have := hk di hx h1 h2
        cases hkk : di.kids with
        | nil => exact absurd hkk this
        | cons a b => simp [Elem.truthy, hkk]
      rw [if_pos this] at h
      split at h
      · next d hdd =>
        simp only [Except.ok.injEq, Prod.mk.injEq] at h
        obtain ⟨rfl, rfl⟩ := h
        exact ⟨rfl, .data di d hx h1 h2 hdd⟩
      · cases h
    · next hd =>
      simp only [Except.ok.injEq, Prod.mk.injEq] at h
      obtain ⟨rfl, rfl⟩ := h
      exact ⟨rfl, .text hx (find_none hd)⟩

theorem inject_spec {item : Elem → Except E D} : ∀ (l : List Elem) (d0 d : Dict D),
    (∀ e ∈ l, ∀ di, e.get "Value" = none → Within di e → di.tag = "DataItem" → di.kids ≠ []) → inject item d0 l = .ok d →
    ∀ k, (∃ pre e post v, l = pre ++ e :: post ∧ e.get "Name" = k ∧ (∀ x ∈ post, x.get "Name" ≠ k) ∧ Says item e v ∧ d k = some v) ∨
      ((∀ x ∈ l, x.get "Name" ≠ k) ∧ d k = d0 k) := by
  intro l
  induction l with
  | nil =>
    intro d0 d _ h k
    simp only [inject, Except.ok.injEq] at h
    subst h
    exact Or.inr ⟨by simp, rfl⟩
  | cons e es ih =>
    intro d0 d hk h k
    simp only [inject] at h
    split at h
    · cases h
    · next n v hp =>
      obtain ⟨hn, hs⟩ := parse_says (hk e List.mem_cons_self) hp
      rcases ih _ _ (fun x hx => hk x (List.mem_cons_of_mem _ hx)) h k with ⟨pre, x, post, w, rfl, h1, h2, h3, h4⟩ | ⟨h1, h2⟩
      · exact Or.inl ⟨e :: pre, x, post, w, rfl, h1, h2, h3, h4⟩
      · by_cases hkn : k = n
        · subst hkn
          exact Or.inl ⟨[], e, es, v, rfl, hn.symm, h1, hs, by simpa [put] using h2⟩
        · refine Or.inr ⟨?_, by simpa [put, hkn] using h2⟩
          intro x hx
          rcases List.mem_cons.1 hx with rfl | hx
          · rw [← hn]; exact fun e => hkn e.symm
          · exact h1 x hx

end XI
open XI

/-- **C265** (partial: if DataItem elements of Information elements without Value have children themselves, see `C265_data_violated`). The info of a grid, dataset or field has a name exactly if
    one of the Information elements directly in its element has; the value is what the last of them says. -/
theorem C265_info_partial (item : Elem → Except E D) (e : Elem) (d : Dict D)
    (hk : ∀ i ∈ e.kids, i.tag = "Information" → i.get "Value" = none → ∀ di, Within di i → di.tag = "DataItem" → di.kids ≠ [])
    (h : infoOf item e = .ok d) (k : Option String) :
    (∃ pre i post v, e.kids = pre ++ i :: post ∧ i.tag = "Information" ∧ i.get "Name" = k ∧ (∀ x ∈ post, x.tag = "Information" → x.get "Name" ≠ k) ∧ Says item i v ∧ d k = some v) ∨
    ((∀ x ∈ e.kids, x.tag = "Information" → x.get "Name" ≠ k) ∧ d k = none) := by
  have hl : ∀ x ∈ e.findall "Information", x ∈ e.kids ∧ x.tag = "Information" := by
    intro x hx
    simpa [Elem.findall, List.mem_filter] using hx
  rcases inject_spec (e.findall "Information") (fun _ => none) d (fun x hx di hv => hk x (hl x hx).1 (hl x hx).2 hv di) h k with
    ⟨pre, i, post, v, h0, h1, h2, h3, h4⟩ | ⟨h1, h2⟩
  · left
    unfold Elem.findall at h0
    obtain ⟨l1, l2, e1, e2, e3⟩ := List.filter_eq_append_iff.1 h0
    obtain ⟨m1, m2, f1, f2, f3, f4⟩ := List.filter_eq_cons_iff.1 e3
    refine ⟨l1 ++ m1, i, m2, v, by rw [e1, f1]; simp, by simpa using f3, h1, ?_, h3, h4⟩
    intro x hx ht
    exact h2 x (by rw [← f4]; simp [List.mem_filter, hx, ht])
  · right
    refine ⟨fun x hx ht => h1 x ?_, h2⟩
    simp [Elem.findall, List.mem_filter, hx, ht]

/-- **C265, attributes.** `Name` and `Value` in the above are those that are written in the element, whose attributes all have different names as XML demands. -/
theorem C265_attributes (e : Elem) (h : (e.attrs.map (·.1)).Nodup) (name : String) :
    (∀ v, e.get name = some v ↔ (name, v) ∈ e.attrs) ∧ (e.get name = none ↔ ∀ v, (name, v) ∉ e.attrs) := by
  have key : ∀ (l : List (String × String)), (l.map (·.1)).Nodup → ∀ v, (l.find? fun a => a.1 = name).map (·.2) = some v ↔ (name, v) ∈ l := by
    intro l
    induction l with
    | nil => intro _ v; simp
    | cons a l ih =>
      intro hl v
      obtain ⟨n, x⟩ := a
      rw [List.map_cons, List.nodup_cons] at hl
      by_cases hn : n = name
      · subst hn
        have : (n, v) ∉ l := fun hm => hl.1 (List.mem_map.2 ⟨(n, v), hm, rfl⟩)
        simp [this, eq_comm]
      · have hn' : ¬ name = n := fun e => hn e.symm
        simp only [List.find?_cons, hn, decide_false, ih hl.2 v, List.mem_cons, Prod.mk.injEq, hn', false_and, false_or]
  have h1 : ∀ v, e.get name = some v ↔ (name, v) ∈ e.attrs := key e.attrs h
  refine ⟨h1, ?_⟩
  constructor
  · intro hg v hv
    rw [(h1 v).2 hv] at hg
    cases hg
  · intro hv
    cases hg : e.get name with
    | none => rfl
    | some v => exact absurd ((h1 v).1 hg) (hv v)

example : (((Elem.mk "Information" [("Name", "a"), ("Value", "1")] none []).attrs).map (·.1)).Nodup := by decide

/-- **C265, errors.** Reading fails only if the data of one of the Information elements cannot be read. -/
theorem C265_errors (item : Elem → Except E D) (e : Elem) (h : ∀ i ∈ e.kids, i.tag = "Information" → ∀ di, Within di i → di.tag = "DataItem" → ∃ d, item di = .ok d) :
    ∃ d, infoOf item e = .ok d := by
  have key : ∀ (l : List Elem) (d0 : Dict D), (∀ i ∈ l, ∀ di, Within di i → di.tag = "DataItem" → ∃ d, item di = .ok d) → ∃ d, inject item d0 l = .ok d := by
    intro l
    induction l with
    | nil => intro d0 _; exact ⟨d0, rfl⟩
    | cons i l ih =>
      intro d0 hi
      have hp : ∃ r, parseInformation item i = .ok r := by
        unfold parseInformation
        split
        · exact ⟨_, rfl⟩
        · split
          · next di hd =>
            obtain ⟨h1, h2⟩ := find_some hd
            obtain ⟨d, hd⟩ := hi i List.mem_cons_self di h1 h2
            split
            · rw [hd]; exact ⟨_, rfl⟩
            · exact ⟨_, rfl⟩
          · exact ⟨_, rfl⟩
      obtain ⟨⟨k, v⟩, hr⟩ := hp
      simp only [inject, hr]
      exact ih _ fun x hx => hi x (List.mem_cons_of_mem _ hx)
  exact key _ _ fun i hi => h i (List.mem_filter.1 hi).1 (by simpa using (List.mem_filter.1 hi).2)

/-- An element that meets the conditions, with a name that is there twice, and one that is deeper -/
example : infoOf (fun _ => (.error () : Except Unit Nat)) (.mk "Grid" [] none [.mk "Information" [("Name", "a"), ("Value", "1")] none [],
      .mk "Information" [("Name", "a"), ("Value", "2")] none [], .mk "Grid" [] none [.mk "Information" [("Name", "b"), ("Value", "3")] none []]]) =
    .ok (put (put (fun _ => none) (some "a") (.text (some "1"))) (some "a") (.text (some "2"))) := by
  simp [infoOf, Elem.findall, Elem.kids, Elem.tag, inject, parseInformation, Elem.get, Elem.attrs]

/-- **C265 fails** for data: DataItem elements hold their data as text and have no children, which makes them false. The info is then the text in front of the DataItem (white space, as a rule),
    whatever the data is, and also if it cannot be read. -/
theorem C265_data_violated (item : Elem → Except E D) (name : String) (text : Option String) (attrs : List (String × String)) (data : Option String) (d : D)
    (hd : item (.mk "DataItem" attrs data []) = .ok d) :
    let info := Elem.mk "Information" [("Name", name)] text [.mk "DataItem" attrs data []]
    Says item info (.data d) ∧ ∀ g, g.kids = [info] → ∃ dict, infoOf item g = .ok dict ∧ dict (some name) = some (.text text) ∧ dict (some name) ≠ some (.data d) := by
  intro info
  refine ⟨.data (.mk "DataItem" attrs data []) d ?_ (.kid ?_) rfl hd, ?_⟩
  · simp [info, Elem.get, Elem.attrs]
  · simp [info, Elem.kids]
  · intro g hg
    refine ⟨put (fun _ => none) (some name) (.text text), ?_, by simp [put], by simp [put]⟩
    rw [infoOf, Elem.findall, hg]
    simp [info, Elem.tag, inject, parseInformation, Elem.get, Elem.attrs, Elem.find, Elem.kids, Elem.allOf, Elem.all, Elem.truthy, Elem.text]

/-- **C265 fails** for AMR grids: an AMR grid has the dictionary of its first patch. What is set for the AMR grid is set for that patch, and for no other; what is set for that patch, is
    set for the AMR grid. -/
theorem C265_amr_violated (w : World D) (amr first other : Nat) (hf : first ≠ amr) (ho : other ≠ amr) (hd : w.info other ≠ w.info first) (k : Option String) (v : Val D) :
    getInfo (setInfo (amrGrid w amr first) amr k v) first k = some v ∧
    getInfo (setInfo (amrGrid w amr first) amr k v) other k = getInfo w other k ∧
    getInfo (setInfo (amrGrid w amr first) first k v) amr k = some v ∧
    getInfo (amrGrid w amr first) amr k = getInfo w first k := by
  simp [getInfo, setInfo, amrGrid, hf, ho, hd, put]

example : let w : World Nat := ⟨fun _ _ => none, id⟩
    w.info 2 ≠ w.info 1 := by simp

end Viscid.Props
