import Verif.Spec.Hdf5
import Verif.Props.Layout
import Verif.Props.XdmfGeo
import Verif.Lemmas.Dict
import Mathlib.Data.List.Forall2
/-!
# C155 data in the order zyx, C156 fields saved in HDF5 files and loaded again
-/
namespace Viscid.Hdf5
open Viscid.Layout (Arr prod detect reshape ravel unravel trim)
open Viscid.XdmfGeo (Coords parseGeometry)
open Viscid.Spec.Hdf5 Viscid.Props

theorem prod_ones (k : Nat) : prod (List.replicate k 1) = 1 := by
  induction k with
  | zero => rfl
  | succ k ih => simp only [List.replicate_succ, prod, List.foldr_cons] at ih ⊢; rw [ih]

theorem ravel_lt (s : List Nat) : ∀ idx, Inside idx s → ravel s idx < prod s := by
  induction s with
  | nil => intro idx h; cases h; simp [ravel, prod]
  | cons n s ih =>
    intro idx h
    cases h with
    | @cons i _ idx _ hi h =>
      have := ih idx h
      show i * prod s + ravel s idx < n * prod s
      have h2 : (i + 1) * prod s ≤ n * prod s := Nat.mul_le_mul_right _ hi
      rw [Nat.succ_mul] at h2
      omega

theorem unravel_ravel (s : List Nat) : ∀ idx, Inside idx s → unravel s (ravel s idx) = idx := by
  induction s with
  | nil => intro idx h; cases h; rfl
  | cons n s ih =>
    intro idx h
    cases h with
    | @cons i _ idx _ hi h =>
      have hr := ravel_lt s idx h
      show (i * prod s + ravel s idx) / prod s :: unravel s ((i * prod s + ravel s idx) % prod s) = i :: idx
      rw [Nat.mul_comm, Nat.mul_add_div (by omega), Nat.mul_add_mod, Nat.div_eq_of_lt hr, Nat.mod_eq_of_lt hr, ih idx h, Nat.add_zero]

theorem ravel_pad (s : List Nat) (k : Nat) : ∀ idx, Inside idx s → ravel (s ++ List.replicate k 1) (idx ++ List.replicate k 0) = ravel s idx := by
  induction s with
  | nil =>
    intro idx h
    cases h
    induction k with
    | zero => rfl
    | succ k ih =>
      simp only [List.nil_append, List.replicate_succ, ravel] at ih ⊢
      rw [ih]
      simp
  | cons n s ih =>
    intro idx h
    cases h with
    | @cons i _ idx _ hi h =>
      show i * prod (s ++ List.replicate k 1) + ravel (s ++ List.replicate k 1) (idx ++ List.replicate k 0) = i * prod s + ravel s idx
      rw [ih idx h, prod_append, prod_ones, Nat.mul_one]

theorem inside_pad (s idx : List Nat) (k : Nat) (h : Inside idx s) : Inside (idx ++ List.replicate k 0) (s ++ List.replicate k 1) := by
  induction h with
  | nil =>
    induction k with
    | zero => exact .nil
    | succ k ih => exact .cons (by omega) ih
  | cons hi _ ih => exact .cons hi ih

theorem inside_snoc (s idx : List Nat) (n c : Nat) (h : Inside idx s) (hc : c < n) : Inside (idx ++ [c]) (s ++ [n]) := by
  induction h with
  | nil => exact .cons hc .nil
  | cons hi _ ih => exact .cons hi ih

/-- reshaping keeps the places in C order -/
theorem reshape_get (s t : List Nat) (g : List Nat → α) (hp : prod s = prod t) :
    ∃ b, reshape ⟨s, g⟩ t = .ok b ∧ b.shape = t ∧ ∀ i j, Inside i s → Inside j t → ravel s i = ravel t j → b.get j = g i := by
  unfold reshape
  by_cases h : s = t
  · subst h
    refine ⟨⟨s, g⟩, by simp, rfl, ?_⟩
    intro i j hi hj e
    have := congrArg (unravel s) e
    rw [unravel_ravel s i hi, unravel_ravel s j hj] at this
    rw [this]
  · simp only [if_neg h, if_pos hp]
    refine ⟨_, rfl, rfl, ?_⟩
    intro i j hi hj e
    simp only [← e, unravel_ravel s i hi]

theorem T_T (a : Arr α) : T (T a) = a := by
  simp [T]

/-- axes of one point in front are taken away -/
theorem trim_ones (k : Nat) : ∀ (fuel : Nat) (t : List Nat), k ≤ fuel → trim (t.length + 1) fuel (List.replicate k 1 ++ t) = t := by
  induction k with
  | zero =>
    intro fuel t _
    cases fuel with
    | zero => rfl
    | succ fuel => unfold trim; rw [if_neg (by simp)]; rfl
  | succ k ih =>
    intro fuel t h
    obtain ⟨fuel, rfl⟩ : ∃ m, fuel = m + 1 := ⟨fuel - 1, by omega⟩
    unfold trim
    rw [if_pos (by simp), if_pos (by simp [List.replicate_succ])]
    have : (List.replicate (k + 1) 1 ++ t).erase 1 = List.replicate k 1 ++ t := by
      simp [List.replicate_succ]
    rw [this, ih fuel t (by omega)]

theorem detect_pad_flat (k n : Nat) (t : List Nat) (hn : 2 ≤ n) : detect (List.replicate k 1 ++ t) (n :: t) = .flat := by
  have h1 : ¬ (n :: t = List.replicate k 1 ++ t) := by
    intro e
    cases k with
    | zero =>
      have := congrArg List.length e
      simp at this
    | succ k =>
      simp only [List.replicate_succ, List.cons_append, List.cons.injEq] at e
      omega
  unfold detect
  rw [if_neg h1]
  have tr : trim (n :: t).length (List.replicate k 1 ++ t).length (List.replicate k 1 ++ t) = t := trim_ones k _ t (by simp)
  simp only [tr]
  rw [if_neg (by intro e; have := congrArg List.length e; simp at this), if_pos (by simp)]

theorem detect_pad_interlaced (k n : Nat) (t : List Nat) (hn : 2 ≤ n) :
    detect (List.replicate k 1 ++ t) (t ++ [n]) = if t = List.replicate t.length n then .flat else .interlaced := by
  have h1 : ¬ (t ++ [n] = List.replicate k 1 ++ t) := by
    intro e
    have hl := congrArg List.length e
    simp only [List.length_append, List.length_singleton, List.length_replicate] at hl
    have hk : k = 1 := by omega
    subst hk
    have hs := congrArg List.sum e
    simp only [List.sum_append, List.sum_cons, List.sum_nil, List.replicate_one] at hs
    omega
  unfold detect
  rw [if_neg h1]
  have tr : trim (t ++ [n]).length (List.replicate k 1 ++ t).length (List.replicate k 1 ++ t) = t := by
    rw [show (t ++ [n]).length = t.length + 1 by simp]
    exact trim_ones k _ t (by simp)
  simp only [tr]
  rw [if_neg (by intro e; have := congrArg List.length e; simp at this)]
  by_cases h : t = List.replicate t.length n
  · rw [if_pos ((tail_eq t n).2 h), if_pos h]
  · rw [if_neg (fun e => h ((tail_eq t n).1 e)), if_neg h, if_pos (by left; simp)]

/-! ### names and paths -/

theorem foldl_set (flds : List (Fld α)) : ∀ (d : Dict String (Fld α)), (∀ f ∈ flds, f.name ∉ d.map Prod.fst) → (flds.map Fld.name).Nodup →
    flds.foldl (fun d f => Dict.set d f.name f) d = d ++ flds.map fun f => (f.name, f) := by
  induction flds with
  | nil => intro d _ _; simp
  | cons f fs ih =>
    intro d hd hn
    simp only [List.map_cons, List.nodup_cons] at hn
    have hs : Dict.set d f.name f = d ++ [(f.name, f)] := by
      have hf := hd f (by simp)
      clear hd ih hn
      induction d with
      | nil => rfl
      | cons p d ih =>
        obtain ⟨a, b⟩ := p
        simp only [List.map_cons, List.mem_cons, not_or] at hf
        simp only [Dict.set]
        rw [if_neg (fun e => hf.1 e.symm), ih hf.2]
        rfl
    rw [List.foldl_cons, hs, ih _ _ hn.2]
    · simp
    · intro g hg
      simp only [List.map_append, List.mem_append, List.map_cons, List.map_nil, List.mem_singleton, not_or]
      refine ⟨hd g (by simp [hg]), ?_⟩
      intro e
      exact hn.1 (e ▸ List.mem_map_of_mem hg)

theorem toDict_eq (flds : List (Fld α)) (h : (flds.map Fld.name).Nodup) : toDict flds = flds.map fun f => (f.name, f) := by
  have := foldl_set flds [] (by simp) h
  simpa [toDict] using this

theorem splitColon_none (A : List Char) (h : ':' ∉ A) : splitColon A = [A] := by
  induction A with
  | nil => rfl
  | cons c A ih =>
    simp only [List.mem_cons, not_or] at h
    unfold splitColon
    rw [if_neg (fun e => h.1 e.symm), ih h.2]

theorem splitColon_append (A B : List Char) (h : ':' ∉ A) : splitColon (A ++ ':' :: B) = A :: splitColon B := by
  induction A with
  | nil => simp [splitColon]
  | cons c A ih =>
    simp only [List.mem_cons, not_or] at h
    rw [List.cons_append, splitColon, if_neg (fun e => h.1 e.symm), ih h.2]

theorem strip_id (A : List Char) (hh : A.head? ≠ some ' ') (hl : A.getLast? ≠ some ' ') : strip A = A := by
  have dw : ∀ B : List Char, B.head? ≠ some ' ' → B.dropWhile (· = ' ') = B := by
    intro B hB
    cases B with
    | nil => rfl
    | cons c B =>
      simp only [List.head?_cons, ne_eq, Option.some.injEq] at hB
      simp [hB]
  unfold strip
  rw [dw A hh, dw A.reverse (by rw [List.head?_reverse]; exact hl), List.reverse_reverse]

/-- where a text points to -/
theorem locOf_ok (base loc : String) (hb : ':' ∉ base.toList) (hl : ':' ∉ loc.toList) (he : ∃ c, loc.toList.getLast? = some c ∧ c ≠ ' ') :
    locOf ("./" ++ base ++ ":" ++ loc) = .ok loc := by
  have ht : ("./" ++ base ++ ":" ++ loc).toList = ('.' :: '/' :: base.toList) ++ ':' :: loc.toList := by
    simp [String.toList_append]
  obtain ⟨c, hc, hne⟩ := he
  have hst : strip ("./" ++ base ++ ":" ++ loc).toList = ('.' :: '/' :: base.toList) ++ ':' :: loc.toList := by
    rw [ht]
    apply strip_id
    · simp
    · rw [List.getLast?_append, List.getLast?_cons, hc]
      simpa using hne
  unfold locOf
  rw [hst, splitColon_append _ _ (by simp [hb]), splitColon_none _ hl]
  simp

theorem group_chars (c : Center) : ':' ∉ (group c).toList ∧ ∀ x ∈ (group c).toList, x ∉ ['<', '&', '"', ':'] := by
  cases c <;> decide

theorem loc_inj (c c' : Center) (n n' : String) (h : group c ++ "/" ++ n = group c' ++ "/" ++ n') : n = n' := by
  have := congrArg String.toList h
  simp only [String.toList_append] at this
  have hl : ((group c).toList ++ "/".toList).length = ((group c').toList ++ "/".toList).length := by
    have hn : (group .node).toList = ['/', 'f', 'l', 'd', 's', '_', 'n', 'c'] := by simp [group]
    have hc : (group .cell).toList = ['/', 'f', 'l', 'd', 's', '_', 'c', 'c'] := by simp [group]
    cases c <;> cases c' <;> simp only [hn, hc, List.length_append, List.length_cons]
  exact String.toList_inj.1 (List.append_inj this hl).2

theorem lookup_data (flds : List (Fld α)) (h : (flds.map Fld.name).Nodup) (f : Fld α) (hf : f ∈ flds) :
    (flds.map fun f => (group f.center ++ "/" ++ f.name, T f.data)).lookup (group f.center ++ "/" ++ f.name) = some (T f.data) := by
  induction flds with
  | nil => cases hf
  | cons g fs ih =>
    simp only [List.map_cons, List.nodup_cons] at h
    rw [List.map_cons, List.lookup_cons]
    rcases List.mem_cons.1 hf with rfl | hf
    · simp
    · have : (group f.center ++ "/" ++ f.name == group g.center ++ "/" ++ g.name) = false := by
        rw [beq_eq_false_iff_ne]
        intro e
        exact h.1 (loc_inj _ _ _ _ e ▸ List.mem_map_of_mem hf)
      rw [this]
      exact ih h.2 hf

/-- the attribute of a field -/
def theAttr (base : String) (f : Fld α) : Attr :=
  ⟨f.name, f.vector && f.comps != 1, f.center, "./" ++ base ++ ":" ++ (group f.center ++ "/" ++ f.name)⟩

theorem attrsOf_ok (base : String) (flds : List (Fld α)) (h : ∀ f ∈ flds, prod f.data.shape ≠ 1) :
    attrsOf base (flds.map fun f => (f.name, f)) = .ok (flds.map (theAttr base)) := by
  induction flds with
  | nil => rfl
  | cons f fs ih =>
    rw [List.map_cons, attrsOf, attrOf, if_neg (h f (by simp)), ih fun g hg => h g (by simp [hg])]
    rfl

theorem parseAttrs_ok (files : Files α) (arrs : List (List ℚ)) (t : ℚ) (as : List Attr) (ls : List (LFld α))
    (h : List.Forall₂ (fun a l => parseAttr files arrs t a = .ok l) as ls) : parseAttrs files arrs t as = .ok ls := by
  induction h with
  | nil => rfl
  | cons h _ ih => rw [parseAttrs, h, ih]

/-- what is written -/
def theFiles (base : String) (flds : List (Fld α)) (arrs : List (List ℚ)) (t : Option ℚ) : Files α :=
  ⟨["/crds/x", "/crds/y", "/crds/z"].zip arrs, flds.map fun f => (group f.center ++ "/" ++ f.name, T f.data), t,
    [("VX", "./" ++ base ++ ":/crds/x"), ("VY", "./" ++ base ++ ":/crds/y"), ("VZ", "./" ++ base ++ ":/crds/z")], flds.map (theAttr base)⟩

theorem save_ok (base : String) (f : Fld α) (fs : List (Fld α)) (hn : ((f :: fs).map Fld.name).Nodup) (h3 : f.crds.length ≤ 3)
    (h1 : ∀ g ∈ f :: fs, prod g.data.shape ≠ 1) : save base (toDict (f :: fs)) =
      .ok (theFiles base (f :: fs) (f.crds.map Prod.snd ++ List.replicate (3 - f.crds.length) [0]) f.time) := by
  rw [toDict_eq _ hn, List.map_cons]
  unfold save crdArrs
  simp only [if_neg (by omega : ¬ f.crds.length > 3)]
  have := attrsOf_ok base (f :: fs) h1
  rw [List.map_cons] at this
  rw [this]
  simp [theFiles]

theorem locOf_crd (base loc : String) (hb : ':' ∉ base.toList) (hl : ':' ∉ loc.toList) (he : ∃ c, loc.toList.getLast? = some c ∧ c ≠ ' ')
    (text : String) (ht : text = "./" ++ base ++ ":" ++ loc) : locOf text = .ok loc := ht ▸ locOf_ok base loc hb hl he

/-- the geometry -/
theorem geo_ok (base : String) (hb : ':' ∉ base.toList) (flds : List (Fld α)) (x y z : List ℚ) (t : Option ℚ) :
    parseGeometry (1 / 2 ^ 52) ⟨"3DRectMesh", none⟩ ⟨"VXVYVZ", (theFiles base flds [x, y, z] t).geo.map (itemOf (theFiles base flds [x, y, z] t))⟩ =
      .ok (.arrays [("x", x), ("y", y), ("z", z)]) := by
  have hx : locOf ("./" ++ base ++ ":/crds/x") = .ok "/crds/x" := locOf_crd base "/crds/x" hb (by decide) ⟨'x', by decide, by decide⟩ _ (by
    rw [String.append_assoc (s₁ := "./" ++ base)]; rfl)
  have hy : locOf ("./" ++ base ++ ":/crds/y") = .ok "/crds/y" := locOf_crd base "/crds/y" hb (by decide) ⟨'y', by decide, by decide⟩ _ (by
    rw [String.append_assoc (s₁ := "./" ++ base)]; rfl)
  have hz : locOf ("./" ++ base ++ ":/crds/z") = .ok "/crds/z" := locOf_crd base "/crds/z" hb (by decide) ⟨'z', by decide, by decide⟩ _ (by
    rw [String.append_assoc (s₁ := "./" ++ base)]; rfl)
  have : (theFiles base flds [x, y, z] t).geo.map (itemOf (theFiles base flds [x, y, z] t)) = [⟨some "VX", .ok x⟩, ⟨some "VY", .ok y⟩, ⟨some "VZ", .ok z⟩] := by
    simp only [theFiles, List.map_cons, List.map_nil, itemOf, hx, hy, hz]
    rfl
  rw [this]
  rfl

end Viscid.Hdf5

namespace Viscid.Props
open Viscid.Layout (Arr prod detect reshape ravel unravel trim)
open Viscid.Hdf5 Viscid.Spec.Hdf5

/-! ## C155 data in the order zyx -/

/-- C155: scalar fields, of which the file has the data with reversed axes; with `k` axes of a single point after the others. -/
theorem C155_scalar (s : List Nat) (k : Nat) (g : List Nat → α) :
    ∃ b, scalarData (s ++ List.replicate k 1) (T ⟨s, g⟩) = .ok b ∧ b.shape = s ++ List.replicate k 1 ∧
      ∀ idx, Inside idx s → b.get (idx ++ List.replicate k 0) = g idx := by
  obtain ⟨b, hb, hs, hg⟩ := reshape_get s (s ++ List.replicate k 1) g (by rw [prod_append, prod_ones, Nat.mul_one])
  refine ⟨b, ?_, hs, ?_⟩
  · unfold scalarData
    rw [T_T, hb]
    rfl
  · intro idx h
    exact hg _ _ h (inside_pad s idx k h) (ravel_pad s k idx h).symm

/-- C155: data with another number of values is a ValueError -/
theorem C155_mismatch (sshape : List Nat) (src : Arr α) (h : prod src.shape ≠ prod sshape) : scalarData sshape src = .error .value := by
  have hr : prod src.shape.reverse = prod src.shape := by
    have : ∀ l : List Nat, prod l.reverse = prod l := by
      intro l
      induction l with
      | nil => rfl
      | cons a l ih => rw [List.reverse_cons, prod_append, ih]; simp [prod, Nat.mul_comm]
    exact this _
  have h2 : ¬ src.shape.reverse = sshape := by
    rintro rfl
    exact h hr.symm
  unfold scalarData reshape
  simp [T, hr, h, h2, lift]

/-- C155: vector fields of one component are read as scalar fields. -/
theorem C155_single (s : List Nat) (k : Nat) (g : List Nat → α) :
    (∃ b, scalarData (s ++ List.replicate k 1) (T ⟨1 :: s, g⟩) = .ok b ∧ b.shape = s ++ List.replicate k 1 ∧
      ∀ idx, Inside idx s → b.get (idx ++ List.replicate k 0) = g (0 :: idx)) ∧
    ∃ b, scalarData (s ++ List.replicate k 1) (T ⟨s ++ [1], g⟩) = .ok b ∧ b.shape = s ++ List.replicate k 1 ∧
      ∀ idx, Inside idx s → b.get (idx ++ List.replicate k 0) = g (idx ++ [0]) := by
  have hp1 : prod (1 :: s) = prod s := by simp [prod]
  have hp2 : prod (s ++ [1]) = prod s := by rw [prod_append]; simp [prod]
  obtain ⟨b, hb, hs, hg⟩ := reshape_get (1 :: s) (s ++ List.replicate k 1) g (by rw [prod_append, prod_ones, Nat.mul_one, hp1])
  obtain ⟨b', hb', hs', hg'⟩ := reshape_get (s ++ [1]) (s ++ List.replicate k 1) g (by rw [prod_append s (List.replicate k 1), prod_ones, Nat.mul_one, hp2])
  refine ⟨⟨b, ?_, hs, ?_⟩, b', ?_, hs', ?_⟩
  · unfold scalarData
    rw [T_T, hb]
    rfl
  · intro idx h
    refine hg _ _ (.cons (by omega) h) (inside_pad s idx k h) ?_
    rw [ravel_pad s k idx h]
    simp [ravel]
  · unfold scalarData
    rw [T_T, hb']
    rfl
  · intro idx h
    refine hg' _ _ (inside_snoc _ _ _ _ h (by omega)) (inside_pad s idx k h) ?_
    rw [ravel_pad s k idx h]
    exact ravel_pad s 1 idx h

/-- C155: vector fields with the components last are read with the components first, and each component has its values. -/
theorem C155_interlaced (s : List Nat) (k n : Nat) (hn : 2 ≤ n) (g : List Nat → α) :
    ∃ b, vectorData (s ++ List.replicate k 1) (T ⟨s ++ [n], g⟩) = .ok (.flat, b) ∧ b.shape = n :: (s ++ List.replicate k 1) ∧
      ∀ c idx, c < n → Inside idx s → b.get (c :: (idx ++ List.replicate k 0)) = g (idx ++ [c]) := by
  have hT : (T ⟨s ++ [n], g⟩ : Arr α).shape = n :: s.reverse := by simp [T]
  have hd : detect (s ++ List.replicate k 1).reverse (T ⟨s ++ [n], g⟩ : Arr α).shape = .flat := by
    rw [hT, List.reverse_append, List.reverse_replicate]
    exact detect_pad_flat k n _ hn
  have hsp : spatialT 0 (T ⟨s ++ [n], g⟩ : Arr α) = .ok ⟨n :: s, fun idx => g (idx.tail ++ [idx.getD 0 0])⟩ := by
    unfold spatialT
    rw [hT]
    simp only [List.getElem?_cons_zero, List.eraseIdx_cons_zero, List.reverse_reverse, List.take_zero, List.drop_zero, List.nil_append]
    congr 1
    congr 1
    funext idx
    simp only [T]
    congr 1
    cases idx <;> simp
  obtain ⟨b, hb, hs, hg⟩ := reshape_get (n :: s) (n :: (s ++ List.replicate k 1)) (fun idx => g (idx.tail ++ [idx.getD 0 0])) (by
    show n * prod s = n * prod (s ++ List.replicate k 1)
    rw [prod_append, prod_ones, Nat.mul_one])
  refine ⟨b, ?_, hs, ?_⟩
  · unfold vectorData
    simp only [hd]
    rw [hT]
    simp only [List.head?_cons, if_pos (by omega : n > 0), hsp, List.take_zero, List.drop_zero, List.nil_append, hb, lift]
  · intro c idx hc h
    rw [hg (c :: idx) (c :: (idx ++ List.replicate k 0)) (.cons hc h) (.cons hc (inside_pad s idx k h))]
    · simp
    · exact (ravel_pad (n :: s) k (c :: idx) (.cons hc h)).symm

/-- C155: vector fields with the components first, with the full number of axes, unless all axes have as many points as there are components. -/
theorem C155_flat_partial (s : List Nat) (n : Nat) (hn : 2 ≤ n) (h : s ≠ List.replicate s.length n) (g : List Nat → α) :
    ∃ b, vectorData s (T ⟨n :: s, g⟩) = .ok (.interlaced, b) ∧ b.shape = s ++ [n] ∧
      ∀ c idx, c < n → Inside idx s → b.get (idx ++ [c]) = g (c :: idx) := by
  have hT : (T ⟨n :: s, g⟩ : Arr α).shape = s.reverse ++ [n] := by simp [T]
  have hd : detect s.reverse (T ⟨n :: s, g⟩ : Arr α).shape = .interlaced := by
    rw [hT]
    have := detect_pad_interlaced 0 n s.reverse hn
    simp only [List.replicate_zero, List.nil_append] at this
    rw [this, if_neg]
    intro e
    apply h
    have := congrArg List.reverse e
    simpa using this
  obtain ⟨a, hsp, hsh, hget⟩ : ∃ a, spatialT s.length (T ⟨n :: s, g⟩ : Arr α) = .ok a ∧ a.shape = s ++ [n] ∧
      ∀ c idx, idx.length = s.length → a.get (idx ++ [c]) = g (c :: idx) := by
    unfold spatialT
    rw [hT, List.getElem?_append_right (by simp)]
    simp only [List.length_reverse, Nat.sub_self, List.getElem?_cons_zero]
    refine ⟨_, rfl, ?_, ?_⟩
    · simp only
      rw [List.eraseIdx_append_of_length_le (by simp)]
      simp
    · intro c idx hl
      simp only [T]
      rw [List.eraseIdx_append_of_length_le (by omega)]
      simp only [← hl, List.reverse_append, List.reverse_cons]
      rw [List.drop_of_length_le (by simp), List.take_of_length_le (by simp)]
      simp
  obtain ⟨b, hb, hs, hg⟩ := reshape_get (s ++ [n]) (s ++ [n]) a.get rfl
  refine ⟨b, ?_, hs, ?_⟩
  · unfold vectorData
    simp only [hd]
    rw [hT]
    have ha : a = ⟨s ++ [n], a.get⟩ := by rw [← hsh]
    simp only [List.getLast?_append, List.getLast?_singleton, Option.some_or, if_pos (by omega : n > 0), hsp, List.take_length, List.drop_length]
    rw [ha, hb]
    rfl
  · intro c idx hc hi
    rw [hg (idx ++ [c]) (idx ++ [c]) (inside_snoc _ _ _ _ hi hc) (inside_snoc _ _ _ _ hi hc) rfl, hget c idx hi.length_eq]

/-- the hypotheses are met -/
example : ([4, 5, 6] : List Nat) ≠ List.replicate [4, 5, 6].length 3 ∧ Inside [3, 4, 5] [4, 5, 6] := by
  refine ⟨by decide, ?_⟩
  unfold Inside
  simp

/-- C155 is violated if all axes have as many points as there are components: components and axes of a vector field are mixed up. -/
theorem C155_cube_violated (n : Nat) (hn : 2 ≤ n) (g : List Nat → α) :
    ∃ b, vectorData [n, n, n] (T ⟨[n, n, n, n], g⟩) = .ok (.flat, b) ∧ ∀ c i j k, b.get [c, i, j, k] = g [i, j, k, c] := by
  have hT : (T ⟨[n, n, n, n], g⟩ : Arr α).shape = [n, n, n, n] := rfl
  have hd : detect [n, n, n].reverse (T ⟨[n, n, n, n], g⟩ : Arr α).shape = .flat := detect_pad_flat 0 n [n, n, n] hn
  refine ⟨⟨[n, n, n, n], fun idx => (T ⟨[n, n, n, n], g⟩ : Arr α).get (idx.getD 0 0 :: (idx.eraseIdx 0).reverse)⟩, ?_, ?_⟩
  · unfold vectorData
    simp only [hd]
    rw [hT]
    simp only [List.head?_cons, if_pos (by omega : n > 0), spatialT, hT]
    simp [reshape, lift]
  · intro c i j k
    rfl

/-- C155 is violated by vector fields with the components first and fewer axes than three: their data cannot be read. -/
theorem C155_plane_violated (s : List Nat) (k n : Nat) (hk : 0 < k) (hn : 2 ≤ n) (h : s ≠ List.replicate s.length n) (g : List Nat → α) :
    vectorData (s ++ List.replicate k 1) (T ⟨n :: s, g⟩) = .error .value := by
  have hT : (T ⟨n :: s, g⟩ : Arr α).shape = s.reverse ++ [n] := by simp [T]
  have hd : detect (s ++ List.replicate k 1).reverse (T ⟨n :: s, g⟩ : Arr α).shape = .interlaced := by
    rw [hT, List.reverse_append, List.reverse_replicate, detect_pad_interlaced k n s.reverse hn, if_neg]
    intro e
    apply h
    have := congrArg List.reverse e
    simpa using this
  have hsp : spatialT (s ++ List.replicate k 1).length (T ⟨n :: s, g⟩ : Arr α) = .error .value := by
    unfold spatialT
    rw [hT, List.getElem?_eq_none (by simp; omega)]
  unfold vectorData
  simp only [hd]
  rw [hT]
  simp only [List.getLast?_append, List.getLast?_singleton, Option.some_or, if_pos (by omega : n > 0), hsp]

/-! ## C156 saving and loading -/

theorem pad3 (crds : List (String × List ℚ)) (h : crds.length ≤ 3) :
    ∃ x y z, crds.map Prod.snd ++ List.replicate (3 - crds.length) [0] = [x, y, z] := by
  match crds, h with
  | [], _ => exact ⟨_, _, _, rfl⟩
  | [a], _ => exact ⟨_, _, _, rfl⟩
  | [a, b], _ => exact ⟨_, _, _, rfl⟩
  | [a, b, c], _ => exact ⟨_, _, _, rfl⟩
  | _ :: _ :: _ :: _ :: _, h => simp at h

theorem sshape_pad (f : Fld α) (k : Nat) : sshape f.center (f.crds.map Prod.snd ++ List.replicate k [0]) = grid f ++ List.replicate k 1 := by
  unfold sshape grid
  cases f.center <;> simp [points, cells, Function.comp_def]

theorem comps_shaped (f : Fld α) (n : Nat) (h : Shaped f n) (hv : f.vector = true) : f.comps = n := by
  unfold Shaped at h
  unfold Fld.comps
  rw [hv] at h ⊢
  simp only [if_true] at h ⊢
  rw [h]
  cases f.flat <;> simp

/-- one field -/
theorem parseAttr_same (base : String) (hb : ':' ∉ base.toList) (flds : List (Fld α)) (hn : (flds.map Fld.name).Nodup) (f : Fld α) (hf : f ∈ flds)
    (hs : Safe f.name) (t : ℚ) (n : Nat) (hsh : Shaped f n) (h0 : 0 < n)
    (hfl : f.vector = true → f.flat = true → n ≠ 1 → f.crds.length = 3 ∧ ∃ m ∈ grid f, m ≠ n) :
    ∃ l, parseAttr (theFiles base flds (f.crds.map Prod.snd ++ List.replicate (3 - f.crds.length) [0]) (some t))
        (f.crds.map Prod.snd ++ List.replicate (3 - f.crds.length) [0]) t (theAttr base f) = .ok l ∧ Same t f n l := by
  have hloc : locOf (theAttr base f).text = .ok (group f.center ++ "/" ++ f.name) := by
    apply locOf_ok base _ hb
    · simp only [String.toList_append, List.mem_append, not_or]
      exact ⟨⟨(group_chars f.center).1, by decide⟩, fun hc => hs.1 _ hc (by simp)⟩
    · obtain ⟨c, hc, hne⟩ := hs.2
      refine ⟨c, ?_, hne⟩
      rw [String.toList_append, List.getLast?_append, hc]
      rfl
  have hlen : f.crds.length = (grid f).length := by simp [grid]
  have hdata : f.data = ⟨f.data.shape, f.data.get⟩ := rfl
  have key : ∀ D : Except Exc (Layout.Layout × Arr α), (if (theAttr base f).vector then vectorData (grid f ++ List.replicate (3 - f.crds.length) 1) (T f.data)
        else match scalarData (grid f ++ List.replicate (3 - f.crds.length) 1) (T f.data) with
          | .error e => .error e
          | .ok b => .ok (.scalar, b)) = D →
      Same t f n ⟨f.name, f.center, f.vector && f.comps != 1, t, D⟩ := by
    intro D hD
    rcases Bool.eq_false_or_eq_true f.vector with hv | hv
    · have hc := comps_shaped f n hsh hv
      refine ⟨rfl, rfl, rfl, by simp [hv, hc], ?_⟩
      intro c idx hi hcn
      have hcn := hcn hv
      simp only [theAttr, hv, hc, Bool.true_and] at hD
      unfold Shaped at hsh
      simp only [hv, if_true] at hsh
      simp only [loadedValue, value, hv, hc, if_true, Bool.true_and]
      by_cases h1 : n = 1
      · subst h1
        have hc0 : c = 0 := by omega
        subst hc0
        simp only [bne_self_eq_false, Bool.false_eq_true, if_false] at hD ⊢
        obtain ⟨⟨b, e1, _, v1⟩, ⟨b', e2, _, v2⟩⟩ := C155_single (grid f) (3 - f.crds.length) f.data.get
        cases hfl' : f.flat <;> simp only [hfl', if_true, Bool.false_eq_true, if_false] at hsh ⊢
        · rw [hdata, hsh, e2] at hD
          subst hD
          simp only [v2 idx hi]
        · rw [hdata, hsh, e1] at hD
          subst hD
          simp only [v1 idx hi]
      · have hbne : (n != 1) = true := by simpa using h1
        simp only [hbne, if_true] at hD ⊢
        cases hfl' : f.flat <;> simp only [hfl', if_true, Bool.false_eq_true, if_false] at hsh ⊢
        · obtain ⟨b, e, _, v⟩ := C155_interlaced (grid f) (3 - f.crds.length) n (by omega) f.data.get
          rw [hdata, hsh, e] at hD
          subst hD
          simp only [v c idx hcn hi]
        · obtain ⟨h3, m, hm, hmn⟩ := hfl hv hfl' h1
          obtain ⟨b, e, _, v⟩ := C155_flat_partial (grid f) n (by omega) (fun e => hmn (List.eq_of_mem_replicate (e ▸ hm))) f.data.get
          rw [hdata, hsh, h3] at hD
          simp only [Nat.sub_self, List.replicate_zero, List.append_nil] at hD
          rw [e] at hD
          subst hD
          simp only [h3, Nat.sub_self, List.replicate_zero, List.append_nil, v c idx hcn hi]
    · refine ⟨rfl, rfl, rfl, by simp [hv], ?_⟩
      intro c idx hi _
      simp only [theAttr, hv, Bool.false_and, Bool.false_eq_true, if_false] at hD
      unfold Shaped at hsh
      simp only [hv, Bool.false_eq_true, if_false] at hsh
      simp only [loadedValue, value, hv, Bool.false_and, Bool.false_eq_true, if_false]
      obtain ⟨b, e, _, v⟩ := C155_scalar (grid f) (3 - f.crds.length) f.data.get
      rw [hdata, hsh, e] at hD
      subst hD
      simp only [v idx hi]
  refine ⟨_, ?_, key _ rfl⟩
  unfold parseAttr
  rw [hloc]
  simp only [theFiles, lookup_data flds hn f hf]
  rw [show (theAttr base f).center = f.center from rfl, sshape_pad]
  rfl

/-- C156: fields that are saved and loaded are the same fields again -/
theorem C156_round_trip_partial (base : String) (hb : ∀ c ∈ base.toList, c ∉ [':', '<', '&']) (crds : List (String × List ℚ)) (t : ℚ) (comps : Fld α → Nat)
    (flds : List (Fld α)) (h : Savable crds t comps flds) :
    ∃ (files : Files α) (L : Loaded α), save base (toDict flds) = .ok files ∧ load files = .ok L ∧
      L.crds = ["x", "y", "z"].zip (crds.map Prod.snd ++ List.replicate (3 - crds.length) [0]) ∧
      List.Forall₂ (fun f g => Same t f (comps f) g) flds L.flds := by
  obtain ⟨hne, hax, hnm, hsafe, hcr, htm, hsh, hpos, hsev, hflat⟩ := h
  have hb1 : ':' ∉ base.toList := fun e => hb _ e (by simp)
  obtain ⟨f, fs, rfl⟩ := List.exists_cons_of_ne_nil hne
  have hf := hcr f (by simp)
  have hsave := save_ok base f fs hnm (by rw [hf]; exact hax) hsev
  rw [hf, htm f (by simp)] at hsave
  obtain ⟨x, y, z, hxyz⟩ := pad3 crds hax
  have hall : ∀ l : List (Fld α), (∀ g ∈ l, g ∈ f :: fs) → ∃ ls : List (LFld α), List.Forall₂ (fun a g =>
      parseAttr (theFiles base (f :: fs) (crds.map Prod.snd ++ List.replicate (3 - crds.length) [0]) (some t))
        (crds.map Prod.snd ++ List.replicate (3 - crds.length) [0]) t a = .ok g) (l.map (theAttr base)) ls ∧
      List.Forall₂ (fun f g => Same t f (comps f) g) l ls := by
    intro l
    induction l with
    | nil => intro _; exact ⟨[], .nil, .nil⟩
    | cons g l ih =>
      intro hl
      obtain ⟨ls, h1, h2⟩ := ih fun x hx => hl x (by simp [hx])
      have hg := hl g (by simp)
      obtain ⟨a, ha, hs⟩ := parseAttr_same base hb1 (f :: fs) hnm g hg (hsafe g hg) t (comps g) (hsh g hg) (hpos g hg) (by rw [hcr g hg]; exact hflat g hg)
      rw [hcr g hg] at ha
      exact ⟨a :: ls, .cons ha h1, .cons hs h2⟩
  obtain ⟨ls, hp, hsame⟩ := hall (f :: fs) fun _ h => h
  have hbad : (theFiles base (f :: fs) (crds.map Prod.snd ++ List.replicate (3 - crds.length) [0]) (some t)).attrs.any
      (fun a => badName a.name || badText a.text) = false := by
    rw [List.any_eq_false]
    intro a ha
    simp only [theFiles, List.mem_map] at ha
    obtain ⟨g, hg, rfl⟩ := ha
    have hs := (hsafe g hg).1
    simp only [badName, badText, theAttr, Bool.or_eq_true, not_or, Bool.not_eq_true, List.any_eq_false, decide_eq_true_eq]
    refine ⟨fun c hc => ?_, fun c hc => ?_⟩
    · have := hs c hc
      simp only [List.mem_cons, not_or] at this
      exact ⟨⟨this.1, this.2.1⟩, this.2.2.1⟩
    · simp only [String.toList_append, List.mem_append] at hc
      have hno : ∀ d, d ∉ [':', '<', '&'] → d ≠ '<' ∧ d ≠ '&' := by
        intro d hd
        simp only [List.mem_cons, not_or] at hd
        exact ⟨hd.2.1, hd.2.2.1⟩
      have hno' : ∀ d, d ∉ ['<', '&', '"', ':'] → d ≠ '<' ∧ d ≠ '&' := by
        intro d hd
        simp only [List.mem_cons, not_or] at hd
        exact ⟨hd.1, hd.2.1⟩
      rcases hc with ((hc | hc) | hc) | ((hc | hc) | hc)
      · simp at hc; rcases hc with rfl | rfl <;> decide
      · exact hno c (hb c hc)
      · simp at hc; subst hc; decide
      · exact hno' c ((group_chars g.center).2 c hc)
      · simp at hc; subst hc; decide
      · exact hno' c (hs c hc)
  refine ⟨_, ⟨["x", "y", "z"].zip (crds.map Prod.snd ++ List.replicate (3 - crds.length) [0]), ls⟩, hsave, ?_, rfl, hsame⟩
  have hgeo := geo_ok base hb1 (f :: fs) x y z (some t)
  unfold load
  simp only [hbad, Bool.false_eq_true, if_false]
  rw [show (theFiles base (f :: fs) (crds.map Prod.snd ++ List.replicate (3 - crds.length) [0]) (some t)).time = some t from rfl]
  simp only [hxyz] at hp ⊢
  rw [hgeo]
  simp only [List.map_cons, List.map_nil]
  rw [show (theFiles base (f :: fs) [x, y, z] (some t)).attrs = (f :: fs).map (theAttr base) from rfl, parseAttrs_ok _ _ _ _ _ hp]
  rfl

/-- two fields of a plane, one a vector field -/
example : Savable [("x", [0, 1, 3]), ("y", [0, 2])] 5 (fun f => if f.vector then 2 else 1)
    [(⟨"pp", .node, false, false, [("x", [0, 1, 3]), ("y", [0, 2])], some 5, ⟨[3, 2], fun i => i.sum⟩⟩ : Fld Nat),
     ⟨"b", .cell, true, false, [("x", [0, 1, 3]), ("y", [0, 2])], some 5, ⟨[2, 1, 2], fun i => i.length⟩⟩] := by
  refine ⟨by simp, by simp, by simp, ?_, by simp, by simp, ?_, by simp, by simp, by simp⟩
  · simp [Safe]
  · simp [Shaped, grid, points]

/-- C156: nothing to save is an AssertionError -/
theorem C156_empty (base : String) : save (α := α) base (toDict []) = .error .assertion := rfl

/-- C156: a field of more than three axes is an IndexError -/
theorem C156_axes_violated (base : String) (f : Fld α) (fs : List (Fld α)) (h : ((f :: fs).map Fld.name).Nodup) (h3 : 3 < f.crds.length) :
    save base (toDict (f :: fs)) = .error .index := by
  rw [toDict_eq _ h]
  unfold save crdArrs
  simp [h3]

/-- C156: a field with only one value can not be saved -/
theorem C156_single_violated (base : String) (f : Fld α) (fs : List (Fld α)) (h : ((f :: fs).map Fld.name).Nodup) (h3 : f.crds.length ≤ 3)
    (g : Fld α) (hg : g ∈ f :: fs) (h1 : g.data.shape.foldr (· * ·) 1 = 1) : save base (toDict (f :: fs)) = .error .attribute := by
  have key : ∀ l : List (Fld α), g ∈ l → attrsOf base (l.map fun f => (f.name, f)) = .error .attribute := by
    intro l
    induction l with
    | nil => intro h; cases h
    | cons a l ih =>
      intro hm
      rw [List.map_cons, attrsOf, attrOf]
      by_cases ha : prod a.data.shape = 1
      · simp [ha]
      · rcases List.mem_cons.1 hm with rfl | hm
        · exact absurd h1 ha
        · simp [ha, ih hm]
  have := key _ hg
  rw [toDict_eq _ h]
  rw [List.map_cons] at this ⊢
  unfold save crdArrs
  simp only [if_neg (by omega : ¬ f.crds.length > 3)]
  rw [this]

/-- C156: of fields with the same name only the last is saved -/
theorem C156_duplicate_violated (f g : Fld α) (h : f.name = g.name) : toDict [f, g] = [(f.name, g)] := by
  simp [toDict, Dict.set, h]

/-- C156: without a time the file can not be loaded; names with characters of XML are a parse error, whatever the time -/
theorem C156_time_violated (base : String) (f : Fld α) (fs : List (Fld α)) (h : ((f :: fs).map Fld.name).Nodup) (ht : f.time = none)
    (files : Files α) (hs : save base (toDict (f :: fs)) = .ok files) : load files = .error .value ∨ load files = .error .parse := by
  have : files.time = none := by
    rw [toDict_eq _ h, List.map_cons] at hs
    unfold save at hs
    split at hs
    · cases hs
    · rename_i e
      cases e
      split at hs
      · cases hs
      · split at hs
        · cases hs
        · cases hs
          exact ht
  unfold load
  split
  · exact .inr rfl
  · rw [this]; exact .inl rfl

/-- C156: one field with characters of XML in its name and no field can be loaded -/
theorem C156_xml_violated (base : String) (flds : List (Fld α)) (h : (flds.map Fld.name).Nodup) (g : Fld α) (hg : g ∈ flds)
    (c : Char) (hc : c ∈ g.name.toList) (hx : c ∈ ['<', '&', '"']) (files : Files α) (hs : save base (toDict flds) = .ok files) :
    load files = .error .parse := by
  have key : ∀ (l : List (Fld α)) as, attrsOf base (l.map fun f => (f.name, f)) = .ok as → g ∈ l → ∃ a ∈ as, a.name = g.name := by
    intro l
    induction l with
    | nil => intro _ _ h; cases h
    | cons a l ih =>
      intro as ha hm
      rw [List.map_cons, attrsOf, attrOf] at ha
      split at ha
      · cases ha
      · rename_i b hb
        split at ha
        · cases ha
        · rename_i bs hbs
          cases ha
          rcases List.mem_cons.1 hm with rfl | hm
          · split at hb
            · cases hb
            · cases hb; exact ⟨_, List.mem_cons_self, rfl⟩
          · obtain ⟨x, hx, e⟩ := ih _ hbs hm
            exact ⟨x, by simp [hx], e⟩
  have : ∃ a ∈ files.attrs, a.name = g.name := by
    rw [toDict_eq _ h] at hs
    unfold save at hs
    split at hs
    · cases hs
    · rename_i e
      split at hs
      · cases hs
      · split at hs
        · cases hs
        · rename_i as has
          cases hs
          exact key _ _ has hg
  obtain ⟨a, ha, hn⟩ := this
  unfold load
  rw [if_pos]
  rw [List.any_eq_true]
  refine ⟨a, ha, ?_⟩
  rw [Bool.or_eq_true]
  left
  unfold badName
  rw [List.any_eq_true]
  refine ⟨c, hn ▸ hc, ?_⟩
  simp at hx
  rcases hx with rfl | rfl | rfl <;> rfl

/-- C156: only the coordinates and the time of the first field are saved: every field that is loaded has them, and the axes are x, y and z -/
theorem C156_first_violated (base : String) (f : Fld α) (fs : List (Fld α)) (h : ((f :: fs).map Fld.name).Nodup) (hb : ':' ∉ base.toList)
    (files : Files α) (L : Loaded α) (hs : save base (toDict (f :: fs)) = .ok files) (hl : load files = .ok L) :
    L.crds = ["x", "y", "z"].zip (f.crds.map Prod.snd ++ List.replicate (3 - f.crds.length) [0]) ∧ ∀ g ∈ L.flds, some g.time = f.time := by
  have h3 : f.crds.length ≤ 3 := by
    by_contra h3
    rw [C156_axes_violated base f fs h (by omega)] at hs
    cases hs
  have h1 : ∀ g ∈ f :: fs, prod g.data.shape ≠ 1 := by
    intro g hg h1
    rw [C156_single_violated base f fs h h3 g hg h1] at hs
    cases hs
  rw [save_ok base f fs h h3 h1] at hs
  cases hs
  obtain ⟨x, y, z, hxyz⟩ := pad3 f.crds h3
  rw [hxyz] at hl ⊢
  unfold load at hl
  split at hl
  · cases hl
  · split at hl
    · cases hl
    · rename_i t ht
      rw [geo_ok base hb] at hl
      simp only [List.map_cons, List.map_nil] at hl
      split at hl
      · cases hl
      · rename_i ls hls
        cases hl
        refine ⟨rfl, ?_⟩
        have key : ∀ (as : List Attr) (ls : List (LFld α)), parseAttrs (theFiles base (f :: fs) [x, y, z] f.time) [x, y, z] t as = .ok ls → ∀ g ∈ ls, g.time = t := by
          intro as
          induction as with
          | nil => intro ls h g hg; cases h; cases hg
          | cons a as ih =>
            intro ls h g hg
            rw [parseAttrs] at h
            split at h
            · cases h
            · rename_i l hl
              split at h
              · cases h
              · rename_i ls' hls'
                cases h
                rcases List.mem_cons.1 hg with rfl | hg
                · unfold parseAttr at hl
                  split at hl
                  · cases hl
                  · cases hl; rfl
                · exact ih _ hls' g hg
        intro g hg
        rw [key _ _ hls g hg]
        exact ht.symm

theorem splitColon_ne (A : List Char) : splitColon A ≠ [] := by
  cases A with
  | nil => simp [splitColon]
  | cons c A =>
    unfold splitColon
    split
    · simp
    · split <;> simp

theorem splitColon_two (A : List Char) (h : ':' ∈ A) : 2 ≤ (splitColon A).length := by
  induction A with
  | nil => cases h
  | cons c A ih =>
    unfold splitColon
    split
    · have := List.length_pos_iff.2 (splitColon_ne A)
      simp; omega
    · rename_i hc
      have := ih ((List.mem_cons.1 h).resolve_left fun e => hc e.symm)
      split
      · rename_i e; rw [e] at this; simp at this
      · rename_i e; rw [e] at this; simpa using this

/-- `str.strip()` of a text that begins with no blank -/
theorem strip_prefix (A B : List Char) (hA : A.head? ≠ some ' ') (hne : A ≠ []) (hl : A.getLast? ≠ some ' ') : ∃ B', strip (A ++ B) = A ++ B' ∧
    B' = (B.reverse.dropWhile (· = ' ')).reverse := by
  refine ⟨_, ?_, rfl⟩
  have h1 : (A ++ B).dropWhile (· = ' ') = A ++ B := by
    cases A with
    | nil => exact absurd rfl hne
    | cons a A =>
      simp only [List.head?_cons, ne_eq, Option.some.injEq] at hA
      simp [hA]
  unfold strip
  rw [h1, List.reverse_append, List.dropWhile_append]
  split
  · rename_i he
    rw [List.isEmpty_iff] at he
    rw [he]
    simp only [List.reverse_nil, List.append_nil]
    have : A.reverse.dropWhile (· = ' ') = A.reverse := by
      rcases hr : A.reverse with _ | ⟨a, R⟩
      · rfl
      · have : A.getLast? = some a := by rw [← List.head?_reverse, hr]; rfl
        rw [this] at hl
        simp only [ne_eq, Option.some.injEq] at hl
        simp [hl]
    rw [this, List.reverse_reverse]
  · rw [List.reverse_append, List.reverse_reverse]

theorem text_chars (base loc : String) : ("./" ++ base ++ ":" ++ loc).toList = ('.' :: '/' :: base.toList ++ [':']) ++ loc.toList := by
  simp [String.toList_append]

/-- C156: with a colon in a name the file can not be loaded -/
theorem C156_colon_violated (base : String) (f : Fld α) (h1 : f.data.shape.foldr (· * ·) 1 ≠ 1) (h3 : f.crds.length ≤ 3) (hb : ':' ∉ base.toList)
    (hc : ':' ∈ f.name.toList) : ∃ files, save base (toDict [f]) = .ok files ∧ ∃ e, load files = .error e ∧ (e = .value ∨ e = .parse) := by
  have hsave := save_ok base f [] (by simp) h3 (fun g hg => by rw [List.mem_singleton] at hg; subst hg; exact h1)
  refine ⟨_, hsave, ?_⟩
  obtain ⟨x, y, z, hxyz⟩ := pad3 f.crds h3
  have hloc : locOf (theAttr base f).text = .error .value := by
    unfold locOf theAttr
    simp only
    rw [text_chars]
    obtain ⟨B, hB, hB'⟩ := strip_prefix ('.' :: '/' :: base.toList ++ [':']) (group f.center ++ "/" ++ f.name).toList (by simp) (by simp) (by
      rw [List.getLast?_append]; simp)
    rw [hB, List.append_assoc, List.singleton_append, splitColon_append _ _ (by simp [hb])]
    have hm : ':' ∈ B := by
      rw [hB', List.mem_reverse]
      have dw : ∀ B : List Char, ':' ∈ B → ':' ∈ B.dropWhile (· = ' ') := by
        intro B
        induction B with
        | nil => intro h; cases h
        | cons b B ih =>
          intro h
          rw [List.dropWhile_cons]
          split
          · rename_i hb
            simp only [decide_eq_true_eq] at hb
            exact ih ((List.mem_cons.1 h).resolve_left fun e => by subst hb; exact absurd e (by decide))
          · exact h
      apply dw
      rw [List.mem_reverse, String.toList_append]
      exact List.mem_append_right _ hc
    have := splitColon_two B hm
    rcases hs : splitColon B with _ | ⟨a, _ | ⟨b, l⟩⟩
    · simp [hs] at this
    · simp [hs] at this
    · rfl
  rw [hxyz]
  unfold load
  split
  · exact ⟨_, rfl, .inr rfl⟩
  · split
    · exact ⟨_, rfl, .inl rfl⟩
    · rw [geo_ok base hb]
      simp only [List.map_cons, List.map_nil, theFiles, parseAttrs, parseAttr, hloc]
      exact ⟨_, rfl, .inl rfl⟩

/-- C156: the data of a field whose name ends with a blank is not found -/
theorem C156_blank_violated (base : String) (f : Fld α) (t : ℚ) (ht : f.time = some t) (h1 : f.data.shape.foldr (· * ·) 1 ≠ 1) (h3 : f.crds.length ≤ 3)
    (hb : ':' ∉ base.toList) (hc : ':' ∉ f.name.toList) (hl : f.name.toList.getLast? = some ' ') :
    ∃ files, save base (toDict [f]) = .ok files ∧ ∀ L, load files = .ok L → ∃ g, L.flds = [g] ∧ g.data = .error .key := by
  have hsave := save_ok base f [] (by simp) h3 (fun g hg => by rw [List.mem_singleton] at hg; subst hg; exact h1)
  refine ⟨_, hsave, ?_⟩
  obtain ⟨x, y, z, hxyz⟩ := pad3 f.crds h3
  obtain ⟨loc, hloc, hne⟩ : ∃ loc, locOf (theAttr base f).text = .ok loc ∧ loc ≠ group f.center ++ "/" ++ f.name := by
    unfold locOf theAttr
    simp only
    rw [text_chars]
    obtain ⟨B, hB, hB'⟩ := strip_prefix ('.' :: '/' :: base.toList ++ [':']) (group f.center ++ "/" ++ f.name).toList (by simp) (by simp) (by
      rw [List.getLast?_append]; simp)
    rw [hB, List.append_assoc, List.singleton_append, splitColon_append _ _ (by simp [hb])]
    have hm : ':' ∉ B := by
      rw [hB', List.mem_reverse]
      intro hm
      have := (List.dropWhile_sublist _).subset hm
      rw [List.mem_reverse, String.toList_append, String.toList_append] at this
      simp only [List.mem_append] at this
      rcases this with (h | h) | h
      · exact (group_chars f.center).1 h
      · exact absurd h (by decide)
      · exact hc h
    rw [splitColon_none _ hm]
    refine ⟨_, rfl, ?_⟩
    intro e
    have e' := congrArg (fun s => s.toList.getLast?) e
    simp only [String.toList_ofList, String.toList_append, List.getLast?_append, hl, Option.some_or] at e'
    rw [hB', List.getLast?_reverse] at e'
    have := List.head?_dropWhile_not (fun c : Char => decide (c = ' ')) (group f.center ++ "/" ++ f.name).toList.reverse
    rw [e'] at this
    simp at this
  rw [hxyz, ht]
  intro L hL
  unfold load at hL
  split at hL
  · cases hL
  · rw [geo_ok base hb] at hL
    simp only [theFiles, List.map_cons, List.map_nil, parseAttrs, parseAttr, hloc] at hL
    cases hL
    refine ⟨_, rfl, ?_⟩
    simp only [List.lookup_cons, beq_eq_false_iff_ne.2 hne]
    rfl

end Viscid.Props
