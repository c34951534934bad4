import Verif.Spec.Dims
import Verif.Props.ArithReduce
/-!
# C164: fields with at least three axes
-/
namespace Viscid.Props
open Viscid.Dims
open Viscid.Arith (Fld Exc Ret wrapOn lift)
open Viscid.Spec.Arith (points Within Scalar Flat Interlaced)
open Viscid.Spec.Dims (Same)
open Viscid.Layout (Arr prod reshape ravel unravel detect trim)
open Viscid.Hdf5 (Center)

theorem same_refl (l : List (String × List ℚ)) : ∀ q, Within (points l) q → Same l l q q := by
  induction l with
  | nil => intro q h; cases h; exact .nil
  | cons a l ih =>
    intro q h
    cases h with
    | cons h1 h2 => exact .keep a _ (ih _ h2)

theorem sameGrown_trans {m k : List (String × List ℚ)} {q r : List Nat} (h2 : Same m k q r) :
    ∀ {l p}, Same l m p q → Same l k p r := by
  induction h2 with
  | nil => intro l p h; exact h
  | keep a i h ih =>
    intro l p h1
    cases h1 with
    | keep _ _ h' => exact .keep a i (ih h')
    | add s x h' => exact .add s x (ih h')
  | add s x h ih => intro l p h1; exact .add s x (ih h1)

theorem prod_append' (a b : List Nat) : prod (a ++ b) = prod a * prod b := by
  induction a with
  | nil => simp [prod]
  | cons n a ih =>
    rw [List.cons_append]
    show n * prod (a ++ b) = n * prod a * prod b
    rw [ih, Nat.mul_assoc]

/-- `m` is `l` with axes of one point put in -/
structure Grown (l m : List (String × List ℚ)) : Prop where
  prod : prod (points m) = prod (points l)
  point : ∀ q, Within (points m) q → ∃ p, Within (points l) p ∧ Same l m p q
  sub : l.Sublist m
  big : (points m).filter (· ≠ 1) = (points l).filter (· ≠ 1)

theorem grown_refl (l : List (String × List ℚ)) : Grown l l := ⟨rfl, fun q h => ⟨q, h, same_refl l q h⟩, List.Sublist.refl _, rfl⟩

theorem grown_trans {l m k : List (String × List ℚ)} (h1 : Grown l m) (h2 : Grown m k) : Grown l k := by
  refine ⟨h2.prod.trans h1.prod, fun r hr => ?_, h1.sub.trans h2.sub, h2.big.trans h1.big⟩
  obtain ⟨q, hq, hs⟩ := h2.point r hr
  obtain ⟨p, hp, hs'⟩ := h1.point q hq
  exact ⟨p, hp, sameGrown_trans hs hs'⟩

theorem grown_insert (s : String) (x : ℚ) : ∀ (l : List (String × List ℚ)) (i : Nat), Grown l (pyInsert l i (s, [x]))
  | l, 0 => by
    refine ⟨?_, ?_, ?_, ?_⟩
    · show 1 * Layout.prod (points l) = _
      rw [Nat.one_mul]
    · intro q h
      cases h with
      | cons h1 h2 =>
        rename_i j q
        have : j = 0 := by simpa using h1
        subst this
        exact ⟨q, h2, .add s x (same_refl l q h2)⟩
    · exact List.Sublist.cons _ (List.Sublist.refl _)
    · simp [pyInsert, points]
  | [], i + 1 => by
    have : pyInsert ([] : List (String × List ℚ)) (i + 1) (s, [x]) = pyInsert [] 0 (s, [x]) := by simp [pyInsert]
    rw [this]
    exact grown_insert s x [] 0
  | a :: l, i + 1 => by
    have ih := grown_insert s x l i
    have e : pyInsert (a :: l) (i + 1) (s, [x]) = a :: pyInsert l i (s, [x]) := by simp [pyInsert]
    rw [e]
    refine ⟨?_, ?_, List.Sublist.cons_cons a ih.sub, ?_⟩
    · show a.2.length * Layout.prod (points (pyInsert l i (s, [x]))) = a.2.length * Layout.prod (points l)
      rw [ih.prod]
    · intro q h
      cases h with
      | cons h1 h2 =>
        obtain ⟨p, hp, hs⟩ := ih.point _ h2
        exact ⟨_, List.Forall₂.cons h1 hp, .keep a _ hs⟩
    · have := ih.big
      simp only [points, List.map_cons, List.filter_cons] at this ⊢
      rw [this]

theorem grown_fold (x : ℚ) : ∀ (as : List (Nat × String)) (l : List (String × List ℚ)),
    Grown l (as.foldl (fun l a => pyInsert l a.1 (a.2, [x])) l)
  | [], l => grown_refl l
  | a :: as, l => grown_trans (grown_insert a.2 x l a.1) (grown_fold x as _)

theorem grown_atleast (axes : List (String × List ℚ)) (x : ℚ) : Grown axes (crdsAtleast3d axes [x]) := by
  unfold crdsAtleast3d
  split
  · exact grown_refl _
  · exact grown_fold x _ _

theorem same_ravel {l m : List (String × List ℚ)} {p q : List Nat} (h : Same l m p q) :
    prod (points m) = prod (points l) ∧ ravel (points m) q = ravel (points l) p := by
  induction h with
  | nil => exact ⟨rfl, rfl⟩
  | keep a i h ih =>
    refine ⟨?_, ?_⟩
    · show _ * prod (points _) = _ * prod (points _)
      rw [ih.1]
    · show i * prod (points _) + ravel (points _) _ = i * prod (points _) + ravel (points _) _
      rw [ih.1, ih.2]
  | add s x h ih =>
    refine ⟨?_, ?_⟩
    · show 1 * prod (points _) = _
      rw [ih.1, Nat.one_mul]
    · show 0 * prod (points _) + ravel (points _) _ = _
      rw [ih.2, Nat.zero_mul, Nat.zero_add]

theorem pyInsert_perm (l : List β) (i : Nat) (x : β) : (pyInsert l i x).Perm (x :: l) := by
  unfold pyInsert
  refine List.perm_middle.trans ?_
  rw [List.take_append_drop]

theorem fold_perm (x : β) : ∀ (as : List (Nat × String)) (l : List (String × β)),
    ((as.foldl (fun l a => pyInsert l a.1 (a.2, x)) l)).Perm (as.map (fun a => (a.2, x)) ++ l)
  | [], l => List.Perm.refl _
  | a :: as, l => by
    refine (fold_perm x as _).trans ?_
    refine (List.Perm.append_left _ (pyInsert_perm l a.1 (a.2, x))).trans ?_
    exact List.perm_middle

theorem newAxes_facts (c : List String) (h : c.length < 3) :
    (newAxes c).length = 3 - c.length ∧ ((newAxes c).map Prod.snd).Nodup ∧
    ∀ a ∈ newAxes c, (a.2 ∈ ["x", "y", "z"] ∧ a.2 ∉ c) ∨ (a.2 ∈ ["fill_a", "fill_b", "fill_c"] ∧ "x" ∉ c ∧ "y" ∉ c ∧ "z" ∉ c) := by
  match c, h with
  | [], _ => simp [newAxes]
  | [a], _ =>
    by_cases ha : a = "x"
    · subst ha; simp [newAxes]
    by_cases hb : a = "y"
    · subst hb; simp [newAxes]
    by_cases hc : a = "z"
    · subst hc; simp [newAxes]
    have ha' : ¬ "x" = a := fun e => ha e.symm
    have hb' : ¬ "y" = a := fun e => hb e.symm
    have hc' : ¬ "z" = a := fun e => hc e.symm
    simp [newAxes, ha', hb', hc']
  | [a, b], _ =>
    by_cases ha : a = "x"
    · subst ha
      by_cases hb : b = "y"
      · subst hb; simp [newAxes]
      have hb' : ¬ "y" = b := fun e => hb e.symm
      simp [newAxes, hb']
    by_cases hb : a = "y"
    · subst hb
      by_cases hb : b = "x"
      · subst hb; simp [newAxes]
      have hb' : ¬ "x" = b := fun e => hb e.symm
      simp [newAxes, hb']
    by_cases hc : a = "z"
    · subst hc
      by_cases hb : b = "x"
      · subst hb; simp [newAxes]
      have hb' : ¬ "x" = b := fun e => hb e.symm
      simp [newAxes, hb']
    have ha' : ¬ "x" = a := fun e => ha e.symm
    have hb' : ¬ "y" = a := fun e => hb e.symm
    have hc' : ¬ "z" = a := fun e => hc e.symm
    by_cases hx : b = "x"
    · subst hx; simp [newAxes, hb']
    by_cases hy : b = "y"
    · subst hy; simp [newAxes, ha']
    by_cases hz : b = "z"
    · subst hz; simp [newAxes, ha']
    have hx' : ¬ "x" = b := fun e => hx e.symm
    have hy' : ¬ "y" = b := fun e => hy e.symm
    have hz' : ¬ "z" = b := fun e => hz e.symm
    simp [newAxes, ha', hb', hc', hx', hy', hz']
  | _ :: _ :: _ :: _, h => simp at h; omega

/-- C164, the axes: there are three afterwards, unless there were more; the axes there were come in the same order; the others have one point, halfway
    between `xl` and `xh`, and new names. -/
theorem C164_axes_partial (axes : List (String × β)) (x0 : β) (h : axes.length < 3)
    (hf : ∀ s ∈ ["fill_a", "fill_b", "fill_c"], s ∉ axes.map Prod.fst) :
    (crdsAtleast3d axes x0).length = 3 ∧
    (∀ a ∈ crdsAtleast3d axes x0, a ∈ axes ∨ (a.2 = x0 ∧ a.1 ∉ axes.map Prod.fst)) ∧
    ((axes.map Prod.fst).Nodup → ((crdsAtleast3d axes x0).map Prod.fst).Nodup) := by
  obtain ⟨h1, h2, h3⟩ := newAxes_facts (axes.map Prod.fst) (by simpa using h)
  have hp : (crdsAtleast3d axes x0).Perm ((newAxes (axes.map Prod.fst)).map (fun a => (a.2, x0)) ++ axes) := by
    unfold crdsAtleast3d
    rw [if_neg (by omega)]
    exact fold_perm x0 _ _
  have hfresh : ∀ a ∈ newAxes (axes.map Prod.fst), a.2 ∉ axes.map Prod.fst := by
    intro a ha
    rcases h3 a ha with h | h
    · exact h.2
    · exact hf _ h.1
  refine ⟨?_, ?_, ?_⟩
  · rw [hp.length_eq, List.length_append, List.length_map, h1, List.length_map]; omega
  · intro a ha
    have := hp.mem_iff.mp ha
    simp only [List.mem_append, List.mem_map] at this
    rcases this with ⟨b, hb, rfl⟩ | h
    · exact Or.inr ⟨rfl, hfresh b hb⟩
    · exact Or.inl h
  · intro hn
    rw [(hp.map Prod.fst).nodup_iff, List.map_append, List.map_map]
    refine List.nodup_append.mpr ⟨h2, hn, ?_⟩
    intro s hs t ht e
    subst e
    simp only [List.mem_map, Function.comp] at hs
    obtain ⟨b, hb, rfl⟩ := hs
    exact hfresh b hb ht

/-- C164, names: if the axes are some of x, y and z, in this order, then they are x, y and z afterwards. -/
theorem C164_xyz (axes : List (String × β)) (x0 : β) (hs : (axes.map Prod.fst).Sublist ["x", "y", "z"]) (hne : axes ≠ []) :
    (crdsAtleast3d axes x0).map Prod.fst = ["x", "y", "z"] := by
  by_cases h3 : 3 ≤ axes.length
  · have : axes.map Prod.fst = ["x", "y", "z"] := hs.eq_of_length_le (by simpa using h3)
    unfold crdsAtleast3d
    rw [if_pos h3, this]
  match axes, h3, hne with
  | [], _, hne => exact absurd rfl hne
  | [(a, b)], _, _ =>
    have : a ∈ ["x", "y", "z"] := hs.subset (by simp)
    simp only [List.mem_cons, List.not_mem_nil, or_false] at this
    rcases this with rfl | rfl | rfl <;> simp [crdsAtleast3d, newAxes, pyInsert]
  | [(a, b), (c, d)], _, _ =>
    have ha : a ∈ ["x", "y", "z"] := hs.subset (by simp)
    have hc : c ∈ ["x", "y", "z"] := hs.subset (by simp)
    simp only [List.mem_cons, List.not_mem_nil, or_false] at ha hc
    have hs' : [a, c].Sublist ["x", "y", "z"] := hs
    rcases ha with rfl | rfl | rfl <;> rcases hc with rfl | rfl | rfl <;>
      first
      | (exact absurd hs' (by decide))
      | simp [crdsAtleast3d, newAxes, pyInsert]
  | _ :: _ :: _ :: _, h3, _ => exact absurd (by simp) h3

theorem reshape_get (d : Arr α) (shape : List Nat) (hp : prod d.shape = prod shape) :
    ∃ r, reshape d shape = .ok r ∧ r.shape = shape ∧
      ∀ p q, Within d.shape p → Within shape q → ravel shape q = ravel d.shape p → r.get q = d.get p := by
  unfold reshape
  by_cases h : d.shape = shape
  · rw [if_pos h]
    refine ⟨d, rfl, h, fun p q hp' hq hr => ?_⟩
    rw [← h] at hq hr
    have : q = p := by rw [← Hdf5.unravel_ravel _ q hq, hr, Hdf5.unravel_ravel _ p hp']
    rw [this]
  · rw [if_neg h, if_pos hp]
    refine ⟨_, rfl, rfl, fun p q hp' hq hr => ?_⟩
    show d.get (unravel d.shape (ravel shape q)) = _
    rw [hr, Hdf5.unravel_ravel _ p hp']

theorem atleast_length (axes : List (String × β)) (x0 : β) (h : axes.length < 3) : (crdsAtleast3d axes x0).length = 3 := by
  obtain ⟨h1, -, -⟩ := newAxes_facts (axes.map Prod.fst) (by simpa using h)
  unfold crdsAtleast3d
  rw [if_neg (by omega), (fold_perm x0 _ _).length_eq, List.length_append, List.length_map, h1, List.length_map]
  omega

theorem same_within {l m : List (String × List ℚ)} {p q : List Nat} (h : Same l m p q) : Within (points l) p → Within (points m) q := by
  induction h with
  | nil => exact id
  | keep a i h ih =>
    intro hw
    cases hw with
    | cons h1 h2 => exact List.Forall₂.cons h1 (ih h2)
  | add s x h ih => intro hw; exact List.Forall₂.cons (by simp) (ih hw)

/-- The values of `r` are those of `v` at the same points. -/
theorem middle_eq (xl xh : ℚ) : middle xl xh = (xl + xh) / 2 := by unfold middle; ring

/-- C164, scalar fields: the value at each point is that of the field, at the same place; if the data has been read, or if the source is stored as the data
    is shown. -/
theorem C164_scalar_partial (f : Lazy α) (v : List Nat → α) (hv : Scalar f.fld v) (h3 : f.fld.axes.length < 3) (h1 : prod (points f.fld.axes) ≠ 1)
    (hl : f.loaded = true ∨ (f.raw.shape = points f.fld.axes ∧ ∀ p, Within (points f.fld.axes) p → f.raw.get p = v p)) (xl xh : ℚ) :
    ∃ r u, f.atleast3d xl xh = .ok (.field r) ∧ r.axes = crdsAtleast3d f.fld.axes [(xl + xh) / 2] ∧ r.center = f.fld.center ∧ Scalar r u ∧
      (∀ q, Within (points r.axes) q → ∃ p, Within (points f.fld.axes) p ∧ Same f.fld.axes r.axes p q) ∧
      ∀ p q, Within (points f.fld.axes) p → Same f.fld.axes r.axes p q → u q = v p := by
  obtain ⟨g, raw, loaded⟩ := f
  obtain ⟨hvec, d, hd, hds, hdv⟩ := hv
  simp only at hvec hd hds hdv h3 h1 hl ⊢
  obtain ⟨axes, hax⟩ : ∃ axes, axes = crdsAtleast3d g.axes [(xl + xh) / 2] := ⟨_, rfl⟩
  have hg : Grown g.axes axes := hax ▸ grown_atleast _ _
  have hlen : axes.length = 3 := hax ▸ atleast_length _ _ h3
  unfold Lazy.atleast3d
  simp only [middle_eq]
  rw [if_neg (by omega), ← hax]
  cases loaded with
  | true =>
    simp only [if_true, hd, Fld.nrComps, Fld.nrComp, hvec, Bool.false_eq_true, if_false]
    obtain ⟨a, ha, has, hav⟩ := reshape_get d (points axes) (by rw [hds, hg.prod])
    have ha' : reshape d (axes.map fun a => a.2.length) = .ok a := ha
    rw [ha']
    simp only [lift]
    obtain ⟨r, hr, hra, hrc, hrs⟩ := wrapOn_scalar false g.center axes a has (by rw [has, hg.prod]; exact h1)
    refine ⟨r, a.get, hr, hra, hrc, hrs, hra ▸ hg.point, ?_⟩
    rw [hra]
    intro p q hp hs
    rw [hav p q (by rw [hds]; exact hp) (same_within hs hp) (by rw [hds]; exact (same_ravel hs).2), hdv p hp]
  | false =>
    simp only [Bool.false_eq_true, if_false, false_or] at hl ⊢
    obtain ⟨hrs, hrv⟩ := hl
    obtain ⟨a, ha, has, hav⟩ := reshape_get raw (points axes) (by rw [hrs, hg.prod])
    have hlp : (points g.axes).length = g.axes.length := by simp [points]
    have hw : wrapOn g.vector g.center axes raw = .ok (.field ⟨axes, g.center, false, .default, raw⟩) := by
      unfold wrapOn
      rw [if_neg (by rw [hrs]; exact h1)]
      have e1 : ¬ raw.shape = axes.map fun a => a.2.length := by
        intro e; have := congrArg List.length e; rw [hrs, hlp, List.length_map] at this; omega
      have e2 : ¬ (raw.shape.tail = (axes.map fun a => a.2.length) ∨ raw.shape.dropLast = axes.map fun a => a.2.length) := by
        rintro (e | e) <;> have := congrArg List.length e <;> simp [hrs, hlp] at this <;> omega
      simp only [if_neg e1, if_neg e2, hvec]
      simp [Fld.nrComps]
    refine ⟨_, a.get, hw, rfl, rfl, ⟨rfl, a, ?_, has, fun _ _ => rfl⟩, hg.point, ?_⟩
    · unfold Fld.data
      have : (Fld.mk axes g.center false .default raw).sshape = points axes := rfl
      simp only [Bool.false_eq_true, if_false, this, ha, lift]
    · intro p q hp hs
      rw [hav p q (by rw [hrs]; exact hp) (same_within hs hp) (by rw [hrs]; exact (same_ravel hs).2), hrv p hp]

theorem reshape_shape {a b : Arr α} {s : List Nat} (h : reshape a s = .ok b) : b.shape = s := by
  unfold reshape at h
  split at h
  · rename_i e
    rw [← e]; exact congrArg Arr.shape (Except.ok.inj h).symm
  · split at h
    · exact congrArg Arr.shape (Except.ok.inj h).symm
    · cases h

theorem data_shape (f : Layout.Fld α) (a : Arr α) (h : f.data = .ok a) : f.shape = .ok a.shape := by
  unfold Layout.Fld.data at h
  cases hs : f.shape with
  | error e =>
    rw [hs] at h
    simp only [bind, Except.bind] at h
    split at h
    · cases h
    split at h
    · cases h
    split at h
    · split at h <;> cases h
    split at h
    · split at h <;> cases h
    · cases h
  | ok s =>
    rw [hs] at h
    simp only [bind, Except.bind] at h
    split at h
    · rw [reshape_shape h]
    split at h
    · rw [reshape_shape h]
    split at h
    · split at h
      · cases h
      · split at h
        · rw [← Except.ok.inj h]
        · cases h
    split at h
    · split at h
      · cases h
      · split at h
        · rw [← Except.ok.inj h]
        · cases h
    · cases h

theorem flat_nrComps {f : Fld α} {n : Nat} {v : Nat → List Nat → α} (h : Flat f n v) : f.nrComps = .ok n := by
  obtain ⟨hv, hl, a, ha, has, -⟩ := h
  have hk := nrComp_flat' hv hl
  unfold Fld.data at ha
  unfold Fld.nrComp at hk
  unfold Fld.nrComps
  rw [if_pos hv] at ha hk ⊢
  have hd : (Layout.new f.sshape f.src f.force).data = .ok a := by
    cases hx : (Layout.new f.sshape f.src f.force).data with
    | ok b => rw [hx] at ha; simp only [lift] at ha; rw [Except.ok.inj ha]
    | error e => rw [hx] at ha; cases e <;> simp [lift] at ha
  have hsh := data_shape _ _ hd
  have hk' : (Layout.new f.sshape f.src f.force).nrComp = .ok 0 := by
    cases hx : (Layout.new f.sshape f.src f.force).nrComp with
    | ok b => rw [hx] at hk; simp only [lift] at hk; rw [Option.some.inj (Except.ok.inj hk)]
    | error e => rw [hx] at hk; cases e <;> simp [lift] at hk
  unfold Layout.Fld.shape at hsh
  rw [hk'] at hsh
  cases hn : (Layout.new f.sshape f.src f.force).nrComps with
  | error e => rw [hn] at hsh; simp only [bind, Except.bind] at hsh; cases hsh
  | ok m =>
    rw [hn] at hsh
    simp only [bind, Except.bind] at hsh
    have := Except.ok.inj hsh
    rw [has] at this
    simp only [List.take_zero, List.nil_append, List.drop_zero, List.cons.injEq] at this
    rw [this.1]; rfl

theorem interlaced_nrComps {f : Fld α} {n : Nat} {v : Nat → List Nat → α} (h : Interlaced f n v) : f.nrComps = .ok n := by
  obtain ⟨hv, hl, a, ha, has, -⟩ := h
  have hk := nrComp_interlaced' hv hl
  unfold Fld.data at ha
  unfold Fld.nrComp at hk
  unfold Fld.nrComps
  rw [if_pos hv] at ha hk ⊢
  have hd : (Layout.new f.sshape f.src f.force).data = .ok a := by
    cases hx : (Layout.new f.sshape f.src f.force).data with
    | ok b => rw [hx] at ha; simp only [lift] at ha; rw [Except.ok.inj ha]
    | error e => rw [hx] at ha; cases e <;> simp [lift] at ha
  have hsh := data_shape _ _ hd
  have hk' : (Layout.new f.sshape f.src f.force).nrComp = .ok f.axes.length := by
    cases hx : (Layout.new f.sshape f.src f.force).nrComp with
    | ok b => rw [hx] at hk; simp only [lift] at hk; rw [Option.some.inj (Except.ok.inj hk)]
    | error e => rw [hx] at hk; cases e <;> simp [lift] at hk
  unfold Layout.Fld.shape at hsh
  rw [hk'] at hsh
  cases hn : (Layout.new f.sshape f.src f.force).nrComps with
  | error e => rw [hn] at hsh; simp only [bind, Except.bind] at hsh; cases hsh
  | ok m =>
    rw [hn] at hsh
    simp only [bind, Except.bind] at hsh
    have := Except.ok.inj hsh
    rw [has] at this
    have hlen : f.axes.length = f.sshape.length := by simp [Fld.sshape]
    have e : (Layout.new f.sshape f.src f.force).sshape = f.sshape := rfl
    rw [e, hlen, List.take_length, List.drop_length] at this
    have := List.append_cancel_left (as := f.sshape) (this.trans rfl)
    simp only [List.cons.injEq, and_true] at this
    rw [this]; rfl

/-- C164, vector fields with the components first, of which the data has been read -/
theorem C164_flat_partial (f : Lazy α) (n : Nat) (hn : 2 ≤ n) (v : Nat → List Nat → α) (hv : Flat f.fld n v) (h3 : f.fld.axes.length < 3)
    (hl : f.loaded = true) (xl xh : ℚ) :
    ∃ r u, f.atleast3d xl xh = .ok (.field r) ∧ r.axes = crdsAtleast3d f.fld.axes [(xl + xh) / 2] ∧ r.center = f.fld.center ∧ Flat r n u ∧
      (∀ q, Within (points r.axes) q → ∃ p, Within (points f.fld.axes) p ∧ Same f.fld.axes r.axes p q) ∧
      ∀ c p q, c < n → Within (points f.fld.axes) p → Same f.fld.axes r.axes p q → u c q = v c p := by
  obtain ⟨g, raw, loaded⟩ := f
  have hnc := flat_nrComps hv
  simp only at hl h3 hnc ⊢
  subst hl
  obtain ⟨hvec, hlay, d, hd, hds, hdv⟩ := hv
  have hk := nrComp_flat' hvec hlay
  obtain ⟨axes, hax⟩ : ∃ axes, axes = crdsAtleast3d g.axes [(xl + xh) / 2] := ⟨_, rfl⟩
  have hg : Grown g.axes axes := hax ▸ grown_atleast _ _
  unfold Lazy.atleast3d
  simp only [middle_eq]
  simp only at hd hds hdv
  rw [if_neg (by omega), ← hax]
  simp only [if_true, hd, hnc, hk]
  rw [if_neg (by omega)]
  have hp : Layout.prod d.shape = Layout.prod (n :: points axes) := by
    rw [hds, prod_cons, prod_cons, hg.prod]
  obtain ⟨a, ha, has, hav⟩ := reshape_get d (n :: points axes) hp
  have ha' : reshape d (pyInsert (axes.map fun a => a.2.length) 0 n) = .ok a := ha
  rw [ha']
  simp only [lift]
  obtain ⟨r, hr, hra, hrc, hrs⟩ := wrapOn_flat g.vector g.center axes a n hn has
  refine ⟨r, _, hr, hra, hrc, hrs, hra ▸ hg.point, ?_⟩
  rw [hra]
  intro c p q hc hp' hs
  show a.get (c :: q) = _
  rw [hav (c :: p) (c :: q) (by rw [hds]; exact within_cons hc hp') (within_cons hc (same_within hs hp')) ?_, hdv c p hc hp']
  rw [hds]
  show c * prod (points axes) + ravel (points axes) q = c * prod (points g.axes) + ravel (points g.axes) p
  rw [hg.prod, (same_ravel hs).2]

theorem trim_ones (old : List Nat) : ∀ (fuel : Nat) (s : List Nat), s.filter (· ≠ 1) = old → s.length ≤ old.length + fuel →
    trim (old.length + 1) fuel s = old
  | 0, s, h, hl => by
    unfold trim
    have hle := List.length_filter_le (· ≠ 1) s
    have e : (s.filter (· ≠ 1)).length = s.length := by rw [h] at hle ⊢; omega
    rw [← h]
    exact (List.filter_eq_self.mpr (List.length_filter_eq_length_iff.mp e)).symm
  | fuel + 1, s, h, hl => by
    unfold trim
    by_cases hs : s.length + 1 > old.length + 1
    · rw [if_pos hs]
      have h1 : 1 ∈ s := by
        by_cases h1 : 1 ∈ s
        · exact h1
        · have : s.filter (· ≠ 1) = s := by
            apply List.filter_eq_self.mpr
            intro a ha
            simp only [decide_eq_true_eq]
            rintro rfl
            exact h1 ha
          rw [this] at h
          rw [h] at hs; omega
      rw [if_pos h1]
      apply trim_ones old fuel
      · rw [← h, List.erase_eq_eraseP, ]
        obtain ⟨a, b, ha, hs', he⟩ := List.exists_erase_eq h1
        rw [← List.erase_eq_eraseP, he, hs']
        simp
      · rw [List.length_erase_of_mem h1]; omega
    · rw [if_neg hs]
      have hle := List.length_filter_le (· ≠ 1) s
      have e : (s.filter (· ≠ 1)).length = s.length := by rw [h] at hle ⊢; omega
      rw [← h]
      exact (List.filter_eq_self.mpr (List.length_filter_eq_length_iff.mp e)).symm

theorem ravel_snoc : ∀ (s idx : List Nat) (n c : Nat), idx.length = s.length → ravel (s ++ [n]) (idx ++ [c]) = ravel s idx * n + c
  | [], [], n, c, _ => by simp [ravel, prod]
  | a :: s, i :: idx, n, c, h => by
    have ih := ravel_snoc s idx n c (by simpa using h)
    show i * prod (s ++ [n]) + ravel (s ++ [n]) (idx ++ [c]) = (i * prod s + ravel s idx) * n + c
    rw [ih, prod_append', Nat.add_mul]
    have : prod [n] = n := by simp [prod]
    rw [this, Nat.mul_assoc]
    omega
  | [], _ :: _, _, _, h => by simp at h
  | _ :: _, [], _, _, h => by simp at h

theorem ones_filter {s : List Nat} (h : 1 ∉ s) : s.filter (· ≠ 1) = s := by
  apply List.filter_eq_self.mpr
  intro a ha
  simp only [decide_eq_true_eq]
  rintro rfl
  exact h ha

theorem one_mem_grown {l m : List (String × List ℚ)} (hg : Grown l m) (h1 : 1 ∉ points l) (hl : l.length < m.length) : 1 ∈ points m := by
  by_cases h : 1 ∈ points m
  · exact h
  · have := hg.big
    rw [ones_filter h, ones_filter h1] at this
    have := congrArg List.length this
    simp only [points_length] at this
    omega

theorem wrapOn_unread (c : Center) (old axes : List (String × List ℚ)) (hg : Grown old axes) (hl : old.length < axes.length)
    (h1 : 1 ∉ points old) (raw : Arr α) (n : Nat) (hn : 2 ≤ n)
    (hraw : raw.shape = n :: points old ∨ (raw.shape = points old ++ [n] ∧ points old ≠ List.replicate old.length n)) :
    wrapOn true c axes raw = .ok (.field ⟨axes, c, true, .default, raw⟩) ∧
    detect (points axes) raw.shape = (if raw.shape = n :: points old then .flat else .interlaced) := by
  have hone := one_mem_grown hg h1 hl
  have hr1 : 1 ∉ raw.shape := by
    rcases hraw with h | ⟨h, -⟩ <;> rw [h] <;> simp [h1] <;> omega
  have hlen : raw.shape.length = (points old).length + 1 := by
    rcases hraw with h | ⟨h, -⟩ <;> rw [h] <;> simp
  have htrim : trim raw.shape.length (points axes).length (points axes) = points old := by
    rw [hlen]
    exact trim_ones _ _ _ (by rw [hg.big, ones_filter h1]) (by omega)
  have hne : ¬ raw.shape = points axes := fun e => hr1 (e ▸ hone)
  have hdet : detect (points axes) raw.shape = (if raw.shape = n :: points old then .flat else .interlaced) := by
    unfold detect
    rw [if_neg hne]
    simp only [htrim]
    rw [if_neg (fun e => by have := congrArg List.length e; omega)]
    rcases hraw with h | ⟨h, hr⟩
    · rw [if_pos (by rw [h]; rfl), if_pos h]
    · have hx : ¬ raw.shape.tail = points old := by
        intro e
        apply hr
        rw [h] at e
        have := (C55_detect (points old) n).2
        rw [points_length] at this
        by_cases hh : points old = List.replicate old.length n
        · exact hh
        · rw [if_neg hh] at this
          unfold detect at this
          rw [if_neg (fun e => by have := congrArg List.length e; simp at this)] at this
          have ht : trim (points old ++ [n]).length (points old).length (points old) = points old := by
            have := trim_ones (points old) (points old).length (points old) (ones_filter h1) (by omega)
            simpa using this
          simp only [ht] at this
          rw [if_neg (fun e => by have := congrArg List.length e; simp at this), if_pos e] at this
          cases this
      have hx' : ¬ raw.shape = n :: points old := fun e => hx (by rw [e]; rfl)
      rw [if_neg hx, if_neg hx', if_pos (Or.inl (by rw [h, List.dropLast_concat]))]
  refine ⟨?_, hdet⟩
  unfold wrapOn
  have hp : Layout.prod raw.shape ≠ 1 := by
    rcases hraw with h | ⟨h, -⟩
    · rw [h]; exact big_cons hn _
    · rw [h]; exact big_snoc hn _
  rw [if_neg hp]
  have e1 : ¬ raw.shape = axes.map fun a => a.2.length := hne
  have e2 : ¬ (raw.shape.tail = (axes.map fun a => a.2.length) ∨ raw.shape.dropLast = axes.map fun a => a.2.length) := by
    rintro (e | e)
    · exact hr1 (List.mem_of_mem_tail (e ▸ hone))
    · exact hr1 (List.dropLast_subset _ (e ▸ hone))
  simp only [if_neg e1, if_neg e2]
  have hnr : (Fld.mk axes c true .default raw).nrComps = .ok n := by
    unfold Fld.nrComps
    have : (Fld.mk axes c true .default raw).sshape = points axes := rfl
    simp only [if_true, this]
    unfold Layout.Fld.nrComps Layout.new
    simp only [hdet]
    rcases hraw with h | ⟨h, hr⟩
    · rw [if_pos h]; simp [h, lift]
    · by_cases hh : raw.shape = n :: points old
      · rw [if_pos hh]; simp [hh, lift]
      · rw [if_neg hh]; simp [h, lift]
  rw [hnr]
  simp only
  rw [if_neg (by omega)]

/-- C164, vector fields of which the data has not been read, with the components first or last, if the source is stored as the data is shown and there was
    no axis with one point -/
theorem C164_unread_vector_partial (f : Lazy α) (n : Nat) (hn : 2 ≤ n) (v : Nat → List Nat → α) (h3 : f.fld.axes.length < 3) (hl : f.loaded = false)
    (hvec : f.fld.vector = true) (h1 : 1 ∉ points f.fld.axes) (xl xh : ℚ) :
    (f.raw.shape = n :: points f.fld.axes → (∀ c p, c < n → Within (points f.fld.axes) p → f.raw.get (c :: p) = v c p) →
      ∃ r u, f.atleast3d xl xh = .ok (.field r) ∧ r.axes = crdsAtleast3d f.fld.axes [(xl + xh) / 2] ∧ r.center = f.fld.center ∧ Flat r n u ∧
        ∀ c p q, c < n → Within (points f.fld.axes) p → Same f.fld.axes r.axes p q → u c q = v c p) ∧
    (f.raw.shape = points f.fld.axes ++ [n] → points f.fld.axes ≠ List.replicate f.fld.axes.length n →
      (∀ c p, c < n → Within (points f.fld.axes) p → f.raw.get (p ++ [c]) = v c p) →
      ∃ r u, f.atleast3d xl xh = .ok (.field r) ∧ r.axes = crdsAtleast3d f.fld.axes [(xl + xh) / 2] ∧ r.center = f.fld.center ∧ Interlaced r n u ∧
        ∀ c p q, c < n → Within (points f.fld.axes) p → Same f.fld.axes r.axes p q → u c q = v c p) := by
  obtain ⟨g, raw, loaded⟩ := f
  simp only at hl h3 hvec h1 ⊢
  subst hl
  obtain ⟨axes, hax⟩ : ∃ axes, axes = crdsAtleast3d g.axes [(xl + xh) / 2] := ⟨_, rfl⟩
  have hg : Grown g.axes axes := hax ▸ grown_atleast _ _
  have hlen : axes.length = 3 := hax ▸ atleast_length _ _ h3
  unfold Lazy.atleast3d
  simp only [middle_eq]
  rw [if_neg (by omega), ← hax]
  simp only [Bool.false_eq_true, if_false, hvec]
  have hss : (Fld.mk axes g.center true .default raw).sshape = points axes := rfl
  refine ⟨fun hs hv => ?_, fun hs hne hv => ?_⟩
  · obtain ⟨hw, hd⟩ := wrapOn_unread g.center g.axes axes hg (by omega) h1 raw n hn (Or.inl hs)
    rw [if_pos hs] at hd
    obtain ⟨a, ha, has, hav⟩ := reshape_get raw (n :: points axes) (by rw [hs, prod_cons, prod_cons, hg.prod])
    refine ⟨_, fun c q => a.get (c :: q), hw, rfl, rfl, ⟨rfl, ?_, a, ?_, has, fun _ _ _ _ => rfl⟩, ?_⟩
    · unfold Fld.layout; rw [hss]; simp [Layout.new, Layout.Fld.layout, hd]
    · unfold Fld.data
      rw [hss]
      rw [hs] at hd
      simp only [if_true, Layout.new, Layout.Fld.data, Layout.Fld.shape, Layout.Fld.nrComps, Layout.Fld.nrComp, Layout.Fld.layout, hd, true_or, hs,
        List.head?_cons, ne_eq, not_true_eq_false, if_false, bind, Except.bind, List.take_zero, List.nil_append, List.drop_zero, ha, lift]
    · intro c p q hc hp hsame
      show a.get (c :: q) = _
      rw [hav (c :: p) (c :: q) (by rw [hs]; exact within_cons hc hp) (within_cons hc (same_within hsame hp)) ?_, hv c p hc hp]
      rw [hs]
      show c * prod (points axes) + ravel (points axes) q = c * prod (points g.axes) + ravel (points g.axes) p
      rw [hg.prod, (same_ravel hsame).2]
  · obtain ⟨hw, hd⟩ := wrapOn_unread g.center g.axes axes hg (by omega) h1 raw n hn (Or.inr ⟨hs, hne⟩)
    have hnf : ¬ raw.shape = n :: points g.axes := by
      intro e
      apply hne
      rw [hs] at e
      have h2 := (C55_detect (points g.axes) n).2
      rw [e, (C55_detect (points g.axes) n).1, points_length] at h2
      by_cases hh : points g.axes = List.replicate g.axes.length n
      · exact hh
      · rw [if_neg hh] at h2; cases h2
    rw [if_neg hnf] at hd
    obtain ⟨a, ha, has, hav⟩ := reshape_get raw (points axes ++ [n]) (by rw [hs, prod_append', prod_append', hg.prod])
    refine ⟨_, fun c q => a.get (q ++ [c]), hw, rfl, rfl, ⟨rfl, ?_, a, ?_, has, fun _ _ _ _ => rfl⟩, ?_⟩
    · unfold Fld.layout; rw [hss]; simp [Layout.new, Layout.Fld.layout, hd]
    · unfold Fld.data
      rw [hss]
      rw [hs] at hd
      simp only [if_true, Layout.new, Layout.Fld.data, Layout.Fld.shape, Layout.Fld.nrComps, Layout.Fld.nrComp, Layout.Fld.layout, hd, true_or, hs,
        List.getLast?_concat, ne_eq, not_true_eq_false, if_false, bind, Except.bind, List.take_length, List.drop_length, ha, lift]
    · intro c p q hc hp hsame
      show a.get (q ++ [c]) = _
      have hq := same_within hsame hp
      rw [hav (p ++ [c]) (q ++ [c]) (by rw [hs]; exact within_snoc hc hp) (within_snoc hc hq) ?_, hv c p hc hp]
      rw [hs, ravel_snoc _ _ _ _ (within_length hq), ravel_snoc _ _ _ _ (within_length hp), (same_ravel hsame).2]

/-- C164, fields with three axes or more are returned as they are. -/
theorem C164_already (f : Lazy α) (h3 : 3 ≤ f.fld.axes.length) (xl xh : ℚ) : f.atleast3d xl xh = .ok (.field f.fld) := by
  unfold Lazy.atleast3d
  rw [if_pos h3]

/-- C164 fails for vector fields with the components last that have been read, on axes x and y: a ValueError, although it works before they are read. -/
theorem C164_interlaced_violated (f : Lazy α) (n : Nat) (hn : 2 ≤ n) (v : Nat → List Nat → α) (hv : Interlaced f.fld n v) (X Y : List ℚ)
    (hax : f.fld.axes = [("x", X), ("y", Y)]) (hX : 2 ≤ X.length) (hY : 2 ≤ Y.length) (hne : ¬ (X.length = n ∧ Y.length = n)) (hl : f.loaded = true)
    (xl xh : ℚ) : f.atleast3d xl xh = .error .value := by
  obtain ⟨g, raw, loaded⟩ := f
  have hnc := interlaced_nrComps hv
  simp only at hl hax hnc ⊢
  subst hl
  obtain ⟨hvec, hlay, d, hd, hds, -⟩ := hv
  have hk := nrComp_interlaced' hvec hlay
  simp only at hd hds hk
  obtain ⟨axes, h0⟩ : ∃ axes : List (String × List ℚ), axes = [("x", X), ("y", Y), ("z", [(xl + xh) / 2])] := ⟨_, rfl⟩
  have hca : crdsAtleast3d g.axes [(xl + xh) / 2] = axes := by rw [hax, h0]; simp [crdsAtleast3d, newAxes, pyInsert]
  have hshape : pyInsert (axes.map fun a => a.2.length) g.axes.length n = [X.length, Y.length, n, 1] := by rw [hax, h0]; simp [pyInsert]
  unfold Lazy.atleast3d
  simp only [middle_eq]
  rw [if_neg (by simp [hax]), hca]
  simp only [if_true, hd, hnc, hk]
  rw [if_neg (by omega), hshape]
  have hds' : d.shape = [X.length, Y.length, n] := by rw [hds, hax]; rfl
  obtain ⟨a, ha, has, -⟩ := reshape_get d [X.length, Y.length, n, 1] (by rw [hds']; simp [prod])
  rw [ha]
  simp only [lift]
  have hss : (axes.map fun a => a.2.length) = [X.length, Y.length, 1] := by rw [h0]; rfl
  obtain ⟨shape, get⟩ := a
  simp only at has
  subst has
  have hXn : ¬ X.length = 0 := by omega
  have hp : ¬ Layout.prod [X.length, Y.length, n, 1] = 1 := big_cons hX _
  have hdet : detect [X.length, Y.length, 1] [X.length, Y.length, n, 1] = .scalar := by
    unfold detect
    rw [if_neg (by simp)]
    have ht : trim [X.length, Y.length, n, 1].length [X.length, Y.length, 1].length [X.length, Y.length, 1] = [X.length, Y.length, 1] := by
      simp [trim]
    simp only [ht]
    have hpr : prod [X.length, Y.length, 1] = X.length * Y.length := by simp [prod]
    have hmul : X.length * 2 ≤ X.length * Y.length := Nat.mul_le_mul_left _ hY
    rw [if_neg (by simp), if_neg (by simp only [List.tail_cons, List.cons.injEq]; rintro ⟨e1, e2, -⟩; exact hne ⟨by omega, by omega⟩)]
    rw [if_neg, if_neg, if_neg, if_pos trivial]
    · simp only [List.getLast?_cons_cons, List.getLast?_singleton, Option.some.injEq, hpr]; omega
    · simp only [List.head?_cons, Option.some.injEq, hpr]; omega
    · rintro (e | e)
      · simp at e; omega
      · have e' := congrArg List.length e
        rw [List.length_dropLast] at e'
        have : 0 < ([X.length, Y.length, n, 1].filter (· > 1)).length := by
          rw [List.filter_cons_of_pos (by simp; omega)]; simp
        omega
  unfold wrapOn
  rw [if_neg hp]
  simp only [hss]
  rw [if_neg (by simp), if_neg (by
    rintro (e | e)
    · simp only [List.tail_cons, List.cons.injEq] at e; exact hne ⟨by omega, by omega⟩
    · simp at e; omega)]
  have hs' : (Fld.mk axes g.center true .default (⟨[X.length, Y.length, n, 1], get⟩ : Arr α)).sshape = [X.length, Y.length, 1] := hss
  have hnr : (Fld.mk axes g.center g.vector .default (⟨[X.length, Y.length, n, 1], get⟩ : Arr α)).nrComps = .ok 1 := by
    rw [hvec]
    unfold Fld.nrComps
    rw [hs']
    simp [Layout.new, Layout.Fld.nrComps, hdet, lift]
  rw [hnr]
  simp only [if_true]
  have hdat : (Fld.mk axes g.center g.vector .default (⟨[X.length, Y.length, n, 1], get⟩ : Arr α)).data = .error .value := by
    rw [hvec]
    unfold Fld.data
    rw [hs']
    have hres : reshape (⟨[X.length, Y.length, n, 1], get⟩ : Arr α) [X.length, Y.length, 1, 1] = .error .valueError := by
      unfold reshape
      have hpos : 0 < X.length * Y.length := Nat.mul_pos (by omega) (by omega)
      rw [if_neg (by simp; omega), if_neg]
      simp only [prod, List.foldr_cons, List.foldr_nil, Nat.mul_one]
      rw [← Nat.mul_assoc]
      intro e
      have : X.length * Y.length * 2 ≤ X.length * Y.length * n := Nat.mul_le_mul_left _ hn
      omega
    simp only [if_true, Layout.new, Layout.Fld.data, Layout.Fld.shape, Layout.Fld.nrComps, Layout.Fld.nrComp, Layout.Fld.layout, hdet, true_or,
      bind, Except.bind, ne_eq, not_true_eq_false, if_false]
    show lift (reshape _ [X.length, Y.length, 1, 1]) = _
    rw [hres]; rfl
  unfold Fld.comp0
  rw [hdat]

/-- C164 fails for fields of which the data has not been read and is not stored as it is shown (z first, mirrored, or to be transformed): the result shows
    the source as it is stored. Here for scalars stored with the same shape. -/
theorem C164_unread_violated (f : Lazy α) (hvec : f.fld.vector = false) (h3 : f.fld.axes.length < 3) (h1 : prod (points f.fld.axes) ≠ 1)
    (hl : f.loaded = false) (hs : f.raw.shape = points f.fld.axes) (xl xh : ℚ) :
    ∃ r u, f.atleast3d xl xh = .ok (.field r) ∧ Scalar r u ∧
      ∀ p q, Within (points f.fld.axes) p → Same f.fld.axes r.axes p q → u q = f.raw.get p := by
  obtain ⟨g, raw, loaded⟩ := f
  simp only at hl hvec h3 h1 hs
  subst hl
  have hsc : Scalar (Fld.mk g.axes g.center false .default raw) raw.get := scalar_mk g.center g.axes .default raw hs
  obtain ⟨r, u, hr, -, -, hsr, -, hu⟩ := C164_scalar_partial ⟨⟨g.axes, g.center, false, .default, raw⟩, raw, false⟩ raw.get hsc h3 h1
    (Or.inr ⟨hs, fun _ _ => rfl⟩) xl xh
  refine ⟨r, u, ?_, hsr, hu⟩
  rw [← hr]
  have h3' : ¬ 3 ≤ g.axes.length := by omega
  unfold Lazy.atleast3d
  simp only [hvec, if_neg h3', Bool.false_eq_true, if_false]

/-- C164 fails for names: if there is an axis that was made by `atleast_3d` and none of x, y and z, then two axes have the same name. -/
theorem C164_names_violated (a x0 : β) : (crdsAtleast3d [("fill_a", a)] x0).map Prod.fst = ["fill_a", "fill_a", "fill_b"] := by
  simp [crdsAtleast3d, newAxes, pyInsert]

/-- C164 fails for fields with a single value: the result is a number. -/
theorem C164_single_violated (f : Lazy α) (v : List Nat → α) (hv : Scalar f.fld v) (h3 : f.fld.axes.length < 3) (h1 : prod (points f.fld.axes) = 1)
    (hl : f.loaded = true) (xl xh : ℚ) : ∃ x, f.atleast3d xl xh = .ok (.number x) := by
  obtain ⟨g, raw, loaded⟩ := f
  obtain ⟨hvec, d, hd, hds, hdv⟩ := hv
  simp only at hvec hd hds hdv h3 h1 hl ⊢
  subst hl
  obtain ⟨axes, hax⟩ : ∃ axes, axes = crdsAtleast3d g.axes [(xl + xh) / 2] := ⟨_, rfl⟩
  have hg : Grown g.axes axes := hax ▸ grown_atleast _ _
  unfold Lazy.atleast3d
  simp only [middle_eq]
  rw [if_neg (by omega), ← hax]
  simp only [if_true, hd, Fld.nrComps, Fld.nrComp, hvec, Bool.false_eq_true, if_false]
  obtain ⟨a, ha, has, hav⟩ := reshape_get d (points axes) (by rw [hds, hg.prod])
  have ha' : reshape d (axes.map fun a => a.2.length) = .ok a := ha
  rw [ha']
  simp only [lift]
  exact ⟨_, wrap_number _ _ _ _ (by rw [has, hg.prod]; exact h1)⟩

/-- a plane of 2 by 3 points at which the value is `10 i + j` -/
def planeXZ : Fld Nat := ⟨[("x", [0, 1]), ("z", [5, 6, 7])], .node, false, .default, ⟨[2, 3], fun i => 10 * i.headD 0 + (i.getD 1 0)⟩⟩

example : Scalar planeXZ (fun i => 10 * i.headD 0 + (i.getD 1 0)) ∧ planeXZ.axes.length < 3 ∧ prod (points planeXZ.axes) ≠ 1 ∧
    (crdsAtleast3d planeXZ.axes [(1 + 3) / 2]).map Prod.fst = ["x", "y", "z"] ∧
    Same planeXZ.axes (crdsAtleast3d planeXZ.axes [2]) [1, 2] [1, 0, 2] ∧
    (∀ s ∈ ["fill_a", "fill_b", "fill_c"], s ∉ planeXZ.axes.map Prod.fst) := by
  refine ⟨scalar_mk _ _ _ _ rfl, by decide, by decide, by decide, ?_, by decide⟩
  have : crdsAtleast3d planeXZ.axes [2] = [("x", [0, 1]), ("y", [2]), ("z", [5, 6, 7])] := by simp [planeXZ, crdsAtleast3d, newAxes, pyInsert]
  rw [this]
  exact .keep _ _ (.add _ _ (.keep _ _ .nil))

/-- a vector field with the components first and one with the components last -/
example : Flat ⟨[("x", [0, 1]), ("z", [5, 6, 7])], .node, true, .default, ⟨[3, 2, 3], fun i => i.sum⟩⟩ 3 (fun c i => (c :: i).sum) ∧
    (1 ∉ points [("x", [(0 : ℚ), 1]), ("z", [5, 6, 7])]) ∧
    points [("x", [(0 : ℚ), 1]), ("z", [5, 6, 7])] ≠ List.replicate 2 3 ∧
    Interlaced ⟨[("x", [0, 1]), ("y", [5, 6, 7])], .node, true, .default, ⟨[2, 3, 3], fun i => i.sum⟩⟩ 3 (fun c i => (i ++ [c]).sum) := by
  refine ⟨flat_mk _ _ _ _ rfl, by decide, by decide, interlaced_mk _ _ _ _ rfl (by decide)⟩

end Viscid.Props
