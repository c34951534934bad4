import Verif.Model.FileCrds
import Verif.Spec.FileCrds
import Mathlib.Tactic.Linarith
import Mathlib.Tactic.NormNum
import Mathlib.Tactic.Ring
/-! # C222: coordinates of files -/
namespace Viscid.Props
open Viscid.FileCrds Viscid.Spec.FileCrds

namespace FC

/-- nodes of two or more centres -/
def nod (cc : List ℚ) : List ℚ :=
  let hd := (diffs cc).map fun d => 1 / 2 * d
  [cc.headD 0 - hd.headD 0] ++ List.zipWith (· + ·) cc.dropLast hd ++ [cc.getLastD 0 + hd.getLastD 0]

theorem nodes_eq (dx : Option ℚ) (cc : List ℚ) (h : 2 ≤ cc.length) : nodes dx cc = .ok ((nod cc).map some) := by
  match cc, h with
  | c :: d :: l, _ => rfl

theorem diffs_length (cc : List ℚ) : (diffs cc).length = cc.length - 1 := by simp [diffs]

theorem diffs_get (cc : List ℚ) (i : Nat) (a b : ℚ) (ha : cc[i]? = some a) (hb : cc[i + 1]? = some b) : (diffs cc)[i]? = some (b - a) := by
  have h1 := (List.getElem?_eq_some_iff.1 hb).1
  have e1 : cc.tail[i]? = some b := by rw [List.getElem?_tail]; exact hb
  have e2 : cc.dropLast[i]? = some a := by rw [List.getElem?_dropLast, if_pos (by omega)]; exact ha
  unfold diffs
  rw [List.getElem?_zipWith, e1, e2]

theorem nod_length (cc : List ℚ) (h : 2 ≤ cc.length) : (nod cc).length = cc.length + 1 := by
  simp [nod, diffs_length]; omega

/-- the first node -/
theorem nod_zero (cc : List ℚ) (a b : ℚ) (h0 : cc[0]? = some a) (h1 : cc[1]? = some b) : (nod cc)[0]? = some (a - 1 / 2 * (b - a)) := by
  have hd := diffs_get cc 0 a b h0 h1
  have e1 : cc.headD 0 = a := by rw [← List.head?_eq_getElem?] at h0; simp [List.headD_eq_head?_getD, h0]
  have e2 : ((diffs cc).map fun d => 1 / 2 * d).headD 0 = 1 / 2 * (b - a) := by
    rw [List.headD_eq_head?_getD, List.head?_eq_getElem?, List.getElem?_map, hd]; rfl
  unfold nod
  simp only [List.append_assoc, List.cons_append, List.nil_append, List.getElem?_cons_zero, e1, e2]

/-- nodes between -/
theorem nod_mid (cc : List ℚ) (i : Nat) (a b : ℚ) (h0 : cc[i]? = some a) (h1 : cc[i + 1]? = some b) : (nod cc)[i + 1]? = some ((a + b) / 2) := by
  have hl := (List.getElem?_eq_some_iff.1 h1).1
  have hd := diffs_get cc i a b h0 h1
  have e2 : cc.dropLast[i]? = some a := by rw [List.getElem?_dropLast, if_pos (by omega)]; exact h0
  unfold nod
  simp only [List.append_assoc, List.cons_append, List.nil_append, List.getElem?_cons_succ]
  rw [List.getElem?_append_left (by simp [diffs_length]; omega), List.getElem?_zipWith, e2, List.getElem?_map, hd]
  simp only [Option.map_some]
  congr 1; ring

/-- the last node -/
theorem nod_last (cc : List ℚ) (i : Nat) (a b : ℚ) (h0 : cc[i]? = some a) (h1 : cc[i + 1]? = some b) (hl : cc.length = i + 2) :
    (nod cc)[i + 2]? = some (b + 1 / 2 * (b - a)) := by
  have hd := diffs_get cc i a b h0 h1
  have e1 : cc.getLastD 0 = b := by
    rw [List.getLastD_eq_getLast?, List.getLast?_eq_getElem?, hl]; simp [h1]
  have e2 : ((diffs cc).map fun d => 1 / 2 * d).getLastD 0 = 1 / 2 * (b - a) := by
    rw [List.getLastD_eq_getLast?, List.getLast?_eq_getElem?]
    simp only [List.length_map, diffs_length, hl]
    rw [show i + 2 - 1 - 1 = i by omega, List.getElem?_map, hd]; rfl
  unfold nod
  simp only [List.append_assoc, List.cons_append, List.nil_append, List.getElem?_cons_succ]
  rw [List.getElem?_append_right (by simp [diffs_length]; omega)]
  simp only [List.length_zipWith, List.length_dropLast, List.length_map, diffs_length, hl]
  rw [show i + 1 - min (i + 2 - 1) (i + 2 - 1) = 0 by omega, e1, e2]; rfl

theorem getE (cc : List ℚ) (i : Nat) (h : i < cc.length) : ∃ a, cc[i]? = some a := ⟨_, List.getElem?_eq_getElem h⟩

/-- the nodes of a cell: half way to the centres beside it, or as far as the other one -/
theorem cell (cc : List ℚ) (h : 2 ≤ cc.length) (i : Nat) (c : ℚ) (hc : cc[i]? = some c) :
    ∃ l r, (nod cc)[i]? = some (c - l / 2) ∧ (nod cc)[i + 1]? = some (c + r / 2) ∧
      (∀ p, 0 < i → cc[i - 1]? = some p → l = c - p) ∧ (∀ n, cc[i + 1]? = some n → r = n - c) ∧ (i = 0 → l = r) ∧ (i + 1 = cc.length → r = l) := by
  have hi := (List.getElem?_eq_some_iff.1 hc).1
  rcases Nat.eq_zero_or_pos i with rfl | hpos
  · obtain ⟨n, hn⟩ := getE cc 1 (by omega)
    refine ⟨n - c, n - c, ?_, ?_, by simp, ?_, fun _ => rfl, fun h => by omega⟩
    · rw [nod_zero cc c n hc hn]; congr 1; ring
    · rw [nod_mid cc 0 c n hc hn]; congr 1; ring
    · intro n' hn'; rw [hn] at hn'; cases hn'; rfl
  · obtain ⟨p, hp⟩ := getE cc (i - 1) (by omega)
    obtain ⟨j, rfl⟩ : ∃ j, i = j + 1 := ⟨i - 1, by omega⟩
    rw [Nat.add_sub_cancel] at hp
    by_cases hlast : j + 2 = cc.length
    · refine ⟨c - p, c - p, ?_, ?_, ?_, ?_, fun h => by omega, fun _ => rfl⟩
      · rw [nod_mid cc j p c hp hc]; congr 1; ring
      · rw [nod_last cc j p c hp hc hlast.symm]; congr 1; ring
      · intro p' _ hp'; rw [Nat.add_sub_cancel, hp] at hp'; cases hp'; rfl
      · intro n hn; have := (List.getElem?_eq_some_iff.1 hn).1; omega
    · obtain ⟨n, hn⟩ := getE cc (j + 2) (by omega)
      refine ⟨c - p, n - c, ?_, ?_, ?_, ?_, fun h => by omega, fun h => by omega⟩
      · rw [nod_mid cc j p c hp hc]; congr 1; ring
      · rw [nod_mid cc (j + 1) c n hc hn]; congr 1; ring
      · intro p' _ hp'; rw [Nat.add_sub_cancel, hp] at hp'; cases hp'; rfl
      · intro n' hn'; rw [hn] at hn'; cases hn'; rfl

end FC

/-- C222: centres that increase are between their nodes. -/
theorem C222_between (dx : Option ℚ) (cc : List ℚ) (h : 2 ≤ cc.length) (hup : Up cc) : ∃ nc, nodes dx cc = .ok (nc.map some) ∧ Between cc nc := by
  refine ⟨_, FC.nodes_eq dx cc h, FC.nod_length cc h, ?_⟩
  intro i c hc
  have hi := (List.getElem?_eq_some_iff.1 hc).1
  obtain ⟨l, r, e1, e2, k1, k2, k3, k4⟩ := FC.cell cc h i c hc
  have hr : i + 1 < cc.length → 0 < r := by
    intro hlt
    obtain ⟨n, hn⟩ := FC.getE cc (i + 1) hlt
    rw [k2 n hn]; linarith [hup i c n hc hn]
  have hl : 0 < i → 0 < l := by
    intro hpos
    obtain ⟨p, hp⟩ := FC.getE cc (i - 1) (by omega)
    rw [k1 p hpos hp]
    have := hup (i - 1) p c hp (by rwa [show i - 1 + 1 = i by omega])
    linarith
  have hr' : 0 < r := by
    by_cases hlt : i + 1 < cc.length
    · exact hr hlt
    · rw [k4 (by omega)]; exact hl (by omega)
  have hl' : 0 < l := by
    rcases Nat.eq_zero_or_pos i with h0 | h0
    · rw [k3 h0]; exact hr'
    · exact hl h0
  exact ⟨_, _, e1, e2, by linarith, by linarith⟩

/-- C222: equally spaced centres are half way between their nodes. -/
theorem C222_spaced (dx : Option ℚ) (cc : List ℚ) (d : ℚ) (h : 2 ≤ cc.length) (hd : 0 < d) (hs : Spaced cc d) :
    ∃ nc, nodes dx cc = .ok (nc.map some) ∧ Centred cc nc := by
  refine ⟨_, FC.nodes_eq dx cc h, FC.nod_length cc h, ?_⟩
  intro i c hc
  have hi := (List.getElem?_eq_some_iff.1 hc).1
  obtain ⟨l, r, e1, e2, k1, k2, k3, k4⟩ := FC.cell cc h i c hc
  have hr : i + 1 < cc.length → r = d := by
    intro hlt
    obtain ⟨n, hn⟩ := FC.getE cc (i + 1) hlt
    rw [k2 n hn]; exact hs i c n hc hn
  have hl : 0 < i → l = d := by
    intro hpos
    obtain ⟨p, hp⟩ := FC.getE cc (i - 1) (by omega)
    rw [k1 p hpos hp]
    exact hs (i - 1) p c hp (by rwa [show i - 1 + 1 = i by omega])
  have hr' : r = d := by
    by_cases hlt : i + 1 < cc.length
    · exact hr hlt
    · rw [k4 (by omega)]; exact hl (by omega)
  have hl' : l = d := by
    rcases Nat.eq_zero_or_pos i with h0 | h0
    · rw [k3 h0]; exact hr'
    · exact hl h0
  exact ⟨_, _, e1, e2, by rw [hl', hr']; linarith, by rw [hl', hr']; ring⟩

/-- C222 is false of other centres: whenever the spacing changes at a cell, what is half way between its nodes is not its centre. -/
theorem C222_stretched_violated (dx : Option ℚ) (cc : List ℚ) (i : Nat) (p c n : ℚ) (hp : cc[i]? = some p) (hc : cc[i + 1]? = some c) (hn : cc[i + 2]? = some n)
    (hne : c - p ≠ n - c) : ∃ (nc : List ℚ) (a b : ℚ), nodes dx cc = .ok (nc.map some) ∧ nc[i + 1]? = some a ∧ nc[i + 2]? = some b ∧ (a + b) / 2 ≠ c := by
  have hl := (List.getElem?_eq_some_iff.1 hn).1
  refine ⟨_, _, _, FC.nodes_eq dx cc (by omega), FC.nod_mid cc i p c hp hc, FC.nod_mid cc (i + 1) c n hc hn, ?_⟩
  intro h
  apply hne
  linarith

/-- C222: an axis of one cell is as wide as the least spacing of the others. -/
theorem C222_one (clist : List (Char × List ℚ)) (c d : ℚ) (hd : dxmin (clist.map Prod.snd) = some d) (hpos : 0 < d) :
    ∃ nc, nodes (dxmin (clist.map Prod.snd)) [c] = .ok (nc.map some) ∧ Centred [c] nc ∧ ∃ a, nc = [a, a + d] := by
  refine ⟨[c - 1 / 2 * d, c + 1 / 2 * d], by rw [hd]; rfl, ⟨rfl, ?_⟩, _, by congr 2; ring⟩
  intro i x hx
  cases i with
  | zero => simp at hx; subst hx; exact ⟨_, _, rfl, rfl, by linarith, by ring⟩
  | succ i => simp at hx

namespace FC

theorem least_spec (acc : Option ℚ) (l : List ℚ) (m : ℚ) (h : least acc l = some m) :
    (acc = some m ∨ m ∈ l) ∧ (∀ a, acc = some a → m ≤ a) ∧ ∀ x ∈ l, m ≤ x := by
  induction l generalizing acc with
  | nil => simp only [least, List.foldl_nil] at h; subst h; simp
  | cons x l ih =>
    cases acc with
    | none =>
      have h' : least (some x) l = some m := h
      obtain ⟨a, b, c⟩ := ih _ h'
      refine ⟨.inr ?_, by simp, ?_⟩
      · rcases a with a | a
        · simp at a; simp [a]
        · simp [a]
      · intro y hy
        rcases List.mem_cons.1 hy with rfl | hy
        · exact b _ rfl
        · exact c y hy
    | some z =>
      have h' : least (some (min z x)) l = some m := h
      obtain ⟨a, b, c⟩ := ih _ h'
      have hm := b _ rfl
      refine ⟨?_, ?_, ?_⟩
      · rcases a with a | a
        · simp only [Option.some.injEq] at a
          rcases min_choice z x with e | e
          · left; rw [← a, e]
          · right; rw [← a, e]; simp
        · right; simp [a]
      · intro q hq; simp at hq; subst hq; exact le_trans hm (min_le_left _ _)
      · intro y hy
        rcases List.mem_cons.1 hy with rfl | hy
        · exact le_trans hm (min_le_right _ _)
        · exact c y hy

theorem dxmin_gen (axes : List (List ℚ)) (acc : Option ℚ) (m : ℚ)
    (h : axes.foldl (fun a cc => if cc.length > 1 then least a (diffs cc) else a) acc = some m) :
    (acc = some m ∨ ∃ cc ∈ axes, m ∈ diffs cc) ∧ (∀ a, acc = some a → m ≤ a) ∧ ∀ cc ∈ axes, ∀ x ∈ diffs cc, m ≤ x := by
  induction axes generalizing acc with
  | nil => simp at h; subst h; simp
  | cons cc axes ih =>
    rw [List.foldl_cons] at h
    by_cases hc : cc.length > 1
    · rw [if_pos hc] at h
      obtain ⟨a, b, c⟩ := ih _ h
      have hne : ∃ k, least acc (diffs cc) = some k := by
        have gen : ∀ (l : List ℚ) (o : Option ℚ), (l ≠ [] ∨ o ≠ none) → ∃ k, least o l = some k := by
          intro l
          induction l with
          | nil => intro o ho; cases o with
            | none => simp at ho
            | some k => exact ⟨k, rfl⟩
          | cons x l ihl =>
            intro o _
            cases o with
            | none => exact ihl (some x) (.inr (by simp))
            | some y => exact ihl (some (min y x)) (.inr (by simp))
        apply gen
        left; intro e; have := diffs_length cc; rw [e] at this; simp at this; omega
      obtain ⟨k, hk⟩ := hne
      have hmk := b k hk
      obtain ⟨a', b', c'⟩ := least_spec _ _ _ hk
      refine ⟨?_, ?_, ?_⟩
      · rcases a with a | ⟨q, hq, hm⟩
        · rw [hk] at a; cases a
          rcases a' with a' | a'
          · exact .inl a'
          · exact .inr ⟨cc, by simp, a'⟩
        · exact .inr ⟨q, by simp [hq], hm⟩
      · intro q hq; exact le_trans hmk (b' q hq)
      · intro q hq x hx
        rcases List.mem_cons.1 hq with rfl | hq
        · exact le_trans hmk (c' x hx)
        · exact c q hq x hx
    · rw [if_neg hc] at h
      obtain ⟨a, b, c⟩ := ih _ h
      refine ⟨?_, b, ?_⟩
      · rcases a with a | ⟨q, hq, hm⟩
        · exact .inl a
        · exact .inr ⟨q, by simp [hq], hm⟩
      · intro q hq x hx
        rcases List.mem_cons.1 hq with rfl | hq
        · have hl := diffs_length q
          have : diffs q = [] := List.length_eq_zero_iff.1 (by omega)
          rw [this] at hx; simp at hx
        · exact c q hq x hx

theorem diffs_mem (cc : List ℚ) (x : ℚ) : x ∈ diffs cc ↔ ∃ (i : Nat) (a b : ℚ), cc[i]? = some a ∧ cc[i + 1]? = some b ∧ x = b - a := by
  constructor
  · intro h
    obtain ⟨i, hi⟩ := List.mem_iff_getElem?.1 h
    have hl := (List.getElem?_eq_some_iff.1 hi).1
    rw [diffs_length] at hl
    obtain ⟨a, ha⟩ := getE cc i (by omega)
    obtain ⟨b, hb⟩ := getE cc (i + 1) (by omega)
    rw [diffs_get cc i a b ha hb] at hi
    exact ⟨i, a, b, ha, hb, (Option.some.inj hi).symm⟩
  · rintro ⟨i, a, b, ha, hb, rfl⟩
    exact List.mem_of_getElem? (diffs_get cc i a b ha hb)

end FC

/-- C222: that width is the least distance of centres beside each other, of any axis. -/
theorem C222_least (axes : List (List ℚ)) (m : ℚ) (h : dxmin axes = some m) :
    (∃ cc ∈ axes, ∃ (i : Nat) (a b : ℚ), cc[i]? = some a ∧ cc[i + 1]? = some b ∧ m = b - a) ∧
    ∀ cc ∈ axes, ∀ (i : Nat) (a b : ℚ), cc[i]? = some a → cc[i + 1]? = some b → m ≤ b - a := by
  obtain ⟨a, _, c⟩ := FC.dxmin_gen axes none m h
  refine ⟨?_, fun cc hcc i x y hx hy => c cc hcc _ ((FC.diffs_mem cc _).2 ⟨i, x, y, hx, hy, rfl⟩)⟩
  rcases a with a | ⟨cc, hcc, hm⟩
  · cases a
  · exact ⟨cc, hcc, (FC.diffs_mem cc m).1 hm⟩

/-- C222 is false of files of one cell: its nodes are infinite. -/
theorem C222_point_violated (names : List Char) (cs : List ℚ) : dxmin ((names.zip (cs.map fun c => [c])).map Prod.snd) = none ∧
    ∀ c : ℚ, nodes none [c] = .ok [none, none] := by
  refine ⟨?_, fun c => rfl⟩
  have gen : ∀ l : List (List ℚ), (∀ cc ∈ l, cc.length ≤ 1) → ∀ a, l.foldl (fun a cc => if cc.length > 1 then least a (diffs cc) else a) a = a := by
    intro l hl
    induction l with
    | nil => intro a; rfl
    | cons cc l ih =>
      intro a
      rw [List.foldl_cons, if_neg (by have := hl cc (by simp); omega)]
      exact ih (fun c hc => hl c (by simp [hc])) a
  apply gen
  intro cc hcc
  obtain ⟨p, hp, rfl⟩ := List.mem_map.1 hcc
  have := (List.of_mem_zip hp).2
  obtain ⟨c, _, e⟩ := List.mem_map.1 this
  rw [← e]; simp

/-- C222: all axes of the file are there, in the reverse order and with their names. -/
theorem C222_axes (clist : List (Char × List ℚ)) (hne : ∀ c ∈ clist, c.2 ≠ []) :
    ∃ l, athena clist = .ok l ∧ l.length = clist.length ∧
      ∀ (i : Nat) c, clist[i]? = some c → ∃ nc, nodes (dxmin (clist.map Prod.snd)) c.2 = .ok nc ∧ l[clist.length - 1 - i]? = some (c.1, nc) := by
  have gen : ∀ (dx : Option ℚ) (cl : List (Char × List ℚ)), (∀ c ∈ cl, c.2 ≠ []) →
      ∃ l, (cl.mapM fun c => (do return (c.1, ← nodes dx c.2) : Except Err (Char × List (Option ℚ)))) = .ok l ∧ l.length = cl.length ∧
        ∀ (i : Nat) c, cl[i]? = some c → ∃ nc, nodes dx c.2 = .ok nc ∧ l[i]? = some (c.1, nc) := by
    intro dx cl
    induction cl with
    | nil => intro _; exact ⟨[], rfl, rfl, by simp⟩
    | cons c cl ih =>
      intro h
      obtain ⟨l, e, hl, hi⟩ := ih fun x hx => h x (by simp [hx])
      obtain ⟨nc, hnc⟩ : ∃ nc, nodes dx c.2 = .ok nc := by
        have := h c (by simp)
        match hc : c.2 with
        | [] => exact absurd hc this
        | [x] => exact ⟨_, rfl⟩
        | x :: y :: t => exact ⟨_, rfl⟩
      refine ⟨(c.1, nc) :: l, ?_, by simp [hl], ?_⟩
      · rw [List.mapM_cons, hnc, e]; rfl
      · intro i x hx
        cases i with
        | zero => simp at hx; subst hx; exact ⟨nc, hnc, rfl⟩
        | succ i => simpa using hi i x (by simpa using hx)
  obtain ⟨l, e, hl, hi⟩ := gen (dxmin (clist.map Prod.snd)) clist hne
  refine ⟨l.reverse, ?_, by simp [hl], ?_⟩
  · unfold athena; simp only; rw [e]; rfl
  · intro i c hc
    obtain ⟨nc, h1, h2⟩ := hi i c hc
    have hlt := (List.getElem?_eq_some_iff.1 hc).1
    refine ⟨nc, h1, ?_⟩
    rw [List.getElem?_reverse (by omega), hl, show clist.length - 1 - (clist.length - 1 - i) = i by omega, h2]

/-- C222: in uniform Gkeyll files of up to three axes, axis by axis, nodes are from the lower to the upper bound, one more than there are cells. -/
theorem C222_uniform (lower upper : List ℚ) (num : List Nat) (nr : Nat) (h3 : nr ≤ 3) (hl : lower.length = nr) (hu : upper.length = nr) (hn : num.length = nr) :
    ∃ l, gkeyll (.uniform lower upper num) nr = .ok l ∧ l.length = nr ∧
      ∀ (i : Nat) lo hi n c, lower[i]? = some lo → upper[i]? = some hi → num[i]? = some n → ['x', 'y', 'z'][i]? = some c → l[i]? = some (c, .uniform lo hi (n + 1)) := by
  match lower, upper, num, nr, h3, hl, hu, hn with
  | [], [], [], 0, _, _, _, _ => exact ⟨[], rfl, rfl, by simp⟩
  | [a], [b], [c], 1, _, _, _, _ =>
    refine ⟨[('x', .uniform a b (c + 1))], rfl, rfl, ?_⟩
    intro i lo hi n ch e1 e2 e3 e4
    match i with
    | 0 => simp at e1 e2 e3 e4; subst e1 e2 e3 e4; rfl
    | i + 1 => simp at e1
  | [a, a'], [b, b'], [c, c'], 2, _, _, _, _ =>
    refine ⟨[('x', .uniform a b (c + 1)), ('y', .uniform a' b' (c' + 1))], rfl, rfl, ?_⟩
    intro i lo hi n ch e1 e2 e3 e4
    match i with
    | 0 => simp at e1 e2 e3 e4; subst e1 e2 e3 e4; rfl
    | 1 => simp at e1 e2 e3 e4; subst e1 e2 e3 e4; rfl
    | i + 2 => simp at e1
  | [a, a', a''], [b, b', b''], [c, c', c''], 3, _, _, _, _ =>
    refine ⟨[('x', .uniform a b (c + 1)), ('y', .uniform a' b' (c' + 1)), ('z', .uniform a'' b'' (c'' + 1))], rfl, rfl, ?_⟩
    intro i lo hi n ch e1 e2 e3 e4
    match i with
    | 0 => simp at e1 e2 e3 e4; subst e1 e2 e3 e4; rfl
    | 1 => simp at e1 e2 e3 e4; subst e1 e2 e3 e4; rfl
    | 2 => simp at e1 e2 e3 e4; subst e1 e2 e3 e4; rfl
    | i + 3 => simp at e1

/-- C222: in rectilinear and structured files of three axes nodes are those of the arrays. -/
theorem C222_arrays (ax ay az : List ℚ) (nx ny nz k : Nat) (get : List Nat → ℚ) :
    gkeyll (.rectilinear [ax, ay, az]) 3 = .ok [('x', .arr ax), ('y', .arr ay), ('z', .arr az)] ∧
    ∃ x y z, gkeyll (.structured [nx, ny, nz, k] get) 3 = .ok [('x', .arr x), ('y', .arr y), ('z', .arr z)] ∧ x.length = nx ∧ y.length = ny ∧ z.length = nz ∧
      (∀ i, i < nx → x[i]? = some (get [i, 0, 0, 0])) ∧ (∀ i, i < ny → y[i]? = some (get [0, i, 0, 1])) ∧ (∀ i, i < nz → z[i]? = some (get [0, 0, i, 2])) := by
  refine ⟨rfl, _, _, _, rfl, by simp, by simp, by simp, ?_, ?_, ?_⟩ <;> intro i hi <;> rw [List.getElem?_map, List.getElem?_range hi] <;> rfl

/-- C222 is false of uniform files with fewer bounds than axes: those without are left out, and no error is raised. -/
theorem C222_skipped_violated (lo hi : ℚ) (n nr : Nat) (h : 1 ≤ nr) : gkeyll (.uniform [lo] [hi] [n]) nr = .ok [('x', .uniform lo hi (n + 1))] := by
  induction nr with
  | zero => omega
  | succ m ih =>
    rcases Nat.eq_zero_or_pos m with rfl | hm
    · rfl
    · have e := ih hm
      unfold gkeyll at e ⊢
      rw [List.range_succ, List.foldlM_append, e]
      match m, hm with
      | 1, _ => rfl
      | 2, _ => rfl
      | k + 3, _ => rfl

/-- C222: unknown kinds and missing arrays are refused. -/
theorem C222_refused (axes : List (List ℚ)) (nr : Nat) (h : axes.length < nr) (h3 : nr ≤ 3) :
    gkeyll .other nr = .error .runtime ∧ gkeyll (.rectilinear axes) nr = .error .key := by
  match nr, axes, h, h3 with
  | 1, [], _, _ => exact ⟨rfl, rfl⟩
  | 2, [], _, _ => exact ⟨rfl, rfl⟩
  | 2, [_], _, _ => exact ⟨rfl, rfl⟩
  | 3, [], _, _ => exact ⟨rfl, rfl⟩
  | 3, [_], _, _ => exact ⟨rfl, rfl⟩
  | 3, [_, _], _, _ => exact ⟨rfl, rfl⟩

example : Up [0, 1, 3] ∧ Spaced [0, 2, 4] 2 ∧ dxmin [[0, 1, 3], [5]] = some 1 := by
  refine ⟨?_, ?_, by decide +kernel⟩
  · intro i a b ha hb
    match i with
    | 0 => simp at ha hb; subst ha hb; norm_num
    | 1 => simp at ha hb; subst ha hb; norm_num
    | i + 2 => simp at hb
  · intro i a b ha hb
    match i with
    | 0 => simp at ha hb; subst ha hb; norm_num
    | 1 => simp at ha hb; subst ha hb; norm_num
    | i + 2 => simp at hb

end Viscid.Props
