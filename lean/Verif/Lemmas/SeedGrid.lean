import Verif.Model.SeedGrid
import Verif.Spec.SeedGrid
/-!
# Lemmas on the enumeration of grid points
-/
namespace Viscid.Seed
open Viscid.Spec.SeedGrid
universe u
variable {α : Type u}

def prodR (l : List Nat) : Nat := l.foldr (· * ·) 1

theorem foldl_mul (l : List Nat) (a : Nat) : l.foldl (· * ·) a = a * prodR l := by
  induction l generalizing a with
  | nil => simp [prodR]
  | cons x xs ih => rw [List.foldl_cons, ih]; simp [prodR, Nat.mul_assoc]

theorem nprod_eq (l : List Nat) : nprod l = prodR l := by unfold nprod; rw [foldl_mul, Nat.one_mul]

theorem prodR_cons (x : Nat) (xs : List Nat) : prodR (x :: xs) = x * prodR xs := rfl
theorem prodR_append (l r : List Nat) : prodR (l ++ r) = prodR l * prodR r := by
  induction l with
  | nil => simp [prodR]
  | cons x xs ih => rw [List.cons_append, prodR_cons, prodR_cons, ih, Nat.mul_assoc]

theorem npRepeat_length (l : List α) (n : Nat) : (npRepeat l n).length = l.length * n := by
  induction l with
  | nil => simp [npRepeat]
  | cons x xs ih =>
    have : npRepeat (x :: xs) n = List.replicate n x ++ npRepeat xs n := rfl
    rw [this, List.length_append, List.length_replicate, ih, List.length_cons, Nat.add_mul]; omega

theorem npRepeat_get (l : List α) (n k : Nat) (hn : 0 < n) : (npRepeat l n)[k]? = l[k / n]? := by
  induction l generalizing k with
  | nil => simp [npRepeat]
  | cons x xs ih =>
    have : npRepeat (x :: xs) n = List.replicate n x ++ npRepeat xs n := rfl
    rw [this]
    by_cases h : k < n
    · rw [List.getElem?_append_left (by simpa using h), Nat.div_eq_of_lt h]
      simp [h]
    · have h : n ≤ k := Nat.le_of_not_lt h
      rw [List.getElem?_append_right (by simpa using h), List.length_replicate, ih]
      have : k / n = (k - n) / n + 1 := by
        conv => lhs; rw [← Nat.sub_add_cancel h, Nat.add_div_right _ hn]
      rw [this]; rfl

theorem npTile_length (l : List α) (n : Nat) : (npTile l n).length = n * l.length := by
  simp [npTile, List.length_flatten, List.map_replicate, List.sum_replicate_nat]

theorem npTile_get (l : List α) (n k : Nat) (hk : k < n * l.length) : (npTile l n)[k]? = l[k % l.length]? := by
  induction n generalizing k with
  | zero => simp at hk
  | succ n ih =>
    have : npTile l (n + 1) = l ++ npTile l n := by simp [npTile, List.replicate_succ]
    rw [this]
    by_cases h : k < l.length
    · rw [List.getElem?_append_left h, Nat.mod_eq_of_lt h]
    · have h : l.length ≤ k := Nat.le_of_not_lt h
      rw [List.getElem?_append_right h, ih _ (by rw [Nat.add_mul] at hk; omega)]
      conv => rhs; rw [Nat.mod_eq_sub_mod h]

theorem product_length (axes : List (List α)) : (product axes).length = prodR (axes.map List.length) := by
  induction axes with
  | nil => rfl
  | cons a as ih =>
    rw [List.map_cons, prodR_cons, ← ih]
    show (a.flatMap fun x => (product as).map (x :: ·)).length = _
    generalize product as = P
    clear ih
    induction a with
    | nil => simp
    | cons x xs ih2 =>
      rw [List.flatMap_cons, List.length_append, List.length_map, ih2, List.length_cons, Nat.add_mul]; omega

theorem product_cons_get (a : List α) (as : List (List α)) (k : Nat) :
    (product (a :: as))[k]? =
      (a[k / (product as).length]?).bind fun x => ((product as)[k % (product as).length]?).map (x :: ·) := by
  have key : ∀ l : List α, (l.flatMap fun x => (product as).map (x :: ·))[k]? =
      (l[k / (product as).length]?).bind fun x => ((product as)[k % (product as).length]?).map (x :: ·) := by
    intro l
    induction l generalizing k with
    | nil => simp
    | cons x xs ih =>
      rw [List.flatMap_cons]
      by_cases h : k < (product as).length
      · rw [List.getElem?_append_left (by simpa using h), Nat.div_eq_of_lt h, Nat.mod_eq_of_lt h]
        simp
      · have h : (product as).length ≤ k := Nat.le_of_not_lt h
        rw [List.getElem?_append_right (by simpa using h), List.length_map, ih]
        by_cases hp : (product as).length = 0
        · have : product as = [] := List.length_eq_zero_iff.1 hp
          rw [this]; simp
        · have hp : 0 < (product as).length := Nat.pos_of_ne_zero hp
          have h1 : k / (product as).length = (k - (product as).length) / (product as).length + 1 := by
            conv => lhs; rw [← Nat.sub_add_cancel h, Nat.add_div_right _ hp]
          rw [h1, ← Nat.mod_eq_sub_mod h]
          rfl
  exact key a

/-- The rows, with the number of repetitions of the whole. -/
def rowsAux (pre : Nat) : List (List α) → List (List α)
  | [] => []
  | c :: cs => npRepeat (npTile c pre) (prodR (cs.map List.length)) :: rowsAux (pre * c.length) cs

theorem rowsAux_eq (axes : List (List α)) (pre : Nat) : rowsAux pre axes =
    (List.range axes.length).map fun i => npRepeat (npTile (axes.getD i [])
      (pre * prodR ((axes.map List.length).take i))) (prodR ((axes.map List.length).drop (i + 1))) := by
  induction axes generalizing pre with
  | nil => rfl
  | cons c cs ih =>
    unfold rowsAux
    rw [ih, List.length_cons, List.range_succ_eq_map, List.map_cons, List.map_map]
    refine List.cons_eq_cons.2 ⟨?_, ?_⟩
    · simp [prodR]
    · apply List.map_congr_left
      intro i _
      simp [prodR, Nat.mul_assoc]

theorem gridRows_eq (axes : List (List α)) : gridRows axes = rowsAux 1 axes := by
  rw [rowsAux_eq]
  unfold gridRows
  apply List.map_congr_left
  intro i _
  rw [nprod_eq, nprod_eq, Nat.one_mul]

theorem rowsAux_column (axes : List (List α)) (pre k : Nat) (hk : k < pre * prodR (axes.map List.length)) :
    ∃ p, (product axes)[k % prodR (axes.map List.length)]? = some p ∧ column (rowsAux pre axes) k = p.map some := by
  induction axes generalizing pre with
  | nil => exact ⟨[], by simp [product, prodR, Nat.mod_one], rfl⟩
  | cons c cs ih =>
    rw [List.map_cons, prodR_cons] at hk ⊢
    generalize hK : prodR (cs.map List.length) = K at *
    have hpos : 0 < pre * (c.length * K) := by omega
    have hK0 : 0 < K := Nat.pos_of_mul_pos_left (Nat.pos_of_mul_pos_left hpos)
    have hc0 : 0 < c.length := Nat.pos_of_mul_pos_right (Nat.pos_of_mul_pos_left hpos)
    obtain ⟨p, hp, hcol⟩ := ih (pre * c.length) (by rw [Nat.mul_assoc]; exact hk)
    have hd : k / K < pre * c.length := by
      rw [Nat.div_lt_iff_lt_mul hK0, Nat.mul_assoc]; exact hk
    have hmod : k / K % c.length < c.length := Nat.mod_lt _ hc0
    refine ⟨c[k / K % c.length] :: p, ?_, ?_⟩
    · rw [product_cons_get, product_length, hK, Nat.mul_comm, Nat.mod_mul_right_div_self,
        List.getElem?_eq_getElem hmod, Nat.mod_mul_right_mod, hp]
      rfl
    · unfold rowsAux
      rw [hK]
      unfold column
      rw [List.map_cons, List.map_cons]
      refine List.cons_eq_cons.2 ⟨?_, hcol⟩
      rw [npRepeat_get _ _ _ hK0, npTile_get _ _ _ hd, List.getElem?_eq_getElem hmod]

theorem rowsAux_length (axes : List (List α)) (pre : Nat) (r : List α) (hr : r ∈ rowsAux pre axes) :
    r.length = pre * prodR (axes.map List.length) := by
  induction axes generalizing pre with
  | nil => simp [rowsAux] at hr
  | cons c cs ih =>
    unfold rowsAux at hr
    rw [List.map_cons, prodR_cons]
    rcases List.mem_cons.1 hr with rfl | h
    · rw [npRepeat_length, npTile_length, Nat.mul_assoc]
    · rw [ih _ h, Nat.mul_assoc]

theorem product_pick (axes : List (List α)) (idx : List Nat) (h : Within (axes.map List.length) idx) :
    ∃ p, (product axes)[flat (axes.map List.length) idx]? = some p ∧ p.map some = pick axes idx ∧
      flat (axes.map List.length) idx < prodR (axes.map List.length) := by
  induction axes generalizing idx with
  | nil => cases idx with
    | nil => exact ⟨[], rfl, rfl, by simp [flat, prodR]⟩
    | cons => exact absurd h id
  | cons a as ih => cases idx with
    | nil => exact absurd h id
    | cons i is =>
      obtain ⟨h1, h2⟩ : i < a.length ∧ Within (as.map List.length) is := h
      obtain ⟨p, hp, hpick, hlt⟩ := ih is h2
      have hf : flat ((a :: as).map List.length) (i :: is) = i * prodR (as.map List.length) + flat (as.map List.length) is := rfl
      have hK : 0 < prodR (as.map List.length) := by omega
      refine ⟨a[i] :: p, ?_, ?_, ?_⟩
      · rw [hf, product_cons_get, product_length, Nat.mul_comm, Nat.mul_add_div hK, Nat.div_eq_of_lt hlt, Nat.add_zero,
          Nat.mul_add_mod, Nat.mod_eq_of_lt hlt, List.getElem?_eq_getElem h1, hp]
        rfl
      · unfold pick
        rw [List.map_cons, hpick, List.getElem?_eq_getElem h1]
      · rw [hf, List.map_cons, prodR_cons]
        have : (i + 1) * prodR (as.map List.length) ≤ a.length * prodR (as.map List.length) := Nat.mul_le_mul_right _ h1
        rw [Nat.add_mul] at this
        omega

end Viscid.Seed
