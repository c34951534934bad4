import Verif.Model.WrapMesh
import Verif.Props.SeedGrid
/-!
# C271: data on the mesh of a sphere
-/
namespace Viscid.Spec.WrapMesh
open Viscid.WrapMesh

/-- Specification: the numbers that an array of a type can have -/
def Valid : DType → Rat → Prop
  | .float, _ => True
  | .int, q => ∃ n : Int, q = n
  | .bool, q => q = 0 ∨ q = 1

/-- Specification: a number made into one of a type: towards 0 for integers, not 0 for truth values -/
def conv : DType → Rat → Rat
  | .float, q => q
  | .int, q => if 0 ≤ q then (q.floor : Int) else ((-(-q).floor : Int) : Rat)
  | .bool, q => if q = 0 then 0 else 1

/-- Specification: `m` is the mean of the numbers -/
def IsMean (l : List Rat) (m : Rat) : Prop := m * (l.length : Rat) = l.sum

/-- Specification: the entry of a mesh at a place -/
def entry {α : Type} (rows : List (List α)) (i j : Nat) : Option α := rows[i]?.bind (·[j]?)

end Viscid.Spec.WrapMesh

namespace Viscid.Props
open Viscid.Seed Viscid.WrapMesh Viscid.Spec.SeedGrid Viscid.Spec.WrapMesh

namespace WM

theorem cast_valid {t : DType} {q : Rat} (h : Valid t q) : astype t q = q := by
  cases t with
  | float => rfl
  | int => obtain ⟨n, rfl⟩ := h; simp [astype]
  | bool => rcases h with rfl | rfl <;> simp [astype]

theorem valid_cast (t : DType) (q : Rat) : Valid t (astype t q) := by
  cases t with
  | float => trivial
  | int => exact ⟨_, rfl⟩
  | bool =>
    unfold astype
    by_cases h : q = 0
    · simp [h, Valid]
    · simp [h, Valid]

theorem map_valid {t : DType} {l : List Rat} (h : ∀ q ∈ l, Valid t q) : l.map (astype t) = l := by
  induction l with
  | nil => rfl
  | cons a l ih => rw [List.map_cons, cast_valid (h a (by simp)), ih fun q hq => h q (by simp [hq])]

theorem valid_getD {t : DType} {l : List Rat} (h : ∀ q ∈ l, Valid t q) (k : Nat) : Valid t (l.getD k 0) := by
  rw [List.getD_eq_getElem?_getD]
  cases e : l[k]? with
  | none =>
    cases t with
    | float => trivial
    | int => exact ⟨0, rfl⟩
    | bool => exact Or.inl rfl
  | some v => exact h v (List.mem_of_getElem? e)

theorem cell {α : Type} (nu nv : Nat) (l : List α) (i j : Nat) :
    ((reshape2 nu nv l)[i]?.bind (·[j]?)) = if i < nu ∧ j < nv then l[i * nv + j]? else none := by
  unfold reshape2
  rw [List.getElem?_map]
  by_cases hi : i < nu
  · by_cases hj : j < nv
    · simp [hi, hj, List.getElem?_drop]
    · simp [hi, hj, List.getElem?_take]
  · simp [hi]

theorem astype_conv (t : DType) (q : Rat) : astype t q = conv t q := by
  cases t with
  | float => rfl
  | bool => rfl
  | int =>
    simp only [astype, conv]
    by_cases h : 0 ≤ q
    · have hn : 0 ≤ q.num := Rat.num_nonneg.2 h
      rw [if_pos h, Int.tdiv_eq_ediv_of_nonneg hn, Rat.floor_def]
    · have hn : 0 ≤ -q.num := by
        have : ¬ 0 ≤ q.num := fun e => h (Rat.num_nonneg.1 e)
        omega
      rw [if_neg h, Rat.floor_def, Rat.neg_num, Rat.neg_den, ← Int.tdiv_eq_ediv_of_nonneg hn, Int.neg_tdiv, Int.neg_neg]

theorem isMean_mean {l : List Rat} (h : 0 < l.length) : IsMean l (mean l) := by
  unfold IsMean mean
  refine Rat.div_mul_cancel fun e => ?_
  have : l.length = 0 := by exact_mod_cast e
  omega

theorem isMean_unique {l : List Rat} (h : 0 < l.length) {m : Rat} (e : IsMean l m) : m = mean l := by
  have hl : (l.length : Rat) ≠ 0 := fun e => by
    have : l.length = 0 := by exact_mod_cast e
    omega
  unfold IsMean at e
  unfold mean
  rw [← e, Rat.mul_div_cancel hl]

theorem ring_pos {o : MeshOpts} (hp : 0 < o.nphi) (t : Nat) (l : List Rat) : 0 < (ring o.thetaPhi o.ntheta o.nphi t 0 l).length := by
  simpa [ring] using hp

theorem entry_map {α β : Type} (L : List (List α)) (f : α → β) (i j : Nat) : entry (L.map fun r => r.map f) i j = (entry L i j).map f := by
  unfold entry
  rw [List.getElem?_map]
  cases L[i]? <;> simp

end WM

/-- with holes filled: all meshes have the layout of the sphere -/
theorem WM.filled {α : Type} (o : MeshOpts) (own : Bool) (fill : Option Bool) (hf : fill = some true ∨ (fill = none ∧ own = true))
    (d p0 p1 : α) (pts : List α) (arrs : List Arr)
    (ht : 0 < o.ntheta) (hp : 0 < o.nphi) (h : pts.length = o.ntheta * o.nphi)
    (ha : ∀ a ∈ arrs, a.vals.length = o.ntheta * o.nphi ∧ ∀ q ∈ a.vals, Valid a.dtype q) :
    let L := meshLayout o.thetaPhi o.ntheta o.nphi o.skip0 o.skip1 o.seam
    let r := wrapMesh o own fill p0 p1 pts arrs
    r.1 = L.map (fun row => row.map (value d p0 p1 pts)) ∧
      r.2 = arrs.map fun a => ⟨a.dtype, L.map fun row => row.map (value 0
        (astype a.dtype (mean (ring o.thetaPhi o.ntheta o.nphi 0 0 a.vals)))
        (astype a.dtype (mean (ring o.thetaPhi o.ntheta o.nphi (o.ntheta - 1) 0 a.vals))) a.vals)⟩ := by
  have e : fillHoles own fill = true := by
    rcases hf with rfl | ⟨rfl, rfl⟩ <;> rfl
  simp only [wrapMesh, e]
  refine ⟨C78_as_mesh o d p0 p1 pts h ht hp, List.map_congr_left fun a hm => ?_⟩
  rw [C78_arr2mesh o 0 mean a.vals (ha a hm).1 ht hp]
  simp only [List.map_map, MeshArr.mk.injEq, true_and]
  refine List.map_congr_left fun row _ => ?_
  simp only [Function.comp_apply, List.map_map]
  refine List.map_congr_left fun s _ => ?_
  cases s with
  | seed k => simp only [Function.comp_apply, value]; exact WM.cast_valid (WM.valid_getD (ha a hm).2 k)
  | pole i => simp only [Function.comp_apply, value]; split <;> rfl

/-- **C271**: with holes filled, the vertices and every array have the layout of the mesh of the sphere; each array keeps its place and its type, each seed has its own value, and a pole that was left out has the mean of the ring next to it, converted to the type of the array. -/
theorem C271_filled {α : Type} (o : MeshOpts) (own : Bool) (fill : Option Bool) (hf : fill = some true ∨ (fill = none ∧ own = true))
    (d p0 p1 : α) (pts : List α) (arrs : List Arr)
    (ht : 0 < o.ntheta) (hp : 0 < o.nphi) (h : pts.length = o.ntheta * o.nphi)
    (ha : ∀ a ∈ arrs, a.vals.length = o.ntheta * o.nphi ∧ ∀ q ∈ a.vals, Valid a.dtype q) :
    let L := meshLayout o.thetaPhi o.ntheta o.nphi o.skip0 o.skip1 o.seam
    let r := wrapMesh o own fill p0 p1 pts arrs
    r.1 = L.map (fun row => row.map (value d p0 p1 pts)) ∧ r.2.map (·.dtype) = arrs.map (·.dtype) ∧
      ∀ (n : Nat) (a : Arr) (m : MeshArr), arrs[n]? = some a → r.2[n]? = some m →
        ∃ m0 m1 : Rat, IsMean (ring o.thetaPhi o.ntheta o.nphi 0 0 a.vals) m0 ∧
          IsMean (ring o.thetaPhi o.ntheta o.nphi (o.ntheta - 1) 0 a.vals) m1 ∧
          m.rows = L.map fun row => row.map (value 0 (conv a.dtype m0) (conv a.dtype m1) a.vals) := by
  have w := WM.filled o own fill hf d p0 p1 pts arrs ht hp h ha
  simp only at w ⊢
  refine ⟨w.1, by rw [w.2]; simp, fun n a m hn hm => ?_⟩
  rw [w.2, List.getElem?_map, hn] at hm
  simp only [Option.map_some, Option.some.injEq] at hm
  subst hm
  refine ⟨_, _, WM.isMean_mean (WM.ring_pos hp 0 a.vals), WM.isMean_mean (WM.ring_pos hp (o.ntheta - 1) a.vals), ?_⟩
  simp only [WM.astype_conv]

/-- **C271**: without filling, the entry (i, j) of the vertices and of every array is that of the same seed. -/
theorem C271_plain {α : Type} (o : MeshOpts) (own : Bool) (fill : Option Bool) (hf : fill = some false ∨ (fill = none ∧ own = false))
    (p0 p1 : α) (pts : List α) (arrs : List Arr) (ha : ∀ a ∈ arrs, ∀ q ∈ a.vals, Valid a.dtype q) :
    let nu := if o.thetaPhi then o.ntheta else o.nphi
    let nv := if o.thetaPhi then o.nphi else o.ntheta
    let r := wrapMesh o own fill p0 p1 pts arrs
    (∀ i j : Nat, (r.1[i]?.bind (·[j]?)) = if i < nu ∧ j < nv then pts[i * nv + j]? else none) ∧
      r.2.map (·.dtype) = arrs.map (·.dtype) ∧
      ∀ (n : Nat) (a : Arr) (m : MeshArr), arrs[n]? = some a → r.2[n]? = some m →
        ∀ i j : Nat, (m.rows[i]?.bind (·[j]?)) = if i < nu ∧ j < nv then a.vals[i * nv + j]? else none := by
  have e : fillHoles own fill = false := by
    rcases hf with rfl | ⟨rfl, rfl⟩ <;> rfl
  simp only [wrapMesh, e, asMesh, arr2mesh, Bool.not_false, if_true]
  refine ⟨fun i j => ?_, by simp, fun n a m hn hm i j => ?_⟩
  · cases o.thetaPhi <;> simp only [if_true, Bool.false_eq_true, if_false] <;> exact WM.cell _ _ _ _ _
  · rw [List.getElem?_map, hn] at hm
    simp only [Option.map_some, Option.some.injEq] at hm
    subst hm
    have hv := ha a (List.mem_of_getElem? hn)
    have key : ∀ nu nv : Nat, (((reshape2 nu nv a.vals).map fun r => r.map (astype a.dtype))[i]?.bind (·[j]?)) =
        if i < nu ∧ j < nv then a.vals[i * nv + j]? else none := by
      intro nu nv
      have c := WM.cell nu nv (a.vals.map (astype a.dtype)) i j
      rw [WM.map_valid hv] at c
      rw [← c]
      have e2 : ((reshape2 nu nv a.vals).map fun r => r.map (astype a.dtype)) = reshape2 nu nv (a.vals.map (astype a.dtype)) := by
        simp [reshape2, List.map_drop, List.map_take]
      rw [e2, WM.map_valid hv]
    cases o.thetaPhi <;> simp only [if_true, Bool.false_eq_true, if_false] <;> exact key _ _

/-- **C271**, for arrays of floating point numbers: a pole that was left out has the mean of the ring next to it. -/
theorem C271_mean_partial {α : Type} (o : MeshOpts) (own : Bool) (fill : Option Bool) (hf : fill = some true ∨ (fill = none ∧ own = true))
    (p0 p1 : α) (pts : List α) (arrs : List Arr)
    (ht : 0 < o.ntheta) (hp : 0 < o.nphi) (h : pts.length = o.ntheta * o.nphi)
    (ha : ∀ a ∈ arrs, a.vals.length = o.ntheta * o.nphi ∧ ∀ q ∈ a.vals, Valid a.dtype q)
    (n : Nat) (a : Arr) (m : MeshArr) (hn : arrs[n]? = some a) (hm : (wrapMesh o own fill p0 p1 pts arrs).2[n]? = some m)
    (hd : a.dtype = .float) (i j : Nat) (k : Fin 2)
    (hk : entry (meshLayout o.thetaPhi o.ntheta o.nphi o.skip0 o.skip1 o.seam) i j = some (.pole k)) :
    ∃ w, entry m.rows i j = some w ∧ IsMean (ring o.thetaPhi o.ntheta o.nphi (if k = 0 then 0 else o.ntheta - 1) 0 a.vals) w := by
  cases pts with
  | nil =>
    have := Nat.mul_pos ht hp
    simp at h; omega
  | cons d pts =>
    obtain ⟨m0, m1, h0, h1, e⟩ := (C271_filled o own fill hf d p0 p1 (d :: pts) arrs ht hp h ha).2.2 n a m hn hm
    rw [e, WM.entry_map, hk, hd]
    refine ⟨_, rfl, ?_⟩
    simp only [value, conv]
    by_cases hk0 : k = 0
    · simpa [hk0] using h0
    · simpa [hk0] using h1

/-- **C271 violated**: in an array of integers or of truth values a pole does not have the mean of its ring, whenever that mean is not itself such a number. -/
theorem C271_mean_violated {α : Type} (o : MeshOpts) (own : Bool) (fill : Option Bool) (hf : fill = some true ∨ (fill = none ∧ own = true))
    (p0 p1 : α) (pts : List α) (arrs : List Arr)
    (ht : 0 < o.ntheta) (hp : 0 < o.nphi) (h : pts.length = o.ntheta * o.nphi)
    (ha : ∀ a ∈ arrs, a.vals.length = o.ntheta * o.nphi ∧ ∀ q ∈ a.vals, Valid a.dtype q)
    (n : Nat) (a : Arr) (m : MeshArr) (hn : arrs[n]? = some a) (hm : (wrapMesh o own fill p0 p1 pts arrs).2[n]? = some m) (i j : Nat) (k : Fin 2)
    (hk : entry (meshLayout o.thetaPhi o.ntheta o.nphi o.skip0 o.skip1 o.seam) i j = some (.pole k))
    (hv : ∀ q, IsMean (ring o.thetaPhi o.ntheta o.nphi (if k = 0 then 0 else o.ntheta - 1) 0 a.vals) q → ¬ Valid a.dtype q) :
    ∃ w, entry m.rows i j = some w ∧ ¬ IsMean (ring o.thetaPhi o.ntheta o.nphi (if k = 0 then 0 else o.ntheta - 1) 0 a.vals) w := by
  cases pts with
  | nil =>
    have := Nat.mul_pos ht hp
    simp at h; omega
  | cons d pts =>
    obtain ⟨m0, m1, h0, h1, e⟩ := (C271_filled o own fill hf d p0 p1 (d :: pts) arrs ht hp h ha).2.2 n a m hn hm
    rw [e, WM.entry_map, hk]
    refine ⟨_, rfl, fun c => hv _ c ?_⟩
    simp only [value]
    split <;> rw [← WM.astype_conv] <;> exact WM.valid_cast _ _

/-- Two rings of two seeds with both poles left out: integers 0, 1 and 2, 3 on the rings; the means 1/2 and 5/2 become 0 and 2 -/
example : wrapMesh ⟨true, 2, 2, true, true, true⟩ true none 'n' 's' ['a', 'b', 'c', 'd'] [⟨.int, [0, 1, 2, 3]⟩, ⟨.float, [0, 1, 2, 3]⟩] =
    ([['n', 'n', 'n'], ['a', 'b', 'a'], ['c', 'd', 'c'], ['s', 's', 's']],
      [⟨.int, [[0, 0, 0], [0, 1, 0], [2, 3, 2], [2, 2, 2]]⟩,
       ⟨.float, [[1/2, 1/2, 1/2], [0, 1, 0], [2, 3, 2], [5/2, 5/2, 5/2]]⟩]) := by decide +kernel

/-- In this case both poles are there, and the mean of the first ring is no integer -/
example : entry (meshLayout true 2 2 true true true) 0 1 = some (.pole 0) ∧ entry (meshLayout true 2 2 true true true) 3 0 = some (.pole 1) ∧
    (∀ q ∈ ([0, 1, 2, 3] : List Rat), Valid .int q) ∧ ∀ q, IsMean (ring true 2 2 0 0 [0, 1, 2, 3]) q → ¬ Valid .int q := by
  refine ⟨by decide, by decide, ?_, fun q hq => ?_⟩
  · intro q hq
    simp only [List.mem_cons, List.not_mem_nil, or_false] at hq
    rcases hq with rfl | rfl | rfl | rfl
    · exact ⟨0, rfl⟩
    · exact ⟨1, rfl⟩
    · exact ⟨2, rfl⟩
    · exact ⟨3, rfl⟩
  · rintro ⟨n, hn⟩
    have e : ring true 2 2 0 0 ([0, 1, 2, 3] : List Rat) = [0, 1] := by decide +kernel
    rw [e] at hq
    have h1 : (mean [0, 1]).den = 2 := by decide +kernel
    rw [← WM.isMean_unique (by decide) hq, hn] at h1
    simp at h1

end Viscid.Props
