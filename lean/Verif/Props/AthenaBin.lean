import Verif.Model.AthenaBin
import Verif.Spec.AthenaBin
/-!
# C147 Athena's binary files
-/
namespace Viscid.Props
open Viscid.AthenaBin Viscid.Spec.AthenaBin

theorem put_length (big : Bool) (w : List UInt8) : (put big w).length = w.length := by
  unfold put; split <;> simp

theorem flat_length (big : Bool) (k : Nat) (ws : List (List UInt8)) (h : ∀ w ∈ ws, w.length = k) :
    (ws.flatMap (put big)).length = ws.length * k := by
  induction ws with
  | nil => simp
  | cons w ws ih =>
    rw [List.flatMap_cons, List.length_append, put_length, ih fun w hw => h w (by simp [hw]), h w (by simp), List.length_cons, Nat.succ_mul]
    omega

/-- items of one size are read -/
theorem fromFile_put (e : Endian) (big : Bool) (k : Nat) (hk : 0 < k) (ws : List (List UInt8)) (rest : List UInt8) (h : ∀ w ∈ ws, w.length = k) :
    fromFile e k ws.length (ws.flatMap (put big) ++ rest) = ws.map fun w => native e (put big w) := by
  induction ws with
  | nil => rfl
  | cons w ws ih =>
    have hw : (put big w).length = k := by rw [put_length]; exact h w (by simp)
    rw [List.flatMap_cons, List.append_assoc, List.length_cons, List.map_cons]
    unfold fromFile
    rw [if_neg (by rw [List.length_append]; omega), List.take_append_of_le_length (by omega), List.take_of_length_le (by omega),
      List.drop_append_of_le_length (by omega), List.drop_of_length_le (by omega), List.nil_append, ih fun w hw => h w (by simp [hw])]

def endOf (big : Bool) : Endian := if big then .big else .little

theorem native_put (big : Bool) (w : List UInt8) : native (endOf big) (put big w) = w := by
  cases big <;> simp [native, endOf, put]

theorem fromFile_same (big : Bool) (k n : Nat) (hk : 0 < k) (ws : List (List UInt8)) (rest : List UInt8) (h : ∀ w ∈ ws, w.length = k) (hn : ws.length = n) :
    fromFile (endOf big) k n (ws.flatMap (put big) ++ rest) = ws := by
  subst hn
  rw [fromFile_put _ _ _ hk _ _ h]
  have : (fun w => native (endOf big) (put big w)) = id := funext fun w => native_put big w
  rw [this, List.map_id]

theorem int4_length (n : Nat) : (int4 n).length = 4 := rfl

theorem int32_int4 (n : Nat) (h : n < 2 ^ 31) : int32 (int4 n) = n := by
  have : unsigned (int4 n) = n := by
    simp only [unsigned, int4, UInt8.toNat_ofNat']
    omega
  unfold int32
  rw [this, if_pos h]

/-- numbers of variables are recognised to be the other way round -/
theorem int32_swapped (n : Nat) (h : n ≤ 127) : int32 (int4 n).reverse = n * 2 ^ 24 := by
  have : unsigned (int4 n).reverse = n * 2 ^ 24 := by
    simp only [unsigned, int4, UInt8.toNat_ofNat', List.reverse_cons, List.reverse_nil, List.nil_append, List.cons_append]
    omega
  unfold int32
  rw [this, if_pos (by omega)]
  simp

theorem names_spec (r : Run) (primitive : Bool) :
    ∃ all, allNames (if primitive then "prim" else "cons") = .ok all ∧ fieldNames all (r.nvars : Int) (r.nscalars : Int) = r.names primitive := by
  have hsc : ∀ (p : Nat), (List.range r.nscalars).map (fun (i : Nat) => toString ((p : Int) + i)) =
      (List.range r.nscalars).map fun i => toString (p + i) := by
    intro p
    refine List.map_congr_left fun i _ => ?_
    rw [← Int.natCast_add]
    rfl
  obtain ⟨p, hp⟩ : ∃ p, p = 4 + (if r.energy then 1 else 0) + (if r.magnetic then 3 else 0) := ⟨_, rfl⟩
  have hv : r.nvars = p + r.nscalars := by rw [hp]; rfl
  have h1 : (r.nvars : Int) - r.nscalars = p := by omega
  have h2 : ((r.nvars : Int) - p).toNat = r.nscalars := by omega
  have h3 : r.nvars - r.nscalars = p := by omega
  have key : ∀ all, fieldNames all (r.nvars : Int) (r.nscalars : Int) = all.take 4 ++ (if r.energy then (all.drop 4).take 1 else []) ++
      (if r.magnetic then (all.drop 5).take 3 else []) ++ (List.range r.nscalars).map fun i => toString (r.nvars - r.nscalars + i) := by
    intro all
    unfold fieldNames
    simp only [h1, h2, h3, hsc]
    have e1 : ((p : Int) = 5 ∨ (p : Int) = 8) ↔ r.energy = true := by
      rw [hp]; cases r.energy <;> cases r.magnetic <;> simp
    have e2 : ((p : Int) = 7 ∨ (p : Int) = 8) ↔ r.magnetic = true := by
      rw [hp]; cases r.energy <;> cases r.magnetic <;> simp
    simp only [e1, e2]
  cases primitive
  · exact ⟨_, rfl, by rw [key]; unfold Run.names; cases r.energy <;> cases r.magnetic <;> simp⟩
  · exact ⟨_, rfl, by rw [key]; unfold Run.names; cases r.energy <;> cases r.magnetic <;> simp⟩

/-- the file, in parts -/
theorem file_parts (r : Run) (big : Bool) : r.file big =
    [int4 r.coordsys].flatMap (put big) ++ ([int4 r.nx, int4 r.ny, int4 r.nz, int4 r.nvars, int4 r.nscalars].flatMap (put big) ++
      ([int4 r.gravity, int4 r.particles].flatMap (put big) ++ ([r.gamma, r.cs].flatMap (put big) ++ ([r.time, r.dt].flatMap (put big) ++
        (r.x.flatMap (put big) ++ (r.y.flatMap (put big) ++ (r.z.flatMap (put big) ++
          (List.range r.nvars).flatMap fun v => (r.field v).flatMap (put big)))))))) := by
  simp only [Run.file, List.flatMap_cons, List.flatMap_nil, List.append_nil, List.append_assoc]

theorem drop_part (A R : List UInt8) (n m : Nat) (h : A.length = n) : (A ++ R).drop (n + m) = R.drop m := by
  subst h
  rw [List.drop_append, List.drop_of_length_le (by omega), List.nil_append]
  congr 1
  omega

theorem field_length (r : Run) (v : Nat) : (r.field v).length = r.nx * r.ny * r.nz := by
  unfold Run.field
  simp only [List.length_flatMap, List.length_map, List.length_range, List.map_const', List.sum_replicate_nat]
  rw [Nat.mul_comm, Nat.mul_comm r.nx]

theorem field_sized (r : Run) (k : Nat) (h : r.Sized k) (v : Nat) : ∀ w ∈ r.field v, w.length = k := by
  intro w hw
  simp only [Run.field, List.mem_flatMap, List.mem_map] at hw
  obtain ⟨l, _, j, _, i, _, rfl⟩ := hw
  exact h.val v i j l

/-- what is read from the header -/
theorem header_read (r : Run) (k : Nat) (hk : 0 < k) (h : r.Sized k) (big primitive : Bool) (hbig : r.nvars < if big then 128 else 1000) :
    readHeader k (if primitive then "prim" else "cons") (r.file big) =
      .ok ⟨endOf big, r.names primitive, r.time, r.dt, r.x, r.y, r.z, r.nvars, r.nx, r.ny, r.nz,
        32 + 4 * k + r.x.length * k + r.y.length * k + r.z.length * k⟩ := by
  obtain ⟨all, ha, hn⟩ := names_spec r primitive
  have hv : r.nvars < 1000 := by cases big <;> simp at hbig <;> omega
  have hs : r.nscalars < 2 ^ 31 := by
    have : r.nscalars ≤ r.nvars := by unfold Run.nvars; omega
    omega
  have hfile := file_parts r big
  revert hfile
  generalize hV : ((List.range r.nvars).flatMap fun v => (r.field v).flatMap (put big)) = V
  intro hfile
  have l0 : ([int4 r.coordsys].flatMap (put big)).length = 4 := flat_length big 4 _ (by simp [int4_length])
  have l1 : ([int4 r.nx, int4 r.ny, int4 r.nz, int4 r.nvars, int4 r.nscalars].flatMap (put big)).length = 20 := flat_length big 4 _ (by simp [int4_length])
  have l2 : ([int4 r.gravity, int4 r.particles].flatMap (put big)).length = 8 := flat_length big 4 _ (by simp [int4_length])
  have l3 : ([r.gamma, r.cs].flatMap (put big)).length = 2 * k := flat_length big k _ (by simp [h.gamma, h.cs])
  have l4 : ([r.time, r.dt].flatMap (put big)).length = 2 * k := flat_length big k _ (by simp [h.time, h.dt])
  have l5 := flat_length big k r.x h.x.2
  have l6 := flat_length big k r.y h.y.2
  have d1 : (r.file big).drop 4 = [int4 r.nx, int4 r.ny, int4 r.nz, int4 r.nvars, int4 r.nscalars].flatMap (put big) ++
      ([int4 r.gravity, int4 r.particles].flatMap (put big) ++ ([r.gamma, r.cs].flatMap (put big) ++ ([r.time, r.dt].flatMap (put big) ++
        (r.x.flatMap (put big) ++ (r.y.flatMap (put big) ++ (r.z.flatMap (put big) ++ V)))))) := by
    rw [hfile]; exact drop_part _ _ 4 0 l0
  have d2 : (r.file big).drop 24 = [int4 r.gravity, int4 r.particles].flatMap (put big) ++ ([r.gamma, r.cs].flatMap (put big) ++
      ([r.time, r.dt].flatMap (put big) ++ (r.x.flatMap (put big) ++ (r.y.flatMap (put big) ++ (r.z.flatMap (put big) ++ V))))) := by
    rw [hfile, show 24 = 4 + 20 from rfl, drop_part _ _ 4 20 l0]; exact drop_part _ _ 20 0 l1
  have d3 : (r.file big).drop 32 = [r.gamma, r.cs].flatMap (put big) ++
      ([r.time, r.dt].flatMap (put big) ++ (r.x.flatMap (put big) ++ (r.y.flatMap (put big) ++ (r.z.flatMap (put big) ++ V)))) := by
    rw [hfile, show 32 = 4 + (20 + 8) from rfl, drop_part _ _ 4 _ l0, drop_part _ _ 20 _ l1]; exact drop_part _ _ 8 0 l2
  have d4 : ∀ m, (r.file big).drop (32 + 2 * k + m) =
      ([r.time, r.dt].flatMap (put big) ++ (r.x.flatMap (put big) ++ (r.y.flatMap (put big) ++ (r.z.flatMap (put big) ++ V)))).drop m := by
    intro m
    rw [hfile, show 32 + 2 * k + m = 4 + (20 + (8 + (2 * k + m))) by omega, drop_part _ _ 4 _ l0, drop_part _ _ 20 _ l1,
      drop_part _ _ 8 _ l2, drop_part _ _ _ _ l3]
  have d5 : ∀ m, (r.file big).drop (32 + 4 * k + m) =
      (r.x.flatMap (put big) ++ (r.y.flatMap (put big) ++ (r.z.flatMap (put big) ++ V))).drop m := by
    intro m
    rw [show 32 + 4 * k + m = 32 + 2 * k + (2 * k + m) by omega, d4, drop_part _ _ _ _ l4]
  have r0 : fromFile .little 4 1 (r.file big) = [native .little (put big (int4 r.coordsys))] := by
    rw [hfile]
    exact fromFile_put .little big 4 (by omega) [int4 r.coordsys] _ (by simp [int4_length])
  have r1 : ∀ e, fromFile e 4 5 ((r.file big).drop 4) = [int4 r.nx, int4 r.ny, int4 r.nz, int4 r.nvars, int4 r.nscalars].map fun w => native e (put big w) := by
    intro e
    rw [d1]
    exact fromFile_put e big 4 (by omega) [int4 r.nx, int4 r.ny, int4 r.nz, int4 r.nvars, int4 r.nscalars] _ (by simp [int4_length])
  have he : (if int32 (native .little (put big (int4 r.nvars))) < 1000 then Endian.little else Endian.big) = endOf big := by
    cases big
    · have : native .little (put false (int4 r.nvars)) = int4 r.nvars := rfl
      rw [this, int32_int4 _ (by omega), if_pos (by omega)]
      rfl
    · have : native .little (put true (int4 r.nvars)) = (int4 r.nvars).reverse := rfl
      simp at hbig
      have h4 : 4 ≤ r.nvars := by unfold Run.nvars; omega
      rw [this, int32_swapped _ (by omega), if_neg (by omega)]
      rfl
  have r2 := fromFile_same big 4 2 (by omega) [int4 r.gravity, int4 r.particles] ([r.gamma, r.cs].flatMap (put big) ++
      ([r.time, r.dt].flatMap (put big) ++ (r.x.flatMap (put big) ++ (r.y.flatMap (put big) ++ (r.z.flatMap (put big) ++ V))))) (by simp [int4_length]) rfl
  rw [← d2] at r2
  have r3 := fromFile_same big k 2 hk [r.gamma, r.cs] ([r.time, r.dt].flatMap (put big) ++
      (r.x.flatMap (put big) ++ (r.y.flatMap (put big) ++ (r.z.flatMap (put big) ++ V)))) (by simp [h.gamma, h.cs]) rfl
  rw [← d3] at r3
  have r4 : fromFile (endOf big) k 2 ((r.file big).drop (32 + 2 * k)) = [r.time, r.dt] := by
    have := d4 0
    rw [Nat.add_zero, List.drop_zero] at this
    rw [this]
    exact fromFile_same big k 2 hk [r.time, r.dt] _ (by simp [h.time, h.dt]) rfl
  have r5 : fromFile (endOf big) k r.nx ((r.file big).drop (32 + 4 * k)) = r.x := by
    have := d5 0
    rw [Nat.add_zero, List.drop_zero] at this
    rw [this]
    exact fromFile_same big k _ hk r.x _ h.x.2 h.x.1
  have r6 : fromFile (endOf big) k r.ny ((r.file big).drop (32 + 4 * k + r.x.length * k)) = r.y := by
    rw [d5]
    have := drop_part (r.x.flatMap (put big)) (r.y.flatMap (put big) ++ (r.z.flatMap (put big) ++ V)) _ 0 l5
    rw [Nat.add_zero, List.drop_zero] at this
    rw [this]
    exact fromFile_same big k _ hk r.y _ h.y.2 h.y.1
  have r7 : fromFile (endOf big) k r.nz ((r.file big).drop (32 + 4 * k + r.x.length * k + r.y.length * k)) = r.z := by
    rw [Nat.add_assoc (32 + 4 * k), d5, drop_part _ _ _ _ l5]
    have := drop_part (r.y.flatMap (put big)) (r.z.flatMap (put big) ++ V) _ 0 l6
    rw [Nat.add_zero, List.drop_zero] at this
    rw [this]
    exact fromFile_same big k _ hk r.z _ h.z.2 h.z.1
  unfold readHeader
  rw [r0, if_neg (by simp)]
  simp only [r1, List.map_cons, List.map_nil, List.getElem?_cons_succ, List.getElem?_cons_zero, he, native_put]
  simp only [int32_int4 _ h.nx, int32_int4 _ h.ny, int32_int4 _ h.nz, int32_int4 _ (show r.nvars < 2 ^ 31 by omega), int32_int4 _ hs, r2, r3, ha, r4,
    Int.toNat_natCast, r5, r6, r7, hn]

/-- where variables are in the file -/
theorem file_field (r : Run) (k : Nat) (h : r.Sized k) (big : Bool) (v : Nat) (hv : v < r.nvars) :
    ∃ rest, (r.file big).drop (32 + 4 * k + r.x.length * k + r.y.length * k + r.z.length * k + v * (r.nx * r.ny * r.nz * k)) =
      (r.field v).flatMap (put big) ++ rest := by
  rw [file_parts]
  have l0 : ([int4 r.coordsys].flatMap (put big)).length = 4 := flat_length big 4 _ (by simp [int4_length])
  have l1 : ([int4 r.nx, int4 r.ny, int4 r.nz, int4 r.nvars, int4 r.nscalars].flatMap (put big)).length = 20 := flat_length big 4 _ (by simp [int4_length])
  have l2 : ([int4 r.gravity, int4 r.particles].flatMap (put big)).length = 8 := flat_length big 4 _ (by simp [int4_length])
  have l3 : ([r.gamma, r.cs].flatMap (put big)).length = 2 * k := flat_length big k _ (by simp [h.gamma, h.cs])
  have l4 : ([r.time, r.dt].flatMap (put big)).length = 2 * k := flat_length big k _ (by simp [h.time, h.dt])
  have l5 := flat_length big k r.x h.x.2
  have l6 := flat_length big k r.y h.y.2
  have l7 := flat_length big k r.z h.z.2
  rw [show 32 + 4 * k + r.x.length * k + r.y.length * k + r.z.length * k + v * (r.nx * r.ny * r.nz * k) =
    4 + (20 + (8 + (2 * k + (2 * k + (r.x.length * k + (r.y.length * k + (r.z.length * k + v * (r.nx * r.ny * r.nz * k)))))))) by omega,
    drop_part _ _ _ _ l0, drop_part _ _ _ _ l1, drop_part _ _ _ _ l2, drop_part _ _ _ _ l3, drop_part _ _ _ _ l4, drop_part _ _ _ _ l5,
    drop_part _ _ _ _ l6, drop_part _ _ _ _ l7]
  have key : ∀ (v s n : Nat), v < n → ∃ rest, ((List.range' s n).flatMap fun v => (r.field v).flatMap (put big)).drop (v * (r.nx * r.ny * r.nz * k)) =
      (r.field (s + v)).flatMap (put big) ++ rest := by
    intro v
    induction v with
    | zero =>
      intro s n hn
      obtain ⟨m, rfl⟩ : ∃ m, n = m + 1 := ⟨n - 1, by omega⟩
      rw [List.range'_succ, List.flatMap_cons]
      exact ⟨(List.range' (s + 1) m).flatMap fun v => (r.field v).flatMap (put big), by rw [Nat.zero_mul, List.drop_zero]; rfl⟩
    | succ v ih =>
      intro s n hn
      obtain ⟨m, rfl⟩ : ∃ m, n = m + 1 := ⟨n - 1, by omega⟩
      rw [List.range'_succ, List.flatMap_cons, Nat.succ_mul, Nat.add_comm]
      have l : ((r.field s).flatMap (put big)).length = r.nx * r.ny * r.nz * k := by
        rw [flat_length big k _ (field_sized r k h s), field_length]
      rw [drop_part _ _ _ _ l]
      obtain ⟨rest, hr⟩ := ih (s + 1) m (by omega)
      exact ⟨rest, by rw [hr]; congr 3; omega⟩
  obtain ⟨rest, hr⟩ := key v 0 r.nvars hv
  rw [Nat.zero_add] at hr
  exact ⟨rest, by rw [List.range_eq_range', hr]⟩

/-- C147: a file of a run, of either endianness, has the time, coordinates and names of fields that were written, and each field, by its number,
    is the one written. Big endian files may have up to 127 variables, and little endian ones up to 999. -/
theorem C147_read_partial (r : Run) (k : Nat) (hk : 0 < k) (h : r.Sized k) (big primitive : Bool) (hbig : r.nvars < if big then 128 else 1000) :
    ∃ hd, readHeader k (if primitive then "prim" else "cons") (r.file big) = .ok hd ∧ hd.time = r.time ∧ hd.dt = r.dt ∧ hd.x = r.x ∧ hd.y = r.y ∧ hd.z = r.z ∧
      hd.names = r.names primitive ∧ hd.names.length = r.nvars ∧
      (∀ v, v < r.nvars → readField k hd (r.file big) v = .ok (r.field v)) ∧
      ∀ v, r.nvars ≤ v → readField k hd (r.file big) v = .error .index := by
  refine ⟨_, header_read r k hk h big primitive hbig, rfl, rfl, rfl, rfl, rfl, rfl, ?_, ?_, ?_⟩
  · unfold Run.names Run.nvars
    cases primitive <;> cases r.energy <;> cases r.magnetic <;> simp <;> omega
  · intro v hv
    obtain ⟨rest, hr⟩ := file_field r k h big v hv
    unfold readField
    dsimp only
    rw [if_neg (by omega), hr]
    rw [fromFile_same big k _ hk (r.field v) rest (field_sized r k h v) (field_length r v)]
  · intro v hv
    unfold readField
    dsimp only
    rw [if_pos (by omega)]

theorem flatMap_get {α : Type} (f : Nat → List α) (m : Nat) (n s : Nat) (h : ∀ i, (f i).length = m) (i j : Nat) (hi : i < n) (hj : j < m) :
    ((List.range' s n).flatMap f)[i * m + j]? = (f (s + i))[j]? := by
  induction i generalizing s n with
  | zero =>
    obtain ⟨n, rfl⟩ : ∃ k, n = k + 1 := ⟨n - 1, by omega⟩
    rw [List.range'_succ, List.flatMap_cons, List.getElem?_append_left (by rw [h]; omega)]
    simp
  | succ i ih =>
    obtain ⟨n, rfl⟩ : ∃ k, n = k + 1 := ⟨n - 1, by omega⟩
    rw [List.range'_succ, List.flatMap_cons, List.getElem?_append_right (by rw [h, Nat.succ_mul]; omega), h,
      show (i + 1) * m + j - m = i * m + j by rw [Nat.succ_mul]; omega, ih n (s + 1) (by omega)]
    congr 2
    omega

/-- C147: in cell (i, j, l) of the field is the value written there -/
theorem C147_cell_partial (r : Run) (k : Nat) (hk : 0 < k) (h : r.Sized k) (big primitive : Bool) (hbig : r.nvars < if big then 128 else 1000)
    (v i j l : Nat) (hv : v < r.nvars) (hi : i < r.nx) (hj : j < r.ny) (hl : l < r.nz) :
    ∃ hd a, readHeader k (if primitive then "prim" else "cons") (r.file big) = .ok hd ∧
      getArray k hd hd.z.length hd.y.length hd.x.length (r.file big) v = .ok a ∧ a l j i = some (r.val v i j l) := by
  obtain ⟨hd, e, _, _, hx, hy, hz, _, _, hf, _⟩ := C147_read_partial r k hk h big primitive hbig
  have hg : getArray k hd hd.z.length hd.y.length hd.x.length (r.file big) v = .ok fun iz iy ix =>
      if iz < r.nz ∧ iy < r.ny ∧ ix < r.nx then (r.field v)[(iz * r.ny + iy) * r.nx + ix]? else none := by
    unfold getArray
    rw [hf v hv]
    dsimp only
    rw [hx, hy, hz, h.x.1, h.y.1, h.z.1, if_neg]
    rw [field_length, Nat.mul_comm r.nx, Nat.mul_comm, ← Nat.mul_assoc]
    simp
  refine ⟨hd, _, e, hg, ?_⟩
  rw [if_pos ⟨hl, hj, hi⟩]
  unfold Run.field
  rw [show (l * r.ny + j) * r.nx + i = l * (r.ny * r.nx) + (j * r.nx + i) by
    rw [Nat.add_mul, Nat.mul_assoc, Nat.add_assoc]]
  have hb : j * r.nx + i < r.ny * r.nx := by
    have : (j + 1) * r.nx ≤ r.ny * r.nx := Nat.mul_le_mul_right _ hj
    rw [Nat.succ_mul] at this
    omega
  rw [List.range_eq_range' (n := r.nz), flatMap_get _ (r.ny * r.nx) _ _ (by
      intro l
      simp only [List.length_flatMap, List.length_map, List.length_range, List.map_const', List.sum_replicate_nat]) _ _ hl hb,
    List.range_eq_range' (n := r.ny), flatMap_get _ r.nx _ _ (by intro j; simp) _ _ hj hi]
  simp [hi]

/-- C147 is false of more variables: a number of variables from 128 to 255, in a big endian file, is taken for a little endian one, -/
theorem C147_big_violated (n : Nat) (h : 128 ≤ n) (h' : n ≤ 255) : int32 (native .little (put true (int4 n))) < 1000 := by
  show int32 (int4 n).reverse < 1000
  have : unsigned (int4 n).reverse = n * 2 ^ 24 := by
    simp only [unsigned, int4, UInt8.toNat_ofNat', List.reverse_cons, List.reverse_nil, List.nil_append, List.cons_append]
    omega
  unfold int32
  rw [this, if_neg (by omega)]
  omega

/-- a small run -/
def smallRun (nscalars : Nat) : Run where
  nx := 2
  ny := 1
  nz := 1
  energy := true
  magnetic := false
  nscalars := nscalars
  coordsys := 0
  gravity := 0
  particles := 0
  gamma := [1, 2, 3, 4]
  cs := [1, 2, 3, 5]
  time := [9, 2, 3, 4]
  dt := [9, 2, 3, 5]
  x := [[0, 0, 0, 1], [0, 0, 0, 2]]
  y := [[0, 0, 0, 3]]
  z := [[0, 0, 0, 4]]
  val := fun v i _ _ => [UInt8.ofNat v, UInt8.ofNat i, 7, 8]

theorem smallRun_sized (n : Nat) : (smallRun n).Sized 4 := by
  constructor <;> simp [smallRun]

/-- the hypotheses are met -/
example : (smallRun 3).nvars < 128 ∧ (smallRun 3).names false = ["d", "M1", "M2", "M3", "E", "5", "6", "7"] := by decide +kernel

/-- C147 is false of more variables: the time of such a file is not the one written, and -/
theorem C147_big_header_violated : ∃ hd, readHeader 4 "cons" ((smallRun 123).file true) = .ok hd ∧ hd.time ≠ (smallRun 123).time ∧ hd.nvars ≠ 128 := by
  have h : (match readHeader 4 "cons" ((smallRun 123).file true) with
      | .ok hd => decide (hd.time ≠ (smallRun 123).time ∧ hd.nvars ≠ 128)
      | .error _ => false) = true := by decide +kernel
  split at h
  · rename_i hd e
    exact ⟨hd, e, of_decide_eq_true h⟩
  · cases h

/-- a little endian file of 1000 variables or more is taken for a big endian one -/
theorem C147_little_violated (n : Nat) (h : 1000 ≤ n) (h' : n < 2 ^ 31) : ¬ int32 (native .little (put false (int4 n))) < 1000 := by
  show ¬ int32 (int4 n) < 1000
  rw [int32_int4 n h']
  omega

theorem fromFile_length (e : Endian) (k n : Nat) : ∀ bs : List UInt8, (fromFile e k n bs).length * k ≤ bs.length := by
  induction n with
  | zero => intro bs; simp [fromFile]
  | succ n ih =>
    intro bs
    unfold fromFile
    split
    · simp
    · rename_i h
      have := ih (bs.drop k)
      rw [List.length_drop] at this
      rw [List.length_cons, Nat.succ_mul]
      omega

/-- C147: any other `var_type` is a RuntimeError, and a file that ends in its header is an error, too -/
theorem C147_refused (k : Nat) (varType : String) (file : List UInt8) :
    (file.length < 32 + 4 * k → ∃ e, readHeader k varType file = .error e) ∧
    (varType ≠ "cons" → varType ≠ "prim" → ∃ e, readHeader k varType file = .error e) := by
  refine ⟨fun hf => ?_, fun h1 h2 => ?_⟩
  · have key : ∀ e (a b : Word), fromFile e k 2 (file.drop (32 + 2 * k)) ≠ [a, b] := by
      intro e a b ht
      have h3 := fromFile_length e k 2 (file.drop (32 + 2 * k))
      rw [ht, List.length_drop] at h3
      simp only [List.length_cons, List.length_nil] at h3
      by_cases hk : k = 0
      · subst hk
        simp [fromFile] at ht
      · omega
    unfold readHeader
    dsimp only
    repeat' split
    all_goals first | exact ⟨_, rfl⟩ | exact absurd ‹fromFile _ k 2 (file.drop (32 + 2 * k)) = _› (key _ _ _)
  · have ha : allNames varType = .error .runtime := by
      unfold allNames
      rw [if_neg h1, if_neg h2]
    unfold readHeader
    simp only [ha]
    split
    · exact ⟨_, rfl⟩
    · split
      · exact ⟨_, rfl⟩
      · split
        · split
          · split
            · exact ⟨_, rfl⟩
            · exact ⟨_, rfl⟩
          · exact ⟨_, rfl⟩
        · exact ⟨_, rfl⟩

/-- C147: a file without all four dimensions is an IndexError, whatever else is asked for -/
theorem C147_short (k : Nat) (varType : String) (file : List UInt8) (h : file.length < 20) : readHeader k varType file = .error .index := by
  unfold readHeader
  split
  · rfl
  · have h1 := fromFile_length .little 4 5 (file.drop 4)
    rw [List.length_drop] at h1
    have : (fromFile .little 4 5 (file.drop 4))[3]? = none := by
      rw [List.getElem?_eq_none_iff]
      omega
    simp only [this]

/-- C147: a file that ends before the end of a field is a ValueError when that field is used -/
theorem C147_truncated (k : Nat) (hk : 0 < k) (hd : Header) (file : List UInt8) (v : Nat) (hv : (v : Int) < hd.nvars)
    (hn : 0 < hd.nx * hd.ny * hd.nz) (hs : file.length < hd.loc + (v + 1) * (hd.nx * hd.ny * hd.nz * k)) :
    getArray k hd hd.nz hd.ny hd.nx file v = .error .value := by
  unfold getArray readField
  rw [if_neg (by omega)]
  dsimp only
  rw [if_pos]
  intro h
  have h1 := fromFile_length hd.endian k (hd.nx * hd.ny * hd.nz) (file.drop (hd.loc + v * (hd.nx * hd.ny * hd.nz * k)))
  rw [h, List.length_drop, show hd.nz * hd.ny * hd.nx = hd.nx * hd.ny * hd.nz by
    rw [Nat.mul_comm hd.nx, Nat.mul_comm (hd.ny * hd.nx), ← Nat.mul_assoc]] at h1
  rw [Nat.succ_mul] at hs
  have := Nat.mul_pos hn hk
  omega

end Viscid.Props
