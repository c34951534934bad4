import Verif.Model.Vtk
import Verif.Spec.Vtk
import Mathlib.Tactic.Ring
/-!
# C238: sources of VTK hold the values of fields at their points
-/
namespace Viscid.Props
open Viscid.Vtk Viscid.Spec.Vtk
open Viscid.Layout (Arr prod unravel)

namespace VT

theorem bind_ok {ε α β : Type} (a : α) (f : α → Except ε β) : ((Except.ok a : Except ε α) >>= f) = f a := rfl
theorem bind_error {ε α β : Type} (e : ε) (f : α → Except ε β) : ((Except.error e : Except ε α) >>= f) = .error e := rfl

theorem id_lt {nx ny nz i j k : Nat} (hi : i < nx) (hj : j < ny) (hk : k < nz) : vtkId nx ny i j k < nx * ny * nz := by
  unfold vtkId
  have h1 : i + nx * (j + ny * k) < nx * (1 + (j + ny * k)) := by rw [Nat.mul_add nx 1]; omega
  have h2 : 1 + (j + ny * k) ≤ ny * nz := by
    calc 1 + (j + ny * k) ≤ ny * 1 + ny * k := by omega
      _ = ny * (1 + k) := by ring
      _ ≤ ny * nz := Nat.mul_le_mul_left _ (by omega)
  calc _ < nx * (1 + (j + ny * k)) := h1
    _ ≤ nx * (ny * nz) := Nat.mul_le_mul_left _ h2
    _ = _ := by ring

/-- digits of the number of a point -/
theorem unravel3 {nx ny nz i j k : Nat} (hi : i < nx) (hj : j < ny) : unravel [nz, ny, nx] (vtkId nx ny i j k) = [k, j, i] := by
  have e : vtkId nx ny i j k = k * (ny * nx) + (j * nx + i) := by unfold vtkId; ring
  have h1 : j * nx + i < ny * nx := by
    calc j * nx + i < j * nx + nx := by omega
      _ = (j + 1) * nx := by ring
      _ ≤ ny * nx := Nat.mul_le_mul_right _ (by omega)
  simp only [unravel, prod, List.foldr, Nat.mul_one]
  rw [e, Nat.mul_comm k, Nat.mul_add_div (by omega), Nat.div_eq_of_lt h1, Nat.mul_add_mod, Nat.mod_eq_of_lt h1, Nat.mul_comm j,
    Nat.mul_add_div (by omega), Nat.div_eq_of_lt hi, Nat.mul_add_mod, Nat.mod_eq_of_lt hi]
  simp

theorem unravel4 {nx ny nz i j k c : Nat} (hi : i < nx) (hj : j < ny) (hc : c < 3) :
    unravel [nz, ny, nx, 3] (3 * vtkId nx ny i j k + c) = [k, j, i, c] := by
  have h3 := unravel3 (nz := nz) (k := k) hi hj
  simp only [unravel, prod, List.foldr, Nat.mul_one, List.cons.injEq, Nat.div_one, and_true] at h3 ⊢
  obtain ⟨a1, a2, a3⟩ := h3
  set v := vtkId nx ny i j k
  have e1 : (3 * v + c) / (ny * (nx * 3)) = k := by
    rw [show ny * (nx * 3) = 3 * (ny * nx) by ring, ← Nat.div_div_eq_div_mul, Nat.mul_add_div (by omega), Nat.div_eq_of_lt hc, Nat.add_zero, a1]
  have e2 : (3 * v + c) % (ny * (nx * 3)) = 3 * (v % (ny * nx)) + c := by
    rw [show ny * (nx * 3) = 3 * (ny * nx) by ring, Nat.mod_mul, Nat.mul_add_mod, Nat.mod_eq_of_lt hc, Nat.mul_add_div (by omega),
      Nat.div_eq_of_lt hc, Nat.add_zero, Nat.add_comm]
  refine ⟨e1, ?_⟩
  rw [e2]
  set w := v % (ny * nx)
  refine ⟨?_, ?_, ?_⟩
  · rw [show nx * 3 = 3 * nx by ring, ← Nat.div_div_eq_div_mul, Nat.mul_add_div (by omega), Nat.div_eq_of_lt hc, Nat.add_zero, a2]
  · rw [show nx * 3 = 3 * nx by ring, Nat.mod_mul, Nat.mul_add_mod, Nat.mod_eq_of_lt hc, Nat.mul_add_div (by omega),
      Nat.div_eq_of_lt hc, Nat.add_zero, Nat.add_comm, Nat.mul_add_div (by omega), Nat.div_eq_of_lt hc, a3, Nat.add_zero]
  · rw [show nx * 3 = 3 * nx by ring, Nat.mod_mul, Nat.mul_add_mod, Nat.mod_eq_of_lt hc, Nat.mul_add_div (by omega),
      Nat.div_eq_of_lt hc, Nat.add_zero, Nat.add_comm, Nat.mul_add_mod, Nat.mod_eq_of_lt hc]

/-- what `prepField` gives: the values in VTK's order -/
theorem prep {α : Type} (f : Fld α) (nx ny nz : Nat) :
    (f.lay = .scalar → f.data.shape = [nx, ny, nz] → ∃ l, prepField f = .ok (.scalars l) ∧ l.length = nx * ny * nz ∧
      ∀ i j k, i < nx → j < ny → k < nz → l[vtkId nx ny i j k]? = some (f.data.get [i, j, k])) ∧
    (f.lay = .interlaced → f.data.shape = [nx, ny, nz, 3] → ∃ l, prepField f = .ok (.vectors l) ∧ l.length = nx * ny * nz ∧
      ∀ i j k, i < nx → j < ny → k < nz → l[vtkId nx ny i j k]? = some [f.data.get [i, j, k, 0], f.data.get [i, j, k, 1], f.data.get [i, j, k, 2]]) ∧
    (f.lay = .flat → f.data.shape = [3, nx, ny, nz] → ∃ l, prepField f = .ok (.vectors l) ∧ l.length = nx * ny * nz ∧
      ∀ i j k, i < nx → j < ny → k < nz → l[vtkId nx ny i j k]? = some [f.data.get [0, i, j, k], f.data.get [1, i, j, k], f.data.get [2, i, j, k]]) := by
  have p3 : prod [nz, ny, nx] = nx * ny * nz := by simp only [prod, List.foldr]; ring
  have p4 : prod [nz, ny, nx, 3] = 3 * (nx * ny * nz) := by simp only [prod, List.foldr]; ring
  refine ⟨fun hl hs => ?_, fun hl hs => ?_, fun hl hs => ?_⟩
  · refine ⟨(List.range (nx * ny * nz)).map fun m => (fun u => f.data.get [u.getD 2 0, u.getD 1 0, u.getD 0 0]) (unravel [nz, ny, nx] m), ?_, by simp, ?_⟩
    · unfold prepField
      rw [hl]
      simp only [npTranspose, hs, List.length_cons, List.length_nil, List.length_reverse, List.length_range, if_true]
      simp only [Except.map, ravelAll]
      congr 2
      rw [← p3]
      rfl
    · intro i j k hi hj hk
      rw [List.getElem?_map, List.getElem?_range (id_lt hi hj hk), Option.map_some, unravel3 hi hj]
      rfl
  · refine ⟨(List.range (nx * ny * nz)).map fun m => (List.range 3).map fun c => (fun u => f.data.get [u.getD 2 0, u.getD 1 0, u.getD 0 0, u.getD 3 0]) (unravel [nz, ny, nx, 3] (3 * m + c)), ?_, by simp, ?_⟩
    · unfold prepField
      rw [hl]
      simp only [npTranspose, hs, List.length_cons, List.length_nil, if_true, bind_ok, rows3]
      simp only [List.map_cons, List.map_nil, List.getD_cons_succ, List.getD_cons_zero, p4]
      rw [if_pos (by omega), bind_ok, Nat.mul_div_cancel_left _ (by omega)]
      rfl
    · intro i j k hi hj hk
      rw [List.getElem?_map, List.getElem?_range (id_lt hi hj hk), Option.map_some]
      simp only [show List.range 3 = [0, 1, 2] from rfl, List.map_cons, List.map_nil]
      rw [unravel4 hi hj (by omega : 0 < 3), unravel4 hi hj (by omega : 1 < 3), unravel4 hi hj (by omega : 2 < 3)]
      rfl
  · refine ⟨(List.range (nx * ny * nz)).map fun m => (List.range 3).map fun c => (fun u => f.data.get
        ((List.range 4).map fun d => (u.getLastD 0 :: u.dropLast).getD ([0, 3, 2, 1].idxOf d) 0)) (unravel [nz, ny, nx, 3] (3 * m + c)), ?_, by simp, ?_⟩
    · unfold prepField
      rw [hl]
      simp only [npTranspose, hs, List.length_cons, List.length_nil, if_true, bind_ok, rows3, rollFirst]
      simp only [List.map_cons, List.map_nil, List.getD_cons_succ, List.getD_cons_zero, List.tail_cons, List.take_succ_cons, List.take_zero,
        List.cons_append, List.nil_append, p4]
      rw [if_pos (by omega), bind_ok, Nat.mul_div_cancel_left _ (by omega)]
    · intro i j k hi hj hk
      rw [List.getElem?_map, List.getElem?_range (id_lt hi hj hk), Option.map_some]
      simp only [show List.range 3 = [0, 1, 2] from rfl, List.map_cons, List.map_nil]
      rw [unravel4 hi hj (by omega : 0 < 3), unravel4 hi hj (by omega : 1 < 3), unravel4 hi hj (by omega : 2 < 3)]
      rfl

end VT

/-- the data of a field of three axes fit to `nx` by `ny` by `nz` points, and the value there is `v` -/
def VT.Fits {α : Type} (f : Fld α) (nx ny nz : Nat) : Prop :=
  (f.lay = .scalar ∧ f.data.shape = [nx, ny, nz]) ∨ (f.lay = .interlaced ∧ f.data.shape = [nx, ny, nz, 3]) ∨ (f.lay = .flat ∧ f.data.shape = [3, nx, ny, nz])

/-- the values in a source are those of a field: at each point or cell, by its number in VTK -/
def VT.Holds {α : Type} (f : Fld α) (nx ny nz : Nat) : Vals α → Prop
  | .scalars l => f.lay = .scalar ∧ l.length = nx * ny * nz ∧
      ∀ i j k, i < nx → j < ny → k < nz → l[vtkId nx ny i j k]? = some (f.data.get [i, j, k])
  | .vectors l => f.lay ≠ .scalar ∧ l.length = nx * ny * nz ∧ ∀ i j k, i < nx → j < ny → k < nz →
      l[vtkId nx ny i j k]? = some ([0, 1, 2].map fun c => f.data.get (if f.lay = .interlaced then [i, j, k, c] else [c, i, j, k]))

theorem VT.prep_holds {α : Type} (f : Fld α) (nx ny nz : Nat) (h : VT.Fits f nx ny nz) :
    ∃ v, prepField f = .ok v ∧ VT.Holds f nx ny nz v := by
  obtain ⟨a, b, c⟩ := VT.prep f nx ny nz
  rcases h with ⟨h1, h2⟩ | ⟨h1, h2⟩ | ⟨h1, h2⟩
  · obtain ⟨l, e, hl, hv⟩ := a h1 h2
    exact ⟨_, e, h1, hl, hv⟩
  · obtain ⟨l, e, hl, hv⟩ := b h1 h2
    refine ⟨_, e, by rw [h1]; decide, hl, fun i j k hi hj hk => ?_⟩
    rw [hv i j k hi hj hk, h1]; rfl
  · obtain ⟨l, e, hl, hv⟩ := c h1 h2
    refine ⟨_, e, by rw [h1]; decide, hl, fun i j k hi hj hk => ?_⟩
    rw [hv i j k hi hj hk, h1]; rfl

/-- C238: as points, a field of nodes or of cells with three axes has its own coordinates, and its value at each. -/
theorem C238_points {α : Type} (f : Fld α) (x y z : List ℚ) (name : String)
    (hc : (f.center = .cell ∧ f.cc = [x, y, z]) ∨ (f.center = .node ∧ f.nc = [x, y, z])) (hf : VT.Fits f x.length y.length z.length) :
    ∃ v, field2source f (some .node) name = .ok ⟨[x.length, y.length, z.length], x, y, z, false, v, if name = "" then f.name else name⟩ ∧
      VT.Holds f x.length y.length z.length v := by
  obtain ⟨v, e, hv⟩ := VT.prep_holds f _ _ _ hf
  refine ⟨v, ?_, hv⟩
  show field2pointSource f name = _
  unfold field2pointSource
  rw [e, VT.bind_ok]
  rcases hc with ⟨h1, h2⟩ | ⟨h1, h2⟩
  · rw [if_pos h1, h2]; rfl
  · rw [if_neg (by rw [h1]; decide), if_pos h1, h2]; rfl

/-- C238: as cells, a field of cells has the coordinates of the nodes, and its value in each cell. -/
theorem C238_cells {α : Type} (f : Fld α) (x y z : List ℚ) (name : String) (nx ny nz : Nat)
    (hc : f.center = .cell) (hn : f.nc = [x, y, z]) (hl : x.length = nx + 1 ∧ y.length = ny + 1 ∧ z.length = nz + 1) (hf : VT.Fits f nx ny nz) :
    ∀ c ∈ [none, some Center.cell],
      ∃ v, field2source f c name = .ok ⟨[nx + 1, ny + 1, nz + 1], x, y, z, true, v, if name = "" then f.name else name⟩ ∧ VT.Holds f nx ny nz v := by
  intro c hcc
  obtain ⟨v, e, hv⟩ := VT.prep_holds f _ _ _ hf
  refine ⟨v, ?_, hv⟩
  have : field2source f c name = field2cellSource f name := by
    simp only [List.mem_cons, List.not_mem_nil, or_false] at hcc
    rcases hcc with rfl | rfl
    · unfold field2source; rw [Option.getD_none, hc]
    · rfl
  rw [this]
  unfold field2cellSource
  rw [e, VT.bind_ok, if_pos hc, hn]
  simp only [finish, three]
  simp only [List.getElem?_cons_zero, List.getElem?_cons_succ, VT.bind_ok, List.map_cons, List.map_nil, hl.1, hl.2.1, hl.2.2]

/-- C238: without a centering asked for, fields of nodes are points; others than nodes and cells are refused. -/
theorem C238_own {α : Type} (f : Fld α) (name : String) :
    (f.center = .node → field2source f none name = field2source f (some .node) name) ∧
    (f.center = .face ∨ f.center = .edge → ∀ c, ∃ e, field2source f c name = .error e) ∧
    (f.center = .node → ∃ e, field2source f (some .cell) name = .error e) := by
  refine ⟨fun h => ?_, fun h c => ?_, fun h => ?_⟩
  · unfold field2source; rw [Option.getD_none, h]; rfl
  · have h1 : f.center ≠ .cell := by rcases h with h | h <;> rw [h] <;> decide
    have h2 : f.center ≠ .node := by rcases h with h | h <;> rw [h] <;> decide
    have hp : ∃ e, field2pointSource f name = .error e := by
      unfold field2pointSource
      cases prepField f with
      | error e => exact ⟨e, rfl⟩
      | ok v => rw [VT.bind_ok, if_neg h1, if_neg h2]; exact ⟨_, rfl⟩
    have hq : ∃ e, field2cellSource f name = .error e := by
      unfold field2cellSource
      cases prepField f with
      | error e => exact ⟨e, rfl⟩
      | ok v => rw [VT.bind_ok, if_neg h1, if_neg h2]; exact ⟨_, rfl⟩
    unfold field2source
    cases c.getD f.center with
    | node => exact hp
    | cell => exact hq
    | face => exact ⟨_, rfl⟩
    | edge => exact ⟨_, rfl⟩
  · show ∃ e, field2cellSource f name = .error e
    unfold field2cellSource
    cases prepField f with
    | error e => exact ⟨e, rfl⟩
    | ok v => rw [VT.bind_ok, if_neg (by rw [h]; decide), if_pos h]; exact ⟨_, rfl⟩

/-- C238: fields with fewer than three axes are refused. -/
theorem C238_flat {α : Type} (f : Fld α) (c : Option Center) (name : String) (hn : f.nc.length < 3) (hc : f.cc.length < 3) :
    ∃ e, field2source f c name = .error e := by
  have ht : ∀ crds : List (List ℚ), crds.length < 3 → ∀ b v, ∃ e, finish f name b crds v = .error e := by
    intro crds h b v
    unfold finish three
    have : crds[2]? = none := List.getElem?_eq_none (by omega)
    rw [this]
    refine ⟨.index, ?_⟩
    split
    · rename_i e; cases e
    · rfl
  unfold field2source
  split
  · unfold field2pointSource
    cases prepField f with
    | error e => exact ⟨e, rfl⟩
    | ok v =>
      rw [VT.bind_ok]
      split
      · exact ht _ hc _ _
      · split
        · exact ht _ hn _ _
        · exact ⟨_, rfl⟩
  · unfold field2cellSource
    cases prepField f with
    | error e => exact ⟨e, rfl⟩
    | ok v =>
      rw [VT.bind_ok]
      split
      · exact ht _ hn _ _
      · split
        · exact ⟨_, rfl⟩
        · exact ⟨_, rfl⟩
  · exact ⟨_, rfl⟩

/-- The hypotheses of C238 are met by a field of 1 by 2 by 3 cells. -/
def VT.b : Fld Nat := ⟨"b", [[0, 1], [0, 1, 2], [0, 1, 2, 3]], [[1/2], [1/2, 3/2], [1/2, 3/2, 5/2]], .cell, .flat, ⟨[3, 1, 2, 3], fun i => i.foldl (fun a d => 10 * a + d) 0⟩⟩
example : VT.Fits VT.b 1 2 3 := .inr (.inr ⟨rfl, rfl⟩)
example : (match prepField VT.b with | .ok (.vectors l) => l | _ => []) =
    [[0, 1000, 2000], [10, 1010, 2010], [1, 1001, 2001], [11, 1011, 2011], [2, 1002, 2002], [12, 1012, 2012]] := by decide +kernel

end Viscid.Props
