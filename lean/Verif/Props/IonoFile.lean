import Verif.Model.IonoFile
import Verif.Props.Fortbin
import Verif.Props.Crds
import Mathlib.Tactic.Ring
/-!
# C263: the ionosphere in OpenGGCM's binary files
-/
namespace Viscid.Props
open Viscid.AthenaBin (Endian Word)
open Viscid.Fortbin Viscid.Spec.Fortbin Viscid.IonoFile

namespace IF

theorem shape_first (big : Bool) (r : Rec) (rs : List Rec) (h : r.Ok) : shapeOf (file big (r :: rs)) = .ok r.dims := by
  have hh : readHeader (file big (r :: rs)) 0 = .found (endOf big) r.name (metaOf r 0) := by
    have := header_at big r h [] (file big rs)
    simpa [file] using this
  unfold shapeOf openNew
  rw [hh]
  simp only [Wrap.next, hh, metaOf]

theorem crds_first (big : Bool) (r : Rec) (rs : List Rec) (h : r.Ok) (np nt : Nat) (hd : r.dims = [np, nt]) :
    makeCrds (file big (r :: rs)) = .ok ⟨Viscid.Crds.linspace 0 360 np, Viscid.Crds.linspace 0 180 nt⟩ := by
  unfold makeCrds
  rw [shape_first big r rs h, hd]

/-- the table of contents of a file whose fields take the same number of bytes -/
theorem contents_size (big : Bool) (r0 : Rec) (rs' : List Rec) (size : Nat) (hok : ∀ r ∈ r0 :: rs', r.Ok)
    (hsz : ∀ r ∈ r0 :: rs', (r.bytes big).length = size) (hn : ((r0 :: rs').map Rec.name).Nodup) :
    template (file big (r0 :: rs')) = .ok ((placed size 0 (r0 :: rs')).map fun p => ⟨p.1, p.2.dims, p.2.pos⟩) := by
  have hh : readHeader (file big (r0 :: rs')) 0 = .found (endOf big) r0.name (metaOf r0 0) := by
    have := header_at big r0 (hok r0 (by simp)) [] (file big rs')
    simpa [file] using this
  have hstep : (metaOf r0 0).nbytes = size := by rw [← bytes_length big r0 (hok r0 (by simp)) 0]; exact hsz r0 (by simp)
  have hall := all_eq big size (r0 :: rs') [] ((file big (r0 :: rs')).length + 1) ⟨some (metaOf r0 0), [], false⟩ hok hsz (by
    rw [file_len big size _ hsz]
    have := nbytes_pos (metaOf r0 0)
    rw [hstep] at this
    have := Nat.le_mul_of_pos_left (r0 :: rs').length this
    omega) rfl
  rw [List.nil_append] at hall
  unfold template openNew
  rw [hh]
  unfold Wrap.inquireAll
  simp only [Bool.false_eq_true, if_false]
  rw [hstep]
  have hall' : Wrap.all (file big (r0 :: rs')) size ((file big (r0 :: rs')).length + 1) ⟨some (metaOf r0 0), [], false⟩ 0 = _ := hall
  rw [hall']
  simp only [List.length_nil, addAll_fresh size (r0 :: rs') ⟨some (metaOf r0 0), [], false⟩ 0 hn (by simp), List.nil_append]

theorem inside2 (a b i j : Nat) (hi : i < a) (hj : j < b) : Inside [a, b] [i, j] := by
  refine ⟨rfl, ?_⟩
  intro d x n h1 h2
  match d, h1, h2 with
  | 0, h1, h2 => cases h1; cases h2; exact hi
  | 1, h1, h2 => cases h1; cases h2; exact hj

end IF
open IF

/-- **C263, coordinates.** The nodes of the ionosphere are at equal steps of longitude around the whole circle, both ends included, and of colatitude from pole to pole, as many as the
first field has values along them. -/
theorem C263_coordinates (big : Bool) (r : Rec) (rs : List Rec) (h : r.Ok) (np nt : Nat) (hp : 2 ≤ np) (ht : 2 ≤ nt) (hd : r.dims = [np, nt]) :
    ∃ c, makeCrds (file big (r :: rs)) = .ok c ∧ c.phi.length = np ∧ c.theta.length = nt ∧
      (∀ i : Nat, i < np → c.phi[i]? = some (360 * (i : ℚ) / ((np : ℚ) - 1))) ∧ (∀ j : Nat, j < nt → c.theta[j]? = some (180 * (j : ℚ) / ((nt : ℚ) - 1))) := by
  refine ⟨_, crds_first big r rs h np nt hd, Viscid.Crds.linspace_length _ _ _, Viscid.Crds.linspace_length _ _ _, ?_, ?_⟩
  · intro i hi
    rw [Viscid.Crds.linspace_get _ _ _ (by omega) i hi]
    congr 1; ring
  · intro j hj
    rw [Viscid.Crds.linspace_get _ _ _ (by omega) j hj]
    congr 1; ring

/-- **C263, values.** In a series of files whose fields have the sizes of the first one, each field has at node (i, j), that is the longitude of step i and the colatitude of step j, the
value its file has there. Other sizes: see `C263_sizes_violated`. -/
theorem C263_values_partial (big big' : Bool) (rs rs' : List Rec) (np nt : Nat) (hne : rs ≠ []) (hok : ∀ r ∈ rs, r.Ok) (hd : ∀ r ∈ rs, r.dims = [np, nt])
    (hn : (rs.map Rec.name).Nodup) (hok' : ∀ r ∈ rs', r.Ok) (hd' : ∀ r ∈ rs', r.dims = [np, nt]) (hsame : rs'.map Rec.name = rs.map Rec.name) :
    ∃ ts, template (file big rs) = .ok ts ∧ ts.map Item.name = rs.map Rec.name ∧
      ∀ (k : Nat) (t : Item) (r : Rec), ts[k]? = some t → rs'[k]? = some r →
        ∃ v, data (file big rs) (file big' rs') t = .ok v ∧ ∀ i j, i < np → j < nt → v i j = some (r.val [i, j]) := by
  obtain ⟨ts, h1, h2, h3⟩ := C189_series_partial big big' rs rs' [np, nt] hne hok hd hn hok' hd' hsame
  refine ⟨ts, h1, h2, ?_⟩
  intro k t r ht hr
  obtain ⟨g, hg, hv⟩ := h3 k t r ht hr
  obtain ⟨r0, rest, rfl⟩ : ∃ r0 rest, rs = r0 :: rest := by
    cases rs with
    | nil => exact absurd rfl hne
    | cons a b => exact ⟨a, b, rfl⟩
  have hc := crds_first big r0 rest (hok r0 (by simp)) np nt (hd r0 (by simp))
  refine ⟨fun i j => g [i, j].reverse, ?_, ?_⟩
  · unfold data
    rw [hc]
    dsimp only
    rw [hg]
    dsimp only [onGrid]
    rw [if_pos (by simp [Viscid.Crds.linspace_length])]
  · intro i j hi hj
    exact hv [i, j] (inside2 np nt i j hi hj)

/-- **C263, other files.** A first field that does not have two axes is refused, and so is a file that is not of this format. -/
theorem C263_refused (big : Bool) (r : Rec) (rs : List Rec) (h : r.Ok) (hd : r.dims.length ≠ 2) (f : List UInt8) (hf : f = [] ∨ (∃ b s, f = b :: s ∧ b ≠ 2 ∧ b ≠ 0)) :
    makeCrds (file big (r :: rs)) = .error .value ∧ makeCrds f = .error .io := by
  refine ⟨?_, ?_⟩
  · unfold makeCrds
    rw [shape_first big r rs h]
    split
    · next e => cases e
    · next e => simp only [Except.ok.injEq] at e; rw [e] at hd; exact absurd rfl hd
    · rfl
  · have : readHeader f 0 = .noMarker := by
      rcases hf with rfl | ⟨b, s, rfl, h1, h2⟩
      · exact header_end [] 0 (Nat.le_refl _)
      · unfold readHeader
        have m1 : ((b :: s).drop 0).take 4 ≠ [2, 0, 0, 0] := by
          intro e; simp at e; exact h1 e.1
        have m2 : ((b :: s).drop 0).take 4 ≠ [0, 0, 0, 2] := by
          intro e; simp at e; exact h2 e.1
        simp only [m1, m2, if_false]
    unfold makeCrds shapeOf openNew
    rw [this]

/-- **C263 fails** for a field whose axes are the other way round: it is not refused, its values are put to other places. At node (i, j) is the value of place (k / np, k mod np), with
k = i * nt + j. -/
theorem C263_sizes_violated (big : Bool) (r1 r2 : Rec) (np nt : Nat) (h1 : r1.Ok) (h2 : r2.Ok) (hd1 : r1.dims = [np, nt]) (hd2 : r2.dims = [nt, np]) (hne : np ≠ nt)
    (hn : r1.name ≠ r2.name) :
    ∃ t1 t2 v, template (file big [r1, r2]) = .ok [t1, t2] ∧ t2.name = r2.name ∧ data (file big [r1, r2]) (file big [r1, r2]) t2 = .ok v ∧
      ∀ i j, i < np → j < nt → v i j = some (r2.val [(i * nt + j) / np, (i * nt + j) % np]) := by
  have hbytes : (r2.bytes big).length = (r1.bytes big).length := by
    rw [bytes_length big r1 h1 0, bytes_length big r2 h2 0]
    simp only [Meta.nbytes, Meta.headerSize, Meta.nelem, metaOf, hd1, hd2, List.foldr, List.length]
    rw [Nat.mul_one, Nat.mul_one, Nat.mul_comm nt np]
  have hok : ∀ r ∈ [r1, r2], r.Ok := by
    intro r hr
    simp only [List.mem_cons, List.not_mem_nil, or_false] at hr
    rcases hr with rfl | rfl
    · exact h1
    · exact h2
  have hc := contents_size big r1 [r2] (r1.bytes big).length hok (by
    intro r hr
    simp only [List.mem_cons, List.not_mem_nil, or_false] at hr
    rcases hr with rfl | rfl
    · rfl
    · exact hbytes) (by simp [hn])
  have hh : readHeader (file big [r1, r2]) 0 = .found (endOf big) r1.name (metaOf r1 0) := by
    have := header_at big r1 h1 [] (file big [r2])
    simpa [file] using this
  obtain ⟨g, hg, hv⟩ := C189_read big [r1] r2 [] h2 ⟨some (metaOf r1 0), [], false⟩
  have hlen : (file big [r1]).length = (r1.bytes big).length := by simp [file]
  rw [hlen] at hg
  have hf : fieldOf (file big [r1, r2]) ⟨r2.name, r2.dims, (r1.bytes big).length⟩ = .ok (r2.dims.reverse, g) := by
    unfold fieldOf openNew
    rw [hh]
    exact hg
  refine ⟨⟨r1.name, r1.dims, 0⟩, ⟨r2.name, r2.dims, (r1.bytes big).length⟩, fun i j => g (unravel r2.dims (i * nt + j)).reverse, ?_, rfl, ?_, ?_⟩
  · rw [hc]
    simp [placed, metaOf]
  · unfold data
    rw [crds_first big r1 [r2] h1 np nt hd1]
    dsimp only
    rw [hf]
    dsimp only [onGrid]
    rw [List.reverse_reverse, hd2, if_neg (by simp [Viscid.Crds.linspace_length]; intro e _; exact hne e.symm),
      if_pos (by simp [Viscid.Crds.linspace_length, Nat.mul_comm])]
    simp only [Viscid.Crds.linspace_length]
  · intro i j hi hj
    have hu : unravel r2.dims (i * nt + j) = [(i * nt + j) / np, (i * nt + j) % np] := by
      rw [hd2]; simp [unravel]
    dsimp only
    rw [hu]
    refine hv _ ?_
    rw [hd2]
    have hlt : i * nt + j < nt * np := by
      calc i * nt + j < i * nt + nt := by omega
        _ = (i + 1) * nt := by ring
        _ ≤ np * nt := Nat.mul_le_mul_right _ (by omega)
        _ = nt * np := Nat.mul_comm _ _
    exact inside2 nt np _ _ (Nat.div_lt_of_lt_mul (Nat.lt_of_lt_of_eq hlt (Nat.mul_comm _ _))) (Nat.mod_lt _ (by omega))

/-! Examples -/

namespace IF
/-- two fields of an ionosphere of three by two points -/
def test : List Rec :=
  [⟨[112, 111, 116], List.replicate 80 48, 120, [3, 2], fun i => [UInt8.ofNat (i.headD 0), 7, 0, 64]⟩,
    ⟨[102, 97, 99], List.replicate 80 48, 120, [3, 2], fun i => [UInt8.ofNat (i.headD 0), 8, 0, 64]⟩]

/-- a field whose axes are the other way round -/
def turned : Rec := ⟨[102, 97, 99], List.replicate 80 48, 120, [2, 3], fun i => [UInt8.ofNat (i.headD 0), 8, 0, 64]⟩

/-- a field of one axis -/
def line : Rec := ⟨[102, 97, 99], List.replicate 80 48, 120, [2], fun i => [UInt8.ofNat (i.headD 0), 8, 0, 64]⟩

theorem test_ok : ∀ r ∈ test, r.Ok := by
  intro r hr
  simp only [test, List.mem_cons, List.not_mem_nil, or_false] at hr
  rcases hr with rfl | rfl <;> exact ⟨by decide, fun i => rfl, by decide, by decide, by decide⟩

theorem turned_ok : turned.Ok := ⟨by decide, fun _ => rfl, by decide, by decide, by decide⟩
theorem line_ok : line.Ok := ⟨by decide, fun _ => rfl, by decide, by decide, by decide⟩
end IF

example : test ≠ [] ∧ (∀ r ∈ test, r.Ok) ∧ (∀ r ∈ test, r.dims = [3, 2]) ∧ (test.map Rec.name).Nodup := ⟨by decide, test_ok, by decide, by decide⟩

example : (test[0]).Ok ∧ turned.Ok ∧ (test[0]).dims = [3, 2] ∧ turned.dims = [2, 3] ∧ (test[0]).name ≠ turned.name := ⟨test_ok _ (by simp), turned_ok, rfl, rfl, by decide⟩

/-- what is shown at node (1, 0), in the field with its axes the other way round, is not what the file has there: place (0, 2) comes first in memory -/
example : turned.val [(1 * 2 + 0) / 3, (1 * 2 + 0) % 3] ≠ turned.val [1, 0] := by decide

example : line.Ok ∧ line.dims.length ≠ 2 := ⟨line_ok, by decide⟩

end Viscid.Props
