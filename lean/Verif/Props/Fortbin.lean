import Verif.Model.Fortbin
import Verif.Spec.Fortbin
import Verif.Props.AthenaBin
/-!
# C189, C190: reading OpenGGCM's binary files
-/
namespace Viscid.Props
open Viscid.AthenaBin (Endian Word fromFile int32 native)
open Viscid.Fortbin Viscid.Spec.Fortbin
open Viscid.Spec.AthenaBin (put int4)

theorem fb_strip (l : List UInt8) (n : Nat) (hne : l ≠ []) (h : ∀ b ∈ l, 32 < b) : Fortbin.strip (l ++ List.replicate n 32) = l := by
  have hns : ∀ b ∈ l, isSpace b = false := by
    intro b hb
    have := h b hb
    unfold isSpace
    have h1 : ¬ b ≤ 13 := by
      intro h2
      exact absurd (UInt8.lt_of_lt_of_le this h2) (by decide)
    have h3 : ¬ b ≤ 32 := by
      intro h2
      exact absurd (UInt8.lt_of_lt_of_le this h2) (by decide)
    simp [h1, h3]
  unfold Fortbin.strip
  have e1 : (l ++ List.replicate n 32).dropWhile isSpace = l ++ List.replicate n 32 := by
    cases l with
    | nil => exact absurd rfl hne
    | cons b l => simp [hns b (by simp)]
  rw [e1, List.reverse_append, List.reverse_replicate]
  have e2 : ∀ (m : Nat) (x : List UInt8), (List.replicate m 32 ++ x).dropWhile isSpace = x.dropWhile isSpace := by
    intro m x
    induction m with
    | zero => rfl
    | succ m ih =>
      rw [List.replicate_succ, List.cons_append, List.dropWhile_cons, ih]
      simp [show isSpace 32 = true by decide]
  rw [e2]
  have e3 : l.reverse.dropWhile isSpace = l.reverse := by
    cases hr : l.reverse with
    | nil => rfl
    | cons b t =>
      have hb : b ∈ l := by rw [← List.mem_reverse, hr]; simp
      simp [hns b hb]
  rw [e3, List.reverse_reverse]

theorem int4_two_little : put false (int4 2) = [2, 0, 0, 0] := by decide
theorem int4_two_big : put true (int4 2) = [0, 0, 0, 2] := by decide

/-- the meta data of a field at a place -/
def metaOf (r : Rec) (pos : Nat) : Meta := ⟨r.time, r.inttime, r.dims, pos⟩

theorem ints_ok (big : Bool) (n : Nat) (ns : List Nat) (rest : List UInt8) (h : ∀ x ∈ ns, x < 2 ^ 31) (hn : ns.length = n) :
    ints (endOf big) n ((ns.map int4).flatMap (put big) ++ rest) = some (ns.map fun x : Nat => (x : Int)) := by
  unfold ints
  have hl : ∀ w ∈ ns.map int4, w.length = 4 := by
    intro w hw
    obtain ⟨x, -, rfl⟩ := List.mem_map.mp hw
    rfl
  rw [if_neg]
  · rw [fromFile_same big 4 n (by omega) (ns.map int4) rest hl (by simpa using hn), List.map_map]
    congr 1
    apply List.map_congr_left
    intro x hx
    exact int32_int4 x (h x hx)
  · rw [List.length_append, flat_length big 4 _ hl, List.length_map]
    omega

/-- reading a header where there is one -/
theorem header_at (big : Bool) (r : Rec) (h : r.Ok) (pre post : List UInt8) :
    readHeader (pre ++ (r.bytes big ++ post)) pre.length = .found (endOf big) r.name (metaOf r pre.length) := by
  unfold readHeader
  rw [List.drop_left]
  have hb : r.bytes big ++ post = put big (int4 2) ++ (([r.inttime, r.dims.length].map int4).flatMap (put big) ++ ((r.dims.map int4).flatMap (put big) ++
      ((r.name ++ List.replicate (80 - r.name.length) 32) ++ (r.time ++ (((cells r.dims).map r.val).flatMap (put big) ++ post))))) := by
    simp [Rec.bytes, List.append_assoc]
  have hp2 : (put big (int4 2)).length = 4 := by rw [put_length]; rfl
  have hl1 : ∀ w ∈ [r.inttime, r.dims.length].map int4, w.length = 4 := by
    intro w hw
    obtain ⟨x, -, rfl⟩ := List.mem_map.mp hw
    rfl
  have hl2 : ∀ w ∈ r.dims.map int4, w.length = 4 := by
    intro w hw
    obtain ⟨x, -, rfl⟩ := List.mem_map.mp hw
    rfl
  have hf1 := flat_length big 4 _ hl1
  have hf2 := flat_length big 4 _ hl2
  simp only [List.length_map, List.length_cons, List.length_nil] at hf1 hf2
  rw [hb]
  generalize hD : ((cells r.dims).map r.val).flatMap (put big) ++ post = D
  have hnm : (r.name ++ List.replicate (80 - r.name.length) 32).length = 80 := by
    have := h.name.2.1
    simp; omega
  have e1 : ∀ X : List UInt8, (put big (int4 2) ++ X).drop 4 = X := by
    intro X
    rw [← hp2, List.drop_left]
  have e2 : ∀ X : List UInt8, (put big (int4 2) ++ (([r.inttime, r.dims.length].map int4).flatMap (put big) ++ X)).drop 12 = X := by
    intro X
    rw [drop_part _ _ 4 8 hp2]
    rw [show (8 : Nat) = (([r.inttime, r.dims.length].map int4).flatMap (put big)).length by rw [hf1], List.drop_left]
  have e3 : ∀ (m : Nat) (X : List UInt8), (put big (int4 2) ++ (([r.inttime, r.dims.length].map int4).flatMap (put big) ++ ((r.dims.map int4).flatMap (put big) ++ X))).drop
      (12 + 4 * r.dims.length + m) = X.drop m := by
    intro m X
    rw [show 12 + 4 * r.dims.length + m = 4 + (8 + (r.dims.length * 4 + m)) by omega, drop_part _ _ 4 _ hp2, drop_part _ _ 8 _ (by rw [hf1]), drop_part _ _ _ _ hf2]
  have hdl : r.dims.length < 2 ^ 31 := h.dims.2.1
  have key : ∀ e, e = endOf big →
      (match ints e 2 ((put big (int4 2) ++ (([r.inttime, r.dims.length].map int4).flatMap (put big) ++ ((r.dims.map int4).flatMap (put big) ++
        ((r.name ++ List.replicate (80 - r.name.length) 32) ++ (r.time ++ D))))).drop 4) with
      | some [it, nd] =>
        if nd < 0 then Header.nothing
        else
          match ints e nd.toNat ((put big (int4 2) ++ (([r.inttime, r.dims.length].map int4).flatMap (put big) ++ ((r.dims.map int4).flatMap (put big) ++
            ((r.name ++ List.replicate (80 - r.name.length) 32) ++ (r.time ++ D))))).drop 12) with
          | none => .nothing
          | some dims =>
            let name := Fortbin.strip (((put big (int4 2) ++ (([r.inttime, r.dims.length].map int4).flatMap (put big) ++ ((r.dims.map int4).flatMap (put big) ++
              ((r.name ++ List.replicate (80 - r.name.length) 32) ++ (r.time ++ D))))).drop (12 + 4 * nd.toNat)).take 80)
            let time := ((put big (int4 2) ++ (([r.inttime, r.dims.length].map int4).flatMap (put big) ++ ((r.dims.map int4).flatMap (put big) ++
              ((r.name ++ List.replicate (80 - r.name.length) 32) ++ (r.time ++ D))))).drop (12 + 4 * nd.toNat + 80)).take 80
            if name = [] then .nothing else .found e name ⟨time, it, dims.map Int.toNat, pre.length⟩
      | _ => .nothing) = .found (endOf big) r.name (metaOf r pre.length) := by
    rintro e rfl
    rw [e1, ints_ok big 2 [r.inttime, r.dims.length] _ (by
      intro x hx
      simp only [List.mem_cons, List.not_mem_nil, or_false] at hx
      rcases hx with rfl | rfl
      · exact h.inttime
      · exact hdl) rfl]
    simp only [List.map_cons, List.map_nil]
    rw [if_neg (Int.not_lt.mpr (Int.natCast_nonneg _))]
    have e2' := e2 ((r.dims.map int4).flatMap (put big) ++ ((r.name ++ List.replicate (80 - r.name.length) 32) ++ (r.time ++ D)))
    simp only [List.map_cons, List.map_nil] at e2'
    rw [Int.toNat_natCast, e2', ints_ok big _ r.dims _ h.dims.2.2 rfl]
    dsimp only
    have e3a := e3 0 ((r.name ++ List.replicate (80 - r.name.length) 32) ++ (r.time ++ D))
    have e3b := e3 80 ((r.name ++ List.replicate (80 - r.name.length) 32) ++ (r.time ++ D))
    simp only [List.map_cons, List.map_nil, Nat.add_zero, List.drop_zero] at e3a e3b
    rw [e3a, e3b]
    rw [List.take_left' hnm, fb_strip _ _ h.name.1 h.name.2.2, if_neg h.name.1]
    rw [List.drop_left' hnm, List.take_left' h.time]
    simp [metaOf, List.map_map, Function.comp_def]
  have hmark : (put big (int4 2) ++ (([r.inttime, r.dims.length].map int4).flatMap (put big) ++ ((r.dims.map int4).flatMap (put big) ++
      ((r.name ++ List.replicate (80 - r.name.length) 32) ++ (r.time ++ D))))).take 4 = put big (int4 2) := by
    rw [List.take_left' hp2]
  dsimp only
  rw [hmark]
  cases big with
  | false =>
    rw [if_pos int4_two_little]
    exact key .little rfl
  | true =>
    rw [if_neg (by decide), if_pos int4_two_big]
    exact key .big rfl

theorem header_end (f : List UInt8) (n : Nat) (h : f.length ≤ n) : readHeader f n = .noMarker := by
  unfold readHeader
  rw [List.drop_of_length_le h]
  rfl

theorem cells_length : ∀ dims : List Nat, (cells dims).length = dims.foldr (· * ·) 1
  | [] => rfl
  | n :: dims => by
    simp only [cells, List.length_flatMap, List.length_map, List.length_range, List.map_const', List.sum_replicate_nat, cells_length dims, List.foldr_cons]
    exact Nat.mul_comm _ _

theorem vals_length (r : Rec) (h : r.Ok) : ∀ w ∈ (cells r.dims).map r.val, w.length = 4 := by
  intro w hw
  obtain ⟨x, -, rfl⟩ := List.mem_map.mp hw
  exact h.val x

theorem head_length (big : Bool) (r : Rec) (h : r.Ok) (pos : Nat) :
    (([int4 2, int4 r.inttime, int4 r.dims.length] ++ r.dims.map int4).flatMap (put big) ++ (r.name ++ List.replicate (80 - r.name.length) 32) ++ r.time).length =
      (metaOf r pos).headerSize := by
  have hl2 : ∀ w ∈ [int4 2, int4 r.inttime, int4 r.dims.length] ++ r.dims.map int4, w.length = 4 := by
    intro w hw
    rcases List.mem_append.mp hw with hw | hw
    · simp only [List.mem_cons, List.not_mem_nil, or_false] at hw
      rcases hw with rfl | rfl | rfl <;> rfl
    · obtain ⟨x, -, rfl⟩ := List.mem_map.mp hw
      rfl
  have := h.name.2.1
  rw [List.length_append, List.length_append, flat_length big 4 _ hl2, h.time]
  simp [Meta.headerSize, metaOf]
  omega

theorem bytes_length (big : Bool) (r : Rec) (h : r.Ok) (pos : Nat) : (r.bytes big).length = (metaOf r pos).nbytes := by
  unfold Rec.bytes
  rw [List.length_append, head_length big r h pos, flat_length big 4 _ (vals_length r h), List.length_map, cells_length]
  simp [Meta.nbytes, Meta.nelem, metaOf]
  omega

theorem data_at (big : Bool) (r : Rec) (h : r.Ok) (pre post : List UInt8) :
    readData (pre ++ (r.bytes big ++ post)) (endOf big) (metaOf r pre.length) = .ok (metaOf r pre.length, (cells r.dims).map r.val) := by
  unfold readData
  have e : (pre ++ (r.bytes big ++ post)).drop ((metaOf r pre.length).pos + (metaOf r pre.length).headerSize) = ((cells r.dims).map r.val).flatMap (put big) ++ post := by
    rw [show (metaOf r pre.length).pos = pre.length from rfl, drop_part _ _ _ _ rfl]
    unfold Rec.bytes
    rw [List.append_assoc, ← head_length big r h pre.length, List.drop_left]
  have hn : ((cells r.dims).map r.val).length = (metaOf r pre.length).nelem := by
    rw [List.length_map, cells_length]
    rfl
  rw [e, fromFile_same big 4 _ (by omega) _ _ (vals_length r h) hn]
  dsimp only
  rw [if_pos hn]

/-- position of an index, the first one fastest -/
def ravelF : List Nat → List Nat → Nat
  | n :: dims, i :: idx => i + n * ravelF dims idx
  | _, _ => 0

theorem flat_get {α β : Type} (l : List α) (f : α → List β) (m : Nat) (h : ∀ a, (f a).length = m) (i j : Nat) (a : α) (hi : l[i]? = some a) (hj : j < m) :
    (l.flatMap f)[j + m * i]? = (f a)[j]? := by
  induction l generalizing i with
  | nil => simp at hi
  | cons x l ih =>
    rw [List.flatMap_cons]
    cases i with
    | zero =>
      simp only [List.getElem?_cons_zero, Option.some.injEq] at hi
      subst hi
      rw [Nat.mul_zero, Nat.add_zero, List.getElem?_append_left (by rw [h]; exact hj)]
    | succ i =>
      rw [List.getElem?_cons_succ] at hi
      rw [Nat.mul_succ, List.getElem?_append_right (by rw [h]; omega), h, show j + (m * i + m) - m = j + m * i by omega]
      exact ih i hi

theorem cells_get : ∀ (dims idx : List Nat), Inside dims idx → (cells dims)[ravelF dims idx]? = some idx
  | [], idx, h => by
    have : idx = [] := List.length_eq_zero_iff.mp h.1
    subst this
    rfl
  | n :: dims, [], h => by simp [Inside] at h
  | n :: dims, i :: idx, h => by
    have h1 : Inside dims idx := ⟨by simpa using h.1, fun d i n h2 h3 => h.2 (d + 1) i n (by simpa using h2) (by simpa using h3)⟩
    have h0 : i < n := h.2 0 i n rfl rfl
    have := cells_get dims idx h1
    show ((cells dims).flatMap fun t => (List.range n).map (· :: t))[i + n * ravelF dims idx]? = _
    rw [flat_get (cells dims) _ n (by simp) _ i idx this h0]
    simp [h0]

theorem ravel_rev : ∀ (dims idx : List Nat), idx.length = dims.length → ravel dims.reverse idx.reverse = ravelF dims idx := by
  intro dims idx h
  have e : ∀ (dims idx : List Nat), idx.length = dims.length → (dims.zip idx).foldr (fun p acc => acc * p.1 + p.2) 0 = ravelF dims idx := by
    intro dims
    induction dims with
    | nil => intro idx _; cases idx <;> rfl
    | cons n dims ih =>
      intro idx h
      cases idx with
      | nil => simp at h
      | cons i idx =>
        simp only [List.zip_cons_cons, List.foldr_cons, ih idx (by simpa using h), ravelF]
        rw [Nat.mul_comm, Nat.add_comm]
  unfold ravel
  have hz : ∀ (a b : List Nat), b.length = a.length → a.reverse.zip b.reverse = (a.zip b).reverse := by
    intro a
    induction a with
    | nil => intro b hb; simp
    | cons x a ih =>
      intro b hb
      cases b with
      | nil => simp at hb
      | cons y b =>
        have hb' : b.length = a.length := by simpa using hb
        rw [List.reverse_cons, List.reverse_cons, List.zip_append (by simp [hb']), ih b hb']
        simp
  rw [hz dims idx h, List.foldl_reverse]
  exact e dims idx h

/-- C189: a field is read right from where it is in the file, whatever the wrapper has been used for -/
theorem C189_read (big : Bool) (pre : List Rec) (r : Rec) (post : List Rec) (h : r.Ok) (w : Wrap) :
    ∃ g, (w.array (file big (pre ++ r :: post)) r.name r.dims (file big pre).length).2 = .ok (r.dims.reverse, g) ∧
      ∀ idx, Inside r.dims idx → g idx.reverse = some (r.val idx) := by
  have e : file big (pre ++ r :: post) = file big pre ++ (r.bytes big ++ file big post) := by simp [file]
  refine ⟨fun idx => ((cells r.dims).map r.val)[ravel r.dims.reverse idx]?, ?_, ?_⟩
  · unfold Wrap.array Wrap.readField Wrap.next
    dsimp only
    rw [e, header_at big r h]
    dsimp only
    rw [if_pos rfl, data_at big r h]
    dsimp only
    rw [if_neg (by simp [metaOf])]
    rfl
  · intro idx hi
    dsimp only
    rw [ravel_rev _ _ hi.1, List.getElem?_map, cells_get _ _ hi]
    rfl

/-- C189: what is in another place, or of another size, is never given out: it is an error -/
theorem C189_other (big : Bool) (pre : List Rec) (r : Rec) (post : List Rec) (h : r.Ok) (w : Wrap) (name : List UInt8) (dims : List Nat) :
    (name ≠ r.name → (w.array (file big (pre ++ r :: post)) name dims (file big pre).length).2 = .error .value) ∧
      (name = r.name → dims ≠ r.dims → (w.array (file big (pre ++ r :: post)) name dims (file big pre).length).2 = .error .runtime) := by
  have e : file big (pre ++ r :: post) = file big pre ++ (r.bytes big ++ file big post) := by simp [file]
  constructor
  · intro hn
    unfold Wrap.array Wrap.readField Wrap.next
    dsimp only
    rw [e, header_at big r h]
    dsimp only
    rw [if_neg (Ne.symm hn)]
  · rintro rfl hd
    unfold Wrap.array Wrap.readField Wrap.next
    dsimp only
    rw [e, header_at big r h]
    dsimp only
    rw [if_pos rfl, data_at big r h]
    dsimp only
    rw [if_pos (by simpa [metaOf] using Ne.symm hd)]

/-- C189: nothing can be read behind the end -/
theorem C189_behind (f : List UInt8) (w : Wrap) (name : List UInt8) (dims : List Nat) (pos : Nat) (h : f.length ≤ pos) :
    (w.array f name dims pos).2 = .error .value := by
  unfold Wrap.array Wrap.readField Wrap.next
  dsimp only
  rw [header_end f pos h]

/-- what `inquire_next` does to the wrapper -/
def addMeta (w : Wrap) (name : List UInt8) (m : Meta) : Wrap := if (w.find name).isSome then w else { w with seen := w.seen ++ [(name, m)] }

def addAll (size : Nat) : Wrap → Nat → List Rec → Wrap
  | w, _, [] => w
  | w, pos, r :: rs => addAll size (addMeta w r.name (metaOf r pos)) (pos + size) rs

theorem addMeta_seenAll (w : Wrap) (n m) : (addMeta w n m).seenAll = w.seenAll := by
  unfold addMeta
  split <;> rfl

theorem addMeta_fileMeta (w : Wrap) (n m) : (addMeta w n m).fileMeta = w.fileMeta := by
  unfold addMeta
  split <;> rfl

theorem addAll_fileMeta (size : Nat) : ∀ (rs : List Rec) (w : Wrap) (pos : Nat), (addAll size w pos rs).fileMeta = w.fileMeta
  | [], _, _ => rfl
  | _ :: rs, w, pos => by rw [addAll, addAll_fileMeta size rs, addMeta_fileMeta]

theorem all_eq (big : Bool) (size : Nat) : ∀ (rs : List Rec) (pre : List UInt8) (fuel : Nat) (w : Wrap),
    (∀ r ∈ rs, r.Ok) → (∀ r ∈ rs, (r.bytes big).length = size) → rs.length < fuel → w.seenAll = false →
      Wrap.all (pre ++ file big rs) size fuel w pre.length = { addAll size w pre.length rs with seenAll := true }
  | rs, pre, 0, w, _, _, hf, _ => by omega
  | [], pre, fuel + 1, w, _, _, _, hs => by
    have : Wrap.next w (pre ++ file big []) pre.length = ({ w with seenAll := true }, none) := by
      unfold Wrap.next
      rw [header_end _ _ (by simp [file])]
    unfold Wrap.all
    rw [this]
    rfl
  | r :: rs, pre, fuel + 1, w, hok, hsz, hf, hs => by
    have e : pre ++ file big (r :: rs) = pre ++ (r.bytes big ++ file big rs) := by simp [file]
    have hn : Wrap.next w (pre ++ file big (r :: rs)) pre.length = (addMeta w r.name (metaOf r pre.length), some (endOf big, r.name, metaOf r pre.length)) := by
      unfold Wrap.next
      rw [e, header_at big r (hok r (by simp))]
      rfl
    unfold Wrap.all
    rw [hn]
    dsimp only
    rw [addMeta_seenAll, hs]
    have := all_eq big size rs (pre ++ r.bytes big) fuel (addMeta w r.name (metaOf r pre.length)) (fun x hx => hok x (by simp [hx]))
      (fun x hx => hsz x (by simp [hx])) (by simp at hf; omega) (by rw [addMeta_seenAll, hs])
    rw [List.length_append, hsz r (by simp), List.append_assoc] at this
    rw [e, if_neg (by simp), this]
    rfl

theorem file_len (big : Bool) (size : Nat) : ∀ (rs : List Rec), (∀ r ∈ rs, (r.bytes big).length = size) → (file big rs).length = size * rs.length
  | [], _ => rfl
  | r :: rs, h => by
    have := file_len big size rs (fun x hx => h x (by simp [hx]))
    simp only [file, List.flatMap_cons, List.length_append, List.length_cons] at this ⊢
    rw [h r (by simp), this, Nat.mul_succ, Nat.add_comm]

theorem nbytes_pos (m : Meta) : 0 < m.nbytes := by
  unfold Meta.nbytes Meta.headerSize
  omega

theorem same_size (big : Bool) (d : List Nat) (rs : List Rec) (hok : ∀ r ∈ rs, r.Ok) (hd : ∀ r ∈ rs, r.dims = d) (pos : Nat) :
    ∀ r ∈ rs, (r.bytes big).length = (Meta.nbytes ⟨[], 0, d, pos⟩) := by
  intro r hr
  rw [bytes_length big r (hok r hr) pos, ← hd r hr]
  rfl

theorem find_none (w : Wrap) (n : List UInt8) (h : n ∉ w.seen.map Prod.fst) : w.find n = none := by
  unfold Wrap.find
  rw [Option.map_eq_none_iff, List.find?_eq_none]
  intro p hp hc
  apply h
  simp only [decide_eq_true_eq] at hc
  exact List.mem_map.mpr ⟨p, hp, hc⟩

/-- the fields with their places -/
def placed (size : Nat) : Nat → List Rec → List (List UInt8 × Meta)
  | _, [] => []
  | pos, r :: rs => (r.name, metaOf r pos) :: placed size (pos + size) rs

theorem placed_get (size : Nat) : ∀ (rs : List Rec) (pos k : Nat), (placed size pos rs)[k]? = (rs[k]?).map fun r => (r.name, metaOf r (pos + size * k))
  | [], _, _ => rfl
  | r :: rs, pos, 0 => by simp [placed]
  | r :: rs, pos, k + 1 => by
    simp only [placed, List.getElem?_cons_succ]
    rw [placed_get size rs (pos + size) k, Nat.mul_succ]
    congr 1
    funext x
    rw [show pos + size + size * k = pos + (size * k + size) by omega]

theorem addAll_fresh (size : Nat) : ∀ (rs : List Rec) (w : Wrap) (pos : Nat), (rs.map Rec.name).Nodup → (∀ r ∈ rs, r.name ∉ w.seen.map Prod.fst) →
    (addAll size w pos rs).seen = w.seen ++ placed size pos rs
  | [], w, pos, _, _ => by simp [addAll, placed]
  | r :: rs, w, pos, hn, hf => by
    have hw : addMeta w r.name (metaOf r pos) = { w with seen := w.seen ++ [(r.name, metaOf r pos)] } := by
      unfold addMeta
      rw [find_none w r.name (hf r (by simp))]
      rfl
    rw [List.map_cons, List.nodup_cons] at hn
    rw [addAll, hw, addAll_fresh size rs _ _ hn.2 (by
      intro x hx
      simp only [List.map_append, List.map_cons, List.map_nil, List.mem_append, List.mem_singleton, not_or]
      refine ⟨hf x (by simp [hx]), fun hc => hn.1 ?_⟩
      rw [← hc]
      exact List.mem_map.mpr ⟨x, hx, rfl⟩)]
    simp [placed]

/-- C189: the table of contents of a file whose fields have the same sizes: the names, in order, the sizes, and where they are. If the fields do not have the same sizes, see
`C189_sizes_violated` -/
theorem C189_contents_partial (big : Bool) (rs : List Rec) (d : List Nat) (hne : rs ≠ []) (hok : ∀ r ∈ rs, r.Ok) (hd : ∀ r ∈ rs, r.dims = d) (hn : (rs.map Rec.name).Nodup) :
    ∃ ts, template (file big rs) = .ok ts ∧ ts.length = rs.length ∧
      ∀ (k : Nat) (r : Rec), rs[k]? = some r → ts[k]? = some ⟨r.name, d, (file big (rs.take k)).length⟩ := by
  obtain ⟨r0, rs', rfl⟩ : ∃ r0 rs', rs = r0 :: rs' := by
    cases rs with
    | nil => exact absurd rfl hne
    | cons a b => exact ⟨a, b, rfl⟩
  have hsz := same_size big d _ hok hd 0
  generalize hS : Meta.nbytes ⟨[], 0, d, 0⟩ = size at hsz
  have hh : readHeader (file big (r0 :: rs')) 0 = .found (endOf big) r0.name (metaOf r0 0) := by
    have := header_at big r0 (hok r0 (by simp)) [] (file big rs')
    simpa [file] using this
  have hstep : (metaOf r0 0).nbytes = size := by rw [← bytes_length big r0 (hok r0 (by simp)) 0]; exact hsz r0 (by simp)
  have hall := all_eq big size (r0 :: rs') [] ((file big (r0 :: rs')).length + 1) ⟨some (metaOf r0 0), [], false⟩ hok hsz (by
    rw [file_len big size _ hsz]
    have := nbytes_pos (metaOf r0 0)
    rw [hstep] at this
    have := Nat.le_mul_of_pos_left (r0 :: rs').length this
    omega) rfl
  rw [List.nil_append] at hall
  have ht : template (file big (r0 :: rs')) = .ok ((placed size 0 (r0 :: rs')).map fun p => ⟨p.1, p.2.dims, p.2.pos⟩) := by
    unfold template openNew
    rw [hh]
    unfold Wrap.inquireAll
    simp only [Bool.false_eq_true, if_false]
    rw [hstep]
    have hall' : Wrap.all (file big (r0 :: rs')) size ((file big (r0 :: rs')).length + 1) ⟨some (metaOf r0 0), [], false⟩ 0 = _ := hall
    rw [hall']
    simp only [addAll_fresh size (r0 :: rs') ⟨some (metaOf r0 0), [], false⟩ 0 hn (by simp), List.length_nil, List.nil_append]
  have hget : ∀ (k : Nat), ((placed size 0 (r0 :: rs')).map fun p => (⟨p.1, p.2.dims, p.2.pos⟩ : Item))[k]? = ((r0 :: rs')[k]?).map fun r => ⟨r.name, r.dims, size * k⟩ := by
    intro k
    rw [List.getElem?_map, placed_get, Option.map_map]
    simp [Function.comp_def, metaOf]
  refine ⟨_, ht, ?_, ?_⟩
  · rw [List.length_map]
    have : ∀ (rs : List Rec) (pos : Nat), (placed size pos rs).length = rs.length := by
      intro rs
      induction rs with
      | nil => intro _; rfl
      | cons a b ih => intro pos; simp [placed, ih]
    exact this _ _
  · intro k r hr
    have hk := (List.getElem?_eq_some_iff.mp hr).1
    rw [hget, hr, file_len big size _ (fun x hx => hsz x (List.mem_of_mem_take hx)), List.length_take, Nat.min_eq_left (by omega), ← hd r (List.mem_of_getElem? hr)]
    rfl

/-- C189: a series of files with the same layout, of which only the first one's table of contents is read: the k-th field of any file has the values of that file's k-th field -/
theorem C189_series_partial (big big' : Bool) (rs rs' : List Rec) (d : List Nat) (hne : rs ≠ []) (hok : ∀ r ∈ rs, r.Ok) (hd : ∀ r ∈ rs, r.dims = d) (hn : (rs.map Rec.name).Nodup)
    (hok' : ∀ r ∈ rs', r.Ok) (hd' : ∀ r ∈ rs', r.dims = d) (hsame : rs'.map Rec.name = rs.map Rec.name) :
    ∃ ts, template (file big rs) = .ok ts ∧ ts.map Item.name = rs.map Rec.name ∧
      ∀ (k : Nat) (t : Item) (r : Rec), ts[k]? = some t → rs'[k]? = some r →
        ∃ g, fieldOf (file big' rs') t = .ok (d.reverse, g) ∧ ∀ idx, Inside d idx → g idx.reverse = some (r.val idx) := by
  obtain ⟨ts, h1, h2, h3⟩ := C189_contents_partial big rs d hne hok hd hn
  have hlen : rs'.length = rs.length := by
    have := congrArg List.length hsame
    simpa using this
  refine ⟨ts, h1, ?_, ?_⟩
  · apply List.ext_getElem?
    intro k
    rw [List.getElem?_map, List.getElem?_map]
    cases hr : rs[k]? with
    | none =>
      rw [List.getElem?_eq_none (by rw [h2]; exact List.getElem?_eq_none_iff.mp hr)]
      rfl
    | some r => rw [h3 k r hr]; rfl
  · intro k t r ht hr
    have hk := (List.getElem?_eq_some_iff.mp hr).1
    obtain ⟨q, hq⟩ : ∃ q, rs[k]? = some q := ⟨rs[k], List.getElem?_eq_getElem (by omega)⟩
    have hq' := h3 k q hq
    rw [ht] at hq'
    cases hq'
    have hname : q.name = r.name := by
      have h5 := congrArg (fun l : List (List UInt8) => l[k]?) hsame
      simp only [List.getElem?_map, hr, hq, Option.map_some] at h5
      exact (Option.some.inj h5).symm
    have hsplit : rs' = rs'.take k ++ r :: rs'.drop (k + 1) := by
      have : rs'[k]'hk = r := (List.getElem?_eq_some_iff.mp hr).2
      rw [← this, List.getElem_cons_drop, List.take_append_drop]
    have hpos : (file big (rs.take k)).length = (file big' (rs'.take k)).length := by
      rw [file_len big _ _ (fun x hx => same_size big d rs hok hd 0 x (List.mem_of_mem_take hx)),
        file_len big' _ _ (fun x hx => same_size big' d rs' hok' hd' 0 x (List.mem_of_mem_take hx)), List.length_take, List.length_take]
      congr 1
      omega
    have hopen : ∃ w, openNew (file big' rs') = .ok w := by
      cases rs' with
      | nil => simp at hk
      | cons r0 rest =>
        have := header_at big' r0 (hok' r0 (by simp)) [] (file big' rest)
        have hh : readHeader (file big' (r0 :: rest)) 0 = .found (endOf big') r0.name (metaOf r0 0) := by simpa [file] using this
        unfold openNew
        rw [hh]
        exact ⟨_, rfl⟩
    obtain ⟨w, hw⟩ := hopen
    have hr' := List.mem_of_getElem? hr
    obtain ⟨g, hg, hv⟩ := C189_read big' (rs'.take k) r (rs'.drop (k + 1)) (hok' r hr') w
    rw [← hsplit, hd' r hr'] at hg
    refine ⟨g, ?_, ?_⟩
    · unfold fieldOf
      rw [hw]
      dsimp only
      rw [hname, hpos]
      exact hg
    · intro idx hi
      exact hv idx (by rw [hd' r hr']; exact hi)

/-- C189 is violated: a file with a first field of n values, a second one of more (the one in the middle is 0), and any others: all but the first two are missing -/
theorem C189_sizes_violated (big : Bool) (r1 r2 : Rec) (rest : List Rec) (n1 n2 : Nat) (h1 : r1.Ok) (h2 : r2.Ok) (hd1 : r1.dims = [n1]) (hd2 : r2.dims = [n2]) (hlt : n1 < n2)
    (hz : r2.val [n1] = [0, 0, 0, 0]) (hn : r1.name ≠ r2.name) :
    ∃ ts, template (file big (r1 :: r2 :: rest)) = .ok ts ∧ ts.map Item.name = [r1.name, r2.name] := by
  have hh1 : readHeader (file big (r1 :: r2 :: rest)) 0 = .found (endOf big) r1.name (metaOf r1 0) := by
    have := header_at big r1 h1 [] (file big (r2 :: rest))
    simpa [file] using this
  have hs : (metaOf r1 0).nbytes = (r1.bytes big).length := (bytes_length big r1 h1 0).symm
  have hh2 : readHeader (file big (r1 :: r2 :: rest)) (metaOf r1 0).nbytes = .found (endOf big) r2.name (metaOf r2 (metaOf r1 0).nbytes) := by
    have := header_at big r2 h2 (r1.bytes big) (file big rest)
    rw [← hs] at this
    simpa [file] using this
  have hh3 : readHeader (file big (r1 :: r2 :: rest)) ((metaOf r1 0).nbytes + (metaOf r1 0).nbytes) = .noMarker := by
    unfold readHeader
    have hdrop : ((file big (r1 :: r2 :: rest)).drop ((metaOf r1 0).nbytes + (metaOf r1 0).nbytes)).take 4 = [0, 0, 0, 0] := by
      have e : file big (r1 :: r2 :: rest) = r1.bytes big ++ (r2.bytes big ++ file big rest) := by simp [file]
      rw [e, drop_part _ _ _ _ hs.symm]
      have hm : (metaOf r1 0).nbytes = (metaOf r2 0).headerSize + 4 * n1 := by
        simp [Meta.nbytes, Meta.headerSize, Meta.nelem, metaOf, hd1, hd2]
      rw [hm]
      unfold Rec.bytes
      rw [List.append_assoc, drop_part _ _ _ _ (head_length big r2 h2 0)]
      have hsplit : (cells r2.dims).map r2.val = ((List.range n1).map fun i => r2.val [i]) ++ r2.val [n1] :: ((List.range n2).drop (n1 + 1)).map fun i => r2.val [i] := by
        have hc : cells r2.dims = (List.range n2).map fun i => [i] := by
          rw [hd2]
          simp [cells]
        rw [hc, List.map_map]
        have hr : List.range n2 = List.range n1 ++ n1 :: (List.range n2).drop (n1 + 1) := by
          have ht : (List.range n2).take n1 = List.range n1 := by
            rw [List.take_range, Nat.min_eq_left (by omega)]
          have hg : (List.range n2)[n1]'(by simpa using hlt) = n1 := by simp
          conv => lhs; rw [← List.take_append_drop n1 (List.range n2), ht]
          rw [List.drop_eq_getElem_cons (by simpa using hlt), hg]
        conv => lhs; rw [hr]
        rw [List.map_append, List.map_cons]
        rfl
      rw [hsplit, List.flatMap_append, List.flatMap_cons, hz, List.append_assoc]
      have hl : (((List.range n1).map fun i => r2.val [i]).flatMap (put big)).length = 4 * n1 := by
        rw [flat_length big 4 _ (by
          intro w hw
          obtain ⟨i, -, rfl⟩ := List.mem_map.mp hw
          exact h2.val _)]
        simp
        omega
      rw [List.drop_left' hl]
      have : put big [0, 0, 0, 0] = [0, 0, 0, 0] := by cases big <;> rfl
      rw [this]
      rfl
    dsimp only
    rw [hdrop, if_neg (by decide), if_neg (by decide)]
  have hlong : ∃ fuel, (file big (r1 :: r2 :: rest)).length + 1 = fuel + 3 := by
    have e : file big (r1 :: r2 :: rest) = r1.bytes big ++ (r2.bytes big ++ file big rest) := by simp [file]
    have h0 := nbytes_pos (metaOf r1 0)
    have h0' := nbytes_pos (metaOf r2 0)
    rw [← bytes_length big r2 h2 0] at h0'
    refine ⟨(file big (r1 :: r2 :: rest)).length - 2, ?_⟩
    rw [e, List.length_append, List.length_append]
    omega
  obtain ⟨fuel, hfuel⟩ := hlong
  refine ⟨[⟨r1.name, r1.dims, 0⟩, ⟨r2.name, r2.dims, (metaOf r1 0).nbytes⟩], ?_, rfl⟩
  unfold template openNew
  rw [hh1]
  unfold Wrap.inquireAll
  simp only [Bool.false_eq_true, if_false, hfuel]
  have hall : Wrap.all (file big (r1 :: r2 :: rest)) (metaOf r1 0).nbytes (fuel + 3) ⟨some (metaOf r1 0), [], false⟩ 0 =
      ⟨some (metaOf r1 0), [(r1.name, metaOf r1 0), (r2.name, metaOf r2 (metaOf r1 0).nbytes)], true⟩ := by
    simp [Wrap.all, Wrap.next, hh1, hh2, hh3, Wrap.find, hn]
  rw [hall]
  rfl

/-- C190: by its name, a field is found by a wrapper that has not been used. For one that has, see `C190_again_violated` -/
theorem C190_first_partial (big : Bool) (pre : List Rec) (r : Rec) (post : List Rec) (d : List Nat) (hok : ∀ x ∈ pre ++ r :: post, x.Ok) (hd : ∀ x ∈ pre ++ r :: post, x.dims = d)
    (hn : ∀ x ∈ pre, x.name ≠ r.name) :
    ∃ w m, openNew (file big (pre ++ r :: post)) = .ok w ∧ (w.readField (file big (pre ++ r :: post)) r.name none).2 = .ok (m, (cells d).map r.val) ∧ m.dims = d := by
  have hsz := same_size big d _ hok hd 0
  generalize hS : Meta.nbytes ⟨[], 0, d, 0⟩ = size at hsz
  have key : ∀ (l : List Rec) (p : List UInt8) (fuel : Nat) (w : Wrap), (∀ x ∈ l ++ r :: post, x.Ok) → (∀ x ∈ l ++ r :: post, (x.bytes big).length = size) →
      (∀ x ∈ l, x.name ≠ r.name) → l.length < fuel → w.seenAll = false →
      (Wrap.search (p ++ file big (l ++ r :: post)) size r.name fuel w p.length).2 = some (endOf big, metaOf r (p.length + (file big l).length)) := by
    intro l
    induction l with
    | nil =>
      intro p fuel w hok _ _ hf hs
      obtain ⟨fuel, rfl⟩ : ∃ f, fuel = f + 1 := ⟨fuel - 1, by simp at hf; omega⟩
      have e : p ++ file big ([] ++ r :: post) = p ++ (r.bytes big ++ file big post) := by simp [file]
      unfold Wrap.search
      rw [hs, e]
      simp only [Bool.false_eq_true, if_false, Wrap.next, header_at big r (hok r (by simp)), if_true]
      rfl
    | cons x l ih =>
      intro p fuel w hok hsz hn hf hs
      obtain ⟨fuel, rfl⟩ : ∃ f, fuel = f + 1 := ⟨fuel - 1, by simp at hf; omega⟩
      have e : p ++ file big (x :: l ++ r :: post) = p ++ (x.bytes big ++ file big (l ++ r :: post)) := by simp [file]
      have e' : p ++ (x.bytes big ++ file big (l ++ r :: post)) = (p ++ x.bytes big) ++ file big (l ++ r :: post) := by rw [List.append_assoc]
      have hx := hsz x (by simp)
      have := ih (p ++ x.bytes big) fuel (addMeta w x.name (metaOf x p.length)) (fun y hy => hok y (by rw [List.cons_append]; exact List.mem_cons_of_mem _ hy))
        (fun y hy => hsz y (by rw [List.cons_append]; exact List.mem_cons_of_mem _ hy)) (fun y hy => hn y (by simp [hy])) (by simp at hf; omega) (by rw [addMeta_seenAll, hs])
      rw [List.length_append, hx] at this
      have hl : (file big (x :: l)).length = size + (file big l).length := by simp [file, hx]
      rw [hl, ← Nat.add_assoc, ← this, e]
      rw [Wrap.search]
      rw [hs]
      simp only [Bool.false_eq_true, if_false, Wrap.next, header_at big x (hok x (by simp)), hn x (by simp)]
      rw [e']
      rfl
  obtain ⟨r0, rs', hrs⟩ : ∃ r0 rs', pre ++ r :: post = r0 :: rs' := by
    cases pre with
    | nil => exact ⟨r, post, rfl⟩
    | cons a b => exact ⟨a, b ++ r :: post, rfl⟩
  have hr0 : r0 ∈ pre ++ r :: post := by rw [hrs]; simp
  have hh : readHeader (file big (pre ++ r :: post)) 0 = .found (endOf big) r0.name (metaOf r0 0) := by
    have := header_at big r0 (hok r0 hr0) [] (file big rs')
    rw [hrs]
    simpa [file] using this
  have hstep : (metaOf r0 0).nbytes = size := by rw [← bytes_length big r0 (hok r0 hr0) 0]; exact hsz r0 hr0
  have hk := key pre [] ((file big (pre ++ r :: post)).length + 1) ⟨some (metaOf r0 0), [], false⟩ hok hsz hn (by
    rw [file_len big size _ hsz]
    have := nbytes_pos (metaOf r0 0)
    rw [hstep] at this
    have := Nat.le_mul_of_pos_left (pre ++ r :: post).length this
    simp at this ⊢
    omega) rfl
  rw [List.nil_append, List.length_nil, Nat.zero_add] at hk
  have hr : r ∈ pre ++ r :: post := by simp
  refine ⟨⟨some (metaOf r0 0), [], false⟩, metaOf r (file big pre).length, ?_, ?_, hd r hr⟩
  · unfold openNew
    rw [hh]
  · unfold Wrap.readField Wrap.inquire
    simp only [ne_eq, not_true_eq_false, if_false, Bool.false_eq_true]
    rw [hstep]
    obtain ⟨w', hw'⟩ : ∃ w', Wrap.search (file big (pre ++ r :: post)) size r.name ((file big (pre ++ r :: post)).length + 1) ⟨some (metaOf r0 0), [], false⟩ 0 =
        (w', some (endOf big, metaOf r (file big pre).length)) := ⟨_, Prod.ext rfl hk⟩
    rw [hw']
    dsimp only
    have e : file big (pre ++ r :: post) = file big pre ++ (r.bytes big ++ file big post) := by simp [file]
    rw [e, data_at big r (hok r hr), hd r hr]

/-- C190 is violated: once a wrapper has come across a field, every later reading by name raises AttributeError, that of the same field included -/
theorem C190_again_violated (big : Bool) (pre : List Rec) (r : Rec) (post : List Rec) (d : List Nat) (hok : ∀ x ∈ pre ++ r :: post, x.Ok) (name : List UInt8)
    (w : Wrap) (hw : openNew (file big (pre ++ r :: post)) = .ok w) :
    let w' := (w.readField (file big (pre ++ r :: post)) r.name (some (file big pre).length)).1
    (w'.readField (file big (pre ++ r :: post)) name none).2 = .error .attribute := by
  have e : file big (pre ++ r :: post) = file big pre ++ (r.bytes big ++ file big post) := by simp [file]
  have h : ∀ w : Wrap, w.seen = [] → (w.readField (file big (pre ++ r :: post)) r.name (some (file big pre).length)).1.seen ≠ [] := by
    intro w hs
    unfold Wrap.readField Wrap.next
    dsimp only
    rw [e, header_at big r (hok r (by simp))]
    simp [Wrap.find, hs]
  have hs : w.seen = [] := by
    unfold openNew at hw
    split at hw
    · cases hw
    · cases hw; rfl
    · cases hw; rfl
  intro w'
  have := h w hs
  unfold Wrap.readField Wrap.inquire
  dsimp only
  rw [if_pos this]

/-- C190 is violated: after one reading behind the end, which raises, the same wrapper finds no fields -/
theorem C190_failed_violated (big : Bool) (r : Rec) (rs : List Rec) (hok : r.Ok) (pos : Nat) (h : (file big (r :: rs)).length ≤ pos) (name : List UInt8) :
    ∃ w w', openNew (file big (r :: rs)) = .ok w ∧ (w.readField (file big (r :: rs)) name (some pos)).2 = .error .value ∧
      (w.readField (file big (r :: rs)) name (some pos)).1.inquireAll (file big (r :: rs)) false = .ok w' ∧ w'.seen = [] := by
  have hh : readHeader (file big (r :: rs)) 0 = .found (endOf big) r.name (metaOf r 0) := by
    have := header_at big r hok [] (file big rs)
    simpa [file] using this
  have he := header_end _ _ h
  refine ⟨⟨some (metaOf r 0), [], false⟩, ⟨some (metaOf r 0), [], true⟩, ?_, ?_, ?_, rfl⟩
  · unfold openNew
    rw [hh]
  · simp [Wrap.readField, Wrap.next, he]
  · simp [Wrap.readField, Wrap.next, he, Wrap.inquireAll]

/-- what is done with a wrapper -/
inductive FbOp
  | all (reinquire : Bool)
  | read (name : List UInt8) (k : Nat)

/-- the state after an operation, errors or not; fields are read at places where there are some -/
def FbOp.run (f : List UInt8) (place : Nat → Nat) (w : Wrap) : FbOp → Wrap
  | .all b => match w.inquireAll f b with
    | .ok w => w
    | .error _ => w
  | .read name k => (w.readField f name (some (place k))).1

/-- what is known of a wrapper: what it has seen is right, and if it says so it has seen everything -/
structure FbInv (big : Bool) (rs : List Rec) (size : Nat) (fm : Meta) (w : Wrap) : Prop where
  fm : w.fileMeta = some fm
  right : ∀ p ∈ w.seen, ∃ (k : Nat) (r : Rec), rs[k]? = some r ∧ p = (r.name, metaOf r (size * k))
  all : w.seenAll = true → ∀ r ∈ rs, r.name ∈ w.seen.map Prod.fst

theorem addMeta_mem (w : Wrap) (n : List UInt8) (m : Meta) : n ∈ (addMeta w n m).seen.map Prod.fst ∧ (∀ x ∈ w.seen, x ∈ (addMeta w n m).seen) ∧
    ∀ x ∈ (addMeta w n m).seen, x ∈ w.seen ∨ x = (n, m) := by
  unfold addMeta
  split
  · next h =>
    refine ⟨?_, fun x hx => hx, fun x hx => Or.inl hx⟩
    by_cases hc : n ∈ w.seen.map Prod.fst
    · exact hc
    · rw [find_none w n hc] at h
      simp at h
  · refine ⟨by simp, fun x hx => by simp [hx], fun x hx => by simpa using hx⟩

theorem addAll_mem (size : Nat) : ∀ (l : List Rec) (w : Wrap) (pos : Nat), (∀ r ∈ l, r.name ∈ (addAll size w pos l).seen.map Prod.fst) ∧
    (∀ x ∈ w.seen, x ∈ (addAll size w pos l).seen) ∧
    ∀ x ∈ (addAll size w pos l).seen, x ∈ w.seen ∨ ∃ (k : Nat) (r : Rec), l[k]? = some r ∧ x = (r.name, metaOf r (pos + size * k))
  | [], w, pos => ⟨by simp, fun x hx => hx, fun x hx => Or.inl hx⟩
  | r :: l, w, pos => by
    obtain ⟨h1, h2, h3⟩ := addMeta_mem w r.name (metaOf r pos)
    obtain ⟨g1, g2, g3⟩ := addAll_mem size l (addMeta w r.name (metaOf r pos)) (pos + size)
    refine ⟨?_, fun x hx => g2 x (h2 x hx), ?_⟩
    · intro q hq
      rcases List.mem_cons.mp hq with rfl | hq
      · obtain ⟨x, hx, he⟩ := List.mem_map.mp h1
        exact List.mem_map.mpr ⟨x, g2 x hx, he⟩
      · exact g1 q hq
    · intro x hx
      rcases g3 x hx with h | ⟨k, q, hk, rfl⟩
      · rcases h3 x h with h | rfl
        · exact Or.inl h
        · exact Or.inr ⟨0, r, rfl, by simp⟩
      · exact Or.inr ⟨k + 1, q, by simpa using hk, by rw [Nat.mul_succ, show pos + size + size * k = pos + (size * k + size) by omega]⟩

theorem inquireAll_inv (big : Bool) (rs : List Rec) (size : Nat) (fm : Meta) (w : Wrap) (b : Bool) (hok : ∀ r ∈ rs, r.Ok) (hsz : ∀ r ∈ rs, (r.bytes big).length = size)
    (hfm : fm.nbytes = size) (h : FbInv big rs size fm w) : ∃ w', w.inquireAll (file big rs) b = .ok w' ∧ FbInv big rs size fm w' ∧ w'.seenAll = true := by
  have hpos : 0 < size := by rw [← hfm]; exact nbytes_pos fm
  have hfuel : rs.length < (file big rs).length + 1 := by
    rw [file_len big size _ hsz]
    have := Nat.le_mul_of_pos_left rs.length hpos
    omega
  have hscan : ∀ v : Wrap, v.fileMeta = some fm → v.seenAll = false → (∀ p ∈ v.seen, ∃ (k : Nat) (r : Rec), rs[k]? = some r ∧ p = (r.name, metaOf r (size * k))) →
      ∃ w', (match v.fileMeta with
        | none => .error .type
        | some m => .ok (v.all (file big rs) m.nbytes ((file big rs).length + 1) 0) : Except Err Wrap) = .ok w' ∧ FbInv big rs size fm w' ∧ w'.seenAll = true := by
    intro v hv hs hr
    rw [hv]
    dsimp only
    have hall := all_eq big size rs [] ((file big rs).length + 1) v hok hsz hfuel hs
    rw [List.nil_append, List.length_nil] at hall
    rw [hfm]
    refine ⟨_, congrArg Except.ok hall, ⟨?_, ?_, ?_⟩, rfl⟩
    · exact (addAll_fileMeta size rs v 0).trans hv
    · intro p hp
      rcases (addAll_mem size rs v 0).2.2 p hp with h | ⟨k, r, hk, rfl⟩
      · exact hr p h
      · exact ⟨k, r, hk, by rw [Nat.zero_add]⟩
    · intro _ r hr
      exact (addAll_mem size rs v 0).1 r hr
  unfold Wrap.inquireAll
  cases b with
  | true =>
    simp only [if_true, Bool.false_eq_true, if_false]
    exact hscan { w with seen := [], seenAll := false } h.fm rfl (by simp)
  | false =>
    simp only [Bool.false_eq_true, if_false]
    by_cases hs : w.seenAll = true
    · rw [if_pos hs]
      exact ⟨w, rfl, h, hs⟩
    · rw [if_neg hs]
      exact hscan w h.fm (by simpa using hs) h.right

/-- C190: whatever a wrapper has been used for, if it has only read where there are fields: the table of contents it gives is that of the file -/
theorem C190_history_partial (big : Bool) (rs : List Rec) (d : List Nat) (hok : ∀ r ∈ rs, r.Ok) (hd : ∀ r ∈ rs, r.dims = d) (hn : (rs.map Rec.name).Nodup)
    (ops : List FbOp) (hops : ∀ name k, FbOp.read name k ∈ ops → k < rs.length) (w : Wrap) (hw : openNew (file big rs) = .ok w) (b : Bool) :
    ∃ w', (ops.foldl (FbOp.run (file big rs) fun k => (file big (rs.take k)).length) w).inquireAll (file big rs) b = .ok w' ∧
      (∀ (k : Nat) (r : Rec), rs[k]? = some r → w'.find r.name = some ⟨r.time, r.inttime, r.dims, (file big (rs.take k)).length⟩) ∧
      ∀ name m, w'.find name = some m → name ∈ rs.map Rec.name := by
  have hsz := same_size big d _ hok hd 0
  generalize hS : Meta.nbytes ⟨[], 0, d, 0⟩ = size at hsz
  obtain ⟨r0, rs', hrs⟩ : ∃ r0 rs', rs = r0 :: rs' := by
    cases rs with
    | nil =>
      have : openNew (file big []) = .error .io := rfl
      rw [this] at hw
      cases hw
    | cons a b => exact ⟨a, b, rfl⟩
  have hr0 : r0 ∈ rs := by rw [hrs]; simp
  have hh : readHeader (file big rs) 0 = .found (endOf big) r0.name (metaOf r0 0) := by
    have := header_at big r0 (hok r0 hr0) [] (file big rs')
    rw [hrs]
    simpa [file] using this
  have hstep : (metaOf r0 0).nbytes = size := by rw [← bytes_length big r0 (hok r0 hr0) 0]; exact hsz r0 hr0
  have hplace : ∀ k, k ≤ rs.length → (file big (rs.take k)).length = size * k := by
    intro k hk
    rw [file_len big size _ (fun x hx => hsz x (List.mem_of_mem_take hx)), List.length_take, Nat.min_eq_left hk]
  have hinv0 : FbInv big rs size (metaOf r0 0) w := by
    unfold openNew at hw
    rw [hh] at hw
    cases hw
    exact ⟨rfl, by simp, by simp⟩
  have hinv : ∀ (ops : List FbOp) (w : Wrap), (∀ name k, FbOp.read name k ∈ ops → k < rs.length) → FbInv big rs size (metaOf r0 0) w →
      FbInv big rs size (metaOf r0 0) (ops.foldl (FbOp.run (file big rs) fun k => (file big (rs.take k)).length) w) := by
    intro ops
    induction ops with
    | nil => intro w _ h; exact h
    | cons op ops ih =>
      intro w ho h
      rw [List.foldl_cons]
      apply ih _ (fun name k hk => ho name k (by simp [hk]))
      cases op with
      | all b =>
        obtain ⟨w', h1, h2, -⟩ := inquireAll_inv big rs size (metaOf r0 0) w b hok hsz hstep h
        unfold FbOp.run
        dsimp only
        rw [h1]
        exact h2
      | read name k =>
        have hk := ho name k (by simp)
        have hg : rs[k]? = some rs[k] := List.getElem?_eq_getElem hk
        have hsplit : file big rs = file big (rs.take k) ++ ((rs[k]).bytes big ++ file big (rs.drop (k + 1))) := by
          conv => lhs; rw [← List.take_append_drop k rs, List.drop_eq_getElem_cons hk]
          unfold file
          rw [List.flatMap_append, List.flatMap_cons]
        have hnx : (w.readField (file big rs) name (some (file big (rs.take k)).length)).1 = addMeta w rs[k].name (metaOf rs[k] (size * k)) := by
          unfold Wrap.readField Wrap.next
          dsimp only
          have hat := header_at big _ (hok _ (List.getElem_mem hk)) (file big (rs.take k)) (file big (rs.drop (k + 1)))
          rw [← hsplit] at hat
          rw [hat, hplace k (by omega)]
          rfl
        unfold FbOp.run
        dsimp only
        rw [hnx]
        obtain ⟨m1, m2, m3⟩ := addMeta_mem w rs[k].name (metaOf rs[k] (size * k))
        refine ⟨?_, ?_, ?_⟩
        · rw [addMeta_fileMeta]; exact h.fm
        · intro p hp
          rcases m3 p hp with h4 | rfl
          · exact h.right p h4
          · exact ⟨k, _, hg, rfl⟩
        · intro hs r hr
          rw [addMeta_seenAll] at hs
          obtain ⟨x, hx, he⟩ := List.mem_map.mp (h.all hs r hr)
          exact List.mem_map.mpr ⟨x, m2 x hx, he⟩
  obtain ⟨w', h1, h2, h3⟩ := inquireAll_inv big rs size (metaOf r0 0) _ b hok hsz hstep (hinv ops w hops hinv0)
  have hfind : ∀ name m, w'.find name = some m → ∃ (k : Nat) (r : Rec), rs[k]? = some r ∧ r.name = name ∧ m = metaOf r (size * k) := by
    intro name m hm
    unfold Wrap.find at hm
    rw [Option.map_eq_some_iff] at hm
    obtain ⟨p, hp, rfl⟩ := hm
    have hpn := List.find?_some hp
    simp only [decide_eq_true_eq] at hpn
    obtain ⟨k, r, hk, rfl⟩ := h2.right p (List.mem_of_find?_eq_some hp)
    exact ⟨k, r, hk, hpn, rfl⟩
  refine ⟨w', h1, ?_, ?_⟩
  · intro k r hk
    have hr := List.mem_of_getElem? hk
    cases hf : w'.find r.name with
    | none =>
      exfalso
      unfold Wrap.find at hf
      rw [Option.map_eq_none_iff, List.find?_eq_none] at hf
      obtain ⟨x, hx, he⟩ := List.mem_map.mp (h2.all h3 r hr)
      exact hf x hx (by simpa using he)
    | some m =>
      obtain ⟨k', r', hk', hn', rfl⟩ := hfind _ _ hf
      have hkl := (List.getElem?_eq_some_iff.mp hk).1
      have hkl' := (List.getElem?_eq_some_iff.mp hk').1
      have : k' = k := by
        have e1 : (rs.map Rec.name)[k']? = some r.name := by rw [List.getElem?_map, hk', Option.map_some, hn']
        have e2 : (rs.map Rec.name)[k]? = some r.name := by rw [List.getElem?_map, hk]; rfl
        exact (List.getElem?_inj (by simpa using hkl') hn).mp (e1.trans e2.symm)
      subst this
      rw [hk] at hk'
      cases hk'
      rw [hplace k' (by omega)]
      rfl
  · intro name m hm
    obtain ⟨k, r, hk, rfl, -⟩ := hfind _ _ hm
    exact List.mem_map.mpr ⟨r, List.mem_of_getElem? hk, rfl⟩

/-- three fields of 2 by 1 by 2 values -/
def fbTest : List Rec :=
  [⟨[114, 114], List.replicate 80 48, 120, [2, 1, 2], fun i => [UInt8.ofNat (i.headD 0), 7, 0, 64]⟩,
    ⟨[112, 112], List.replicate 80 48, 120, [2, 1, 2], fun i => [UInt8.ofNat (i.headD 0), 8, 0, 64]⟩,
    ⟨[98, 120], List.replicate 80 48, 120, [2, 1, 2], fun i => [UInt8.ofNat (i.headD 0), 9, 0, 64]⟩]

theorem fbTest_ok : ∀ r ∈ fbTest, r.Ok := by
  intro r hr
  simp only [fbTest, List.mem_cons, List.not_mem_nil, or_false] at hr
  rcases hr with rfl | rfl | rfl <;> exact ⟨by decide, fun i => rfl, by decide, by decide, by decide⟩

example : fbTest ≠ [] ∧ (∀ r ∈ fbTest, r.Ok) ∧ (∀ r ∈ fbTest, r.dims = [2, 1, 2]) ∧ (fbTest.map Rec.name).Nodup ∧ Inside [2, 1, 2] [1, 0, 1] :=
  ⟨by decide, fbTest_ok, by decide, by decide, ⟨rfl, by
    intro d i n h1 h2
    match d, h1, h2 with
    | 0, h1, h2 => cases h1; cases h2; decide
    | 1, h1, h2 => cases h1; cases h2; decide
    | 2, h1, h2 => cases h1; cases h2; decide⟩⟩

/-- two fields of different sizes -/
example : ∃ r1 r2 : Rec, r1.Ok ∧ r2.Ok ∧ r1.dims = [1] ∧ r2.dims = [2] ∧ r2.val [1] = [0, 0, 0, 0] ∧ r1.name ≠ r2.name :=
  ⟨⟨[114, 114], List.replicate 80 48, 120, [1], fun _ => [0, 0, 0, 0]⟩, ⟨[112, 112], List.replicate 80 48, 120, [2], fun _ => [0, 0, 0, 0]⟩,
    ⟨by decide, fun _ => rfl, by decide, by decide, by decide⟩, ⟨by decide, fun _ => rfl, by decide, by decide, by decide⟩, rfl, rfl, rfl, by decide⟩

/-- a history, and a wrapper -/
example : (∀ name k, FbOp.read name k ∈ [FbOp.read [114, 114] 2, .all true, .read [98, 120] 2] → k < fbTest.length) ∧ ∃ w, openNew (file true fbTest) = .ok w := by
  refine ⟨?_, ?_⟩
  · intro name k h
    simp only [List.mem_cons, FbOp.read.injEq, List.not_mem_nil, or_false, reduceCtorEq, false_or] at h
    rcases h with ⟨-, rfl⟩ | ⟨-, rfl⟩ <;> decide
  · have := header_at true fbTest[0] (fbTest_ok _ (by simp)) [] (file true fbTest.tail)
    have e : file true fbTest = [] ++ (fbTest[0].bytes true ++ file true fbTest.tail) := rfl
    unfold openNew
    rw [← e, List.length_nil] at this
    rw [this]
    exact ⟨_, rfl⟩

end Viscid.Props
