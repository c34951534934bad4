import Verif.Lemmas.JrrleReal
/-!
# C10 - C13: the JRRLE format
-/
namespace Viscid.Jrrle
open Viscid Viscid.Spec.Jrrle Real

/-- C10: a record of 1 to 64 printable values is decoded to itself, and the encoded line has at most
65 characters, below the reader's limit of 67. -/
theorem C10_record_round_trip (r : List ℕ) (hne : r ≠ []) (hlen : r.length ≤ 64) (hp : Printable r) :
    wrndec (wrnenc r) = .ok r ∧ (wrnenc r).length ≤ 65 ∧ ∀ c ∈ (wrnenc r), c ≠ 32 ∧ c ≤ 255 := by
  refine ⟨wrndec_wrnenc r hne hlen hp, ?_, ?_⟩
  · cases r with
    | nil => exact absurd rfl hne
    | cons x xs =>
      have := encRuns_length x 1 (by omega) xs
      simp only [wrnenc, List.length_cons] at *
      omega
  · cases r with
    | nil => exact absurd rfl hne
    | cons x xs =>
      have key : ∀ (xs : List ℕ) (ir ic : ℕ), (33 ≤ ir ∧ ir ≤ 126) → Printable xs → 1 ≤ ic → ic + xs.length ≤ 64 →
          ∀ c ∈ encRuns ir ic xs, c ≠ 32 ∧ c ≤ 255 := by
        intro xs
        induction xs with
        | nil =>
          intro ir ic hir _ hic hl c hc
          simp only [encRuns, flush, List.length_nil] at hc hl
          split at hc
          · simp at hc; omega
          · simp at hc; omega
        | cons y ys ih =>
          intro ir ic hir hp hic hl c hc
          have hy := hp y (by simp)
          have hp' : Printable ys := fun c hc => hp c (by simp [hc])
          simp only [List.length_cons] at hl
          unfold encRuns at hc
          split at hc
          · exact ih ir (ic + 1) hir hp' (by omega) (by omega) c hc
          · rcases List.mem_append.mp hc with hc | hc
            · simp only [flush] at hc
              split at hc
              · simp at hc; omega
              · simp at hc; omega
            · exact ih y 1 hy hp' (by omega) (by omega) c hc
      intro c hc
      rcases List.mem_cons.mp hc with rfl | hc
      · omega
      · exact key xs x 1 (hp x (by simp)) (fun c hc => hp c (by simp [hc])) (by omega)
          (by simp only [List.length_cons] at hlen; omega) c hc

example : Printable [65, 65, 65, 66, 33, 126, 126] := by unfold Printable; decide
example : wrnenc [65, 65, 65, 66, 33, 126, 126] = [119, 173, 65, 66, 33, 172, 126] := by decide
example : wrndec [119, 173, 65, 66, 33, 172, 126] = .ok [65, 65, 65, 66, 33, 126, 126] := by decide

/-- C11: sign and quantisation index survive the two characters, which are printable. -/
theorem C11_chars_round_trip (neg : Bool) (i3 : ℕ) (h : i3 ≤ 4414) :
    ofChars (toChars (neg, i3)).1 (toChars (neg, i3)).2 = (neg, (i3 : ℤ)) ∧
    (33 ≤ (toChars (neg, i3)).1 ∧ (toChars (neg, i3)).1 ≤ 126) ∧
    (33 ≤ (toChars (neg, i3)).2 ∧ (toChars (neg, i3)).2 ≤ 126) := by
  have := toChars_range (neg, i3) h
  exact ⟨ofChars_toChars (neg, i3) h, ⟨this.1, this.2.1⟩, ⟨this.2.2.1, this.2.2.2⟩⟩

/-- C11, whole arrays (and C10 across records): writing any nonempty array and reading it back into
an array at least as large gives one value per input value; each has the sign of the input
(zero counts as positive) and its logarithm is within half a quantum (z2 - z1)/8820 of the
logarithm of the clamped input, z1 and z2 being the header's range. -/
theorem C11_array_round_trip (a : List ℝ) (hne : a ≠ []) (n : ℕ) (hn : a.length ≤ n) :
    ∃ b, readArray n (writeArray a) = .ok b ∧ b.length = a.length ∧
      ∀ (i : ℕ) (x y : ℝ), a[i]? = some x → b[i]? = some y →
        y ≠ 0 ∧ (y < 0 ↔ x < 0) ∧
        |log |y| - log (max (exp (zRange a).1) (min ((10 : ℝ) ^ (33 : ℕ)) |x|))| ≤
          ((zRange a).2 - (zRange a).1) / 8820 := by
  obtain ⟨hlt, hup⟩ := zRange_spec a hne
  set z1 := (zRange a).1 with hz1
  set z2 := (zRange a).2 with hz2
  have hidx : ∀ v ∈ a.map (quant z1 z2), v.2 ≤ 4414 := by
    intro v hv
    obtain ⟨x, hx, rfl⟩ := List.mem_map.mp hv
    have := (quant_spec z1 z2 x _ hlt rfl (hup x hx)).1
    omega
  have hrd := rdLoop_wrLoop ((a.length + 63) / 64) (a.map (quant z1 z2)) n [] hidx
    (by simp; omega) (by simp; omega) (by simpa using hn)
  rw [List.append_nil, List.length_map] at hrd
  refine ⟨a.map fun x => value z1 z2 (quant z1 z2 x).1 ((quant z1 z2 x).2 : ℤ), ?_, by simp, ?_⟩
  · unfold readArray writeArray rdn2 wrn2
    simp only [← hz1, ← hz2, hlt.ne, not_true_eq_false, if_false, List.length_map, hrd,
      List.map_map]
    rfl
  · intro i x y hx hy
    rw [List.getElem?_map, hx] at hy
    simp only [Option.map_some, Option.some.injEq] at hy
    have hxa : x ∈ a := List.mem_of_getElem? hx
    obtain ⟨_, hs, he⟩ := quant_spec z1 z2 x _ hlt rfl (hup x hxa)
    subst hy
    unfold value
    rw [hs]
    simp only [decide_eq_true_eq]
    refine ⟨?_, ?_, ?_⟩
    · apply mul_ne_zero
      · split <;> norm_num
      · exact exp_ne_zero _
    · by_cases h : x < 0
      · simp only [h, if_true, iff_true]
        have := exp_pos ((z2 - z1) / 4410 * (((quant z1 z2 x).2 : ℤ) : ℝ) + z1)
        linarith
      · simp only [h, if_false, one_mul, iff_false, not_lt]
        exact (exp_pos _).le
    · have habs : |(if x < 0 then (-1 : ℝ) else 1) * exp ((z2 - z1) / 4410 * (((quant z1 z2 x).2 : ℤ) : ℝ) + z1)| =
          exp ((z2 - z1) / 4410 * (((quant z1 z2 x).2 : ℤ) : ℝ) + z1) := by
        rw [abs_mul, abs_of_pos (exp_pos _)]
        split <;> simp
      rw [habs, log_exp]
      simpa using he

example : ([1, -2, 0, 5] : List ℝ) ≠ [] ∧ ([1, -2, 0, 5] : List ℝ).length ≤ 4 := by simp

/-- C11, limitation made explicit: a zero never reads back as zero (it becomes a nonzero value of
logarithm about z1). -/
theorem C11_zero_not_preserved (a : List ℝ) (n : ℕ) (hn : a.length ≤ n) (i : ℕ) (hi : a[i]? = some 0) :
    ∃ b y, readArray n (writeArray a) = .ok b ∧ b[i]? = some y ∧ 0 < y := by
  have hne : a ≠ [] := by rintro rfl; simp at hi
  obtain ⟨b, h1, h2, h3⟩ := C11_array_round_trip a hne n hn
  have hlt : i < b.length := by
    rw [h2]; exact lt_of_get hi
  have hy : b[i]? = some b[i] := List.getElem?_eq_getElem hlt
  obtain ⟨g1, g2, _⟩ := h3 i 0 b[i] hi hy
  refine ⟨b, b[i], h1, hy, ?_⟩
  have : ¬ b[i] < 0 := fun h => lt_irrefl _ (g2.mp h)
  exact lt_of_le_of_ne (not_lt.mp this) (Ne.symm g1)

/-- C12, what holds: an accepted line yields at most 64 values. -/
theorem C12_at_most_64_partial (line d : List ℕ) (h : wrndec line = .ok d) : d.length ≤ 64 :=
  decLoop_ok 0 (pad72 line) [] d h

example := C12_at_most_64_partial [119, 173, 65, 66, 33, 172, 126] [65, 65, 65, 66, 33, 126, 126] (by decide)

/-- C12, what holds: no write leaves the work array unless the line's repeat counts add up to more
than the 69 cells above index -2. -/
theorem C12_no_overrun_partial (line : List ℕ) (h : expansion (pad72 line) ≤ 69) :
    wrndec line ≠ .error .overrun := by
  intro he
  have := decLoop_overrun 0 (pad72 line) [] he
  simp at this
  omega

example := C12_no_overrun_partial [119, 173, 65, 66, 33, 172, 126] (by decide)

/-- C12 is false: changing one character (a repeat count) of the line of a valid record makes the
decoder write outside its work array. -/
theorem C12_memory_safety_violated :
    ∃ (r : List ℕ) (k c : ℕ), Printable r ∧ r.length = 64 ∧ c ≤ 255 ∧
      wrndec (wrnenc r) = .ok r ∧ wrndec ((wrnenc r).set k c) = .error .overrun := by
  refine ⟨List.replicate 64 65, 1, 255, ?_, by simp, by omega, ?_, by decide +kernel⟩
  · intro c hc; simp at hc; omega
  · apply wrndec_wrnenc
    · simp
    · simp
    · intro c hc; simp at hc; omega

/-- The line a record with values `r'` has when its checksum is that of `r`
(`r` altered after writing). -/
def alteredLine (r r' : List ℕ) : List ℕ :=
  match r' with
  | [] => []
  | x :: xs => (33 + r.sum % 92) :: encRuns x 1 xs

theorem sum_set (r : List ℕ) (i a b : ℕ) (h : r[i]? = some a) : (r.set i b).sum + a = r.sum + b := by
  induction r generalizing i with
  | nil => simp at h
  | cons x xs ih =>
    cases i with
    | zero => simp at h; subst h; simp; omega
    | succ i =>
      simp at h
      have := ih i h
      simp; omega

/-- C12, corruption: a record whose i-th value was altered from `a` to `b` after the checksum was
computed is rejected, except when `a` and `b` differ by exactly 92 (33/125 or 34/126), in which case
it is accepted with the wrong value. -/
theorem C12_checksum_partial (r : List ℕ) (hlen : r.length ≤ 64) (hp : Printable r) (i a b : ℕ)
    (hi : r[i]? = some a) (hb : 33 ≤ b ∧ b ≤ 126) (hab : a ≠ b) :
    wrndec (alteredLine r (r.set i b)) =
      if a = b + 92 ∨ b = a + 92 then .ok (r.set i b) else .error .checksum := by
  have ha := hp a (List.mem_of_getElem? hi)
  have hsum := sum_set r i a b hi
  have hp' : Printable (r.set i b) := by
    intro c hc
    rcases List.mem_or_eq_of_mem_set hc with h | h
    · exact hp c h
    · omega
  have hlen' : (r.set i b).length ≤ 64 := by simpa using hlen
  generalize hr' : r.set i b = r' at *
  cases r' with
  | nil =>
    have : r = [] := by
      cases r with
      | nil => rfl
      | cons x xs => cases i <;> simp at hr'
    subst this; simp at hi
  | cons x xs =>
    unfold alteredLine
    simp only [List.length_cons] at hlen'
    rw [wrndec_line _ x xs (by omega) (hp' x (by simp)) (fun c hc => hp' c (by simp [hc])) (by omega)]
    unfold decFinish
    dsimp only
    rw [if_neg (by simp only [List.length_cons]; omega)]
    by_cases hd : a = b + 92 ∨ b = a + 92
    · rw [if_pos hd, if_neg]
      omega
    · rw [if_neg hd, if_pos]
      omega

example := C12_checksum_partial [65, 65, 65, 66, 33, 126] (by decide) (by unfold Printable; decide) 3 66 90 rfl (by decide) (by decide)

/-- C12, corruption detection is false at distance 92: the altered record is accepted. -/
theorem C12_corruption_violated :
    ∃ (r : List ℕ) (i b : ℕ), Printable r ∧ 33 ≤ b ∧ b ≤ 126 ∧ r[i]? ≠ some b ∧
      wrndec (alteredLine r (r.set i b)) = .ok (r.set i b) := by
  refine ⟨[33, 40], 0, 125, ?_, by omega, by omega, by simp, by decide⟩
  unfold Printable; decide

/-- C12, second overrun: a header announcing more values than the caller's array holds makes the
reader write past that array. -/
theorem C12_header_overrun_violated :
    ∃ (n : ℕ) (h : Header ℤ) (lines : List (List ℕ)),
      rdn2 h (fun _ i => i) n lines = .error .overrun :=
  ⟨1, ⟨true, some 2, 0, 1⟩, [wrnenc [33, 34], wrnenc [33, 34]], by decide⟩

/-- C13: after any history of operations on a file, `inquire(name)` returns the metadata and position
of the first field of that name and leaves the file there; it raises KeyError exactly when the file
has no such field.  (`fuel` bounds the scanning loops, which always terminate within one pass.) -/
theorem C13_lookup_history_independent {Name Meta : Type} [DecidableEq Name] (f : File Name Meta)
    (fuel : ℕ) (hfuel : f.length + 1 ≤ fuel) (ops : List (LOp Name)) (name : Name) :
    ∃ s s', lexec f fuel ops = some s ∧
      ((∃ m q, IsFirst f name m q ∧ inquire f fuel s name = some (s', some (m, q)) ∧ s'.pos = q) ∨
       (NoField f name ∧ inquire f fuel s name = some (s', none))) := by
  obtain ⟨s, h1, h2⟩ := lexec_inv f fuel hfuel ops
  rcases inquire_spec f name fuel s h2 hfuel with ⟨s', m, q, g1, _, g3, g4, _⟩ | ⟨s', g1, _, g3⟩
  · exact ⟨s, s', h1, Or.inl ⟨m, q, g4, g1, g3⟩⟩
  · exact ⟨s, s', h1, Or.inr ⟨g3, g1⟩⟩

/-! A file with a duplicate name; the history seeks back and forth and fails once. -/
example : (lexec (Name := ℕ) (Meta := ℕ)
      [none, some (1, 10), none, some (2, 20), none, some (1, 11), none, some (3, 30), none] 10
      [.inquire 2, .inquireNext, .inquire 9, .reopen, .inquire 1, .read 3 1, .inquireAll true]).map (·.pos) =
    some 9 := by decide +kernel

end Viscid.Jrrle
