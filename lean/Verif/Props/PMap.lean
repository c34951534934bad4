import Verif.Spec.PMap
import Mathlib.Data.List.Perm.Basic
import Mathlib.Tactic.Ring
/-!
# C169: parallel.map gives what the loop gives, whatever the schedule
-/
namespace Viscid.Props
open Viscid.PMap Viscid.Spec.PMap

/-! ## schedules -/

theorem step_perm {n : Nat} {s s' : St} {e : Event} (h : step n s e = some s') :
    (s'.queue ++ (s'.busy ++ s'.done)).Perm (s.queue ++ (s.busy ++ s.done)) ∧ 2 * s'.queue.length + s'.busy.length + 1 = 2 * s.queue.length + s.busy.length := by
  obtain ⟨q, b, d⟩ := s
  cases e with
  | take =>
    cases q with
    | nil => simp [step] at h
    | cons a q =>
      simp only [step] at h
      split at h
      · cases h
        refine ⟨?_, by simp; omega⟩
        simp only [List.cons_append]
        exact List.perm_middle
      · cases h
  | finish k =>
    simp only [step] at h
    split at h
    · cases h
    · rename_i c hc
      cases h
      obtain ⟨hk, rfl⟩ := List.getElem?_eq_some_iff.mp hc
      refine ⟨?_, by simp [List.length_eraseIdx, hk]; omega⟩
      simp only
      refine List.Perm.append_left q ?_
      have h1 : (b[k] :: b.eraseIdx k).Perm b := List.getElem_cons_eraseIdx_perm hk
      have h2 : (b.eraseIdx k ++ (d ++ [b[k]])).Perm (b[k] :: (b.eraseIdx k ++ d)) := by
        rw [← List.append_assoc]
        exact List.perm_append_singleton _ _
      exact h2.trans (by simpa using h1.append_right d)

theorem run_perm {n : Nat} : ∀ {s s' : St} {evs : List Event}, run n s evs = some s' →
    (s'.queue ++ (s'.busy ++ s'.done)).Perm (s.queue ++ (s.busy ++ s.done)) ∧ 2 * s'.queue.length + s'.busy.length + evs.length = 2 * s.queue.length + s.busy.length
  | s, s', [], h => by cases h; exact ⟨List.Perm.refl _, by simp⟩
  | s, s', e :: es, h => by
    unfold run at h
    split at h
    · cases h
    · rename_i s1 h1
      have ha := step_perm h1
      have hb := run_perm h
      exact ⟨hb.1.trans ha.1, by simp; omega⟩

theorem order_perm {n m : Nat} {evs : List Event} {d : List Nat} (h : order n m evs = some d) : d.Perm (List.range m) := by
  unfold order at h
  split at h
  · rename_i d' h1
    cases h
    have := (run_perm h1).1
    simpa [init] using this
  · cases h

/-- C169: whatever the workers do, the work is finished after at most two events for each part, and until then a worker can do something -/
theorem C169_ends (n m : Nat) (hn : 1 ≤ n) (evs : List Event) (s : St) (h : run n (init m) evs = some s) :
    evs.length ≤ 2 * m ∧ ((s.queue = [] ∧ s.busy = [] ∧ ∀ i, i < m → i ∈ s.done) ∨ ∃ e s', step n s e = some s') := by
  have hp := run_perm h
  simp only [init, List.length_range, List.append_nil, List.length_nil, Nat.add_zero] at hp
  refine ⟨by omega, ?_⟩
  obtain ⟨q, b, d⟩ := s
  cases b with
  | cons c b => exact Or.inr ⟨.finish 0, _, rfl⟩
  | nil =>
    cases q with
    | cons a q => exact Or.inr ⟨.take, ⟨q, [a], d⟩, by simp [step]; omega⟩
    | nil =>
      refine Or.inl ⟨rfl, rfl, fun i hi => ?_⟩
      have := hp.1.mem_iff (a := i)
      simpa [hi] using this

/-! ## results -/

theorem serial_loop (f : α → Except E β) : ∀ (args : List α) (r : Except E (List β)), Loop f args r ↔ serial f args = r := by
  intro args
  induction args with
  | nil =>
    intro r
    constructor
    · intro h; cases h; rfl
    · intro h; cases h; exact .nil
  | cons a as ih =>
    intro r
    constructor
    · intro h
      cases h with
      | cons h1 h2 => rw [serial, h1, (ih _).mp h2]
      | here h1 => rw [serial, h1]
      | later h1 h2 => rw [serial, h1, (ih _).mp h2]
    · intro h
      unfold serial at h
      split at h
      · subst h; exact .here (by assumption)
      · split at h
        · subst h; exact .later (by assumption) ((ih _).mpr (by assumption))
        · subst h; exact .cons (by assumption) ((ih _).mpr (by assumption))

theorem serial_id (f : α → Except E β) : ∀ args : List α, serial id (args.map f) = serial f args
  | [] => rfl
  | a :: as => by
    have ih := serial_id f as
    rw [List.map_cons, serial, serial, ih]
    rfl

theorem serial_ok (f : α → Except E β) : ∀ (args : List α) (bs : List β), serial f args = .ok bs ↔ args.map f = bs.map .ok
  | [], bs => by
    cases bs <;> simp [serial]
  | a :: as, bs => by
    have ih := serial_ok f as
    constructor
    · intro h
      unfold serial at h
      split at h
      · cases h
      · rename_i b hb
        split at h
        · cases h
        · rename_i bs' hbs
          cases h
          simp [hb, (ih bs').mp hbs]
    · intro h
      cases bs with
      | nil => simp at h
      | cons b bs =>
        simp only [List.map_cons, List.cons.injEq] at h
        rw [serial, h.1, (ih bs).mpr h.2]

theorem serial_error (f : α → Except E β) : ∀ (args : List α) (e : E), serial f args = .error e → ∃ a ∈ args, f a = .error e
  | [], e, h => by cases h
  | a :: as, e, h => by
    unfold serial at h
    split at h
    · cases h; exact ⟨a, by simp, by assumption⟩
    · split at h
      · cases h
        obtain ⟨a', h1, h2⟩ := serial_error f as _ (by assumption)
        exact ⟨a', by simp [h1], h2⟩
      · cases h

theorem serial_fails (f : α → Except E β) (args : List α) (a : α) (ha : a ∈ args) (e : E) (h : f a = .error e) : ∃ e', serial f args = .error e' := by
  cases hs : serial f args with
  | error e' => exact ⟨e', rfl⟩
  | ok bs =>
    have := (serial_ok f args bs).mp hs
    have h1 : f a ∈ bs.map .ok := by rw [← this]; exact List.mem_map.mpr ⟨a, ha, rfl⟩
    obtain ⟨b, -, hb⟩ := List.mem_map.mp h1
    rw [h] at hb
    cases hb

theorem mapM_done (f : α → Except E β) (done : List Nat) : ∀ (args : List α) (k : Nat), (∀ i, k ≤ i → i < k + args.length → i ∈ done) →
    ((args.zipIdx k).mapM fun a => if a.2 ∈ done then some (f a.1) else none) = some (args.map f)
  | [], _, _ => rfl
  | a :: as, k, h => by
    have ih := mapM_done f done as (k + 1) (fun i h1 h2 => h i (by omega) (by simp only [List.length_cons]; omega))
    rw [List.zipIdx_cons, List.mapM_cons, if_pos (h k (Nat.le_refl _) (by simp)), ih]
    rfl

theorem threadRes_eq (f : α → Except E β) (args : List α) (n : Nat) (evs : List Event) (d : List Nat) (h : order n args.length evs = some d) :
    threadRes f args d = some (serial f args) := by
  unfold threadRes
  rw [mapM_done f d args 0 (fun i _ hi => (order_perm h).mem_iff.mpr (by simpa using hi))]
  simp only [serial_id]

/-! ## pools -/

theorem chunk_map (cs : Nat) (f : α → γ) (args : List α) (i : Nat) : (chunk cs args i).map f = chunk cs (args.map f) i := by
  simp [chunk, List.map_take, List.map_drop]

theorem chunk_get (cs : Nat) (l : List α) (i j : Nat) : (chunk cs l i)[j]? = if j < cs then l[i * cs + j]? else none := by
  unfold chunk
  rw [List.getElem?_take, List.getElem?_drop]

theorem set_get (cs i : Nat) (V : List (Option β)) (bs : List β) (hl : V.length = bs.length) (hi : i * cs < bs.length) (j : Nat) :
    (V.take (i * cs) ++ ((chunk cs bs i).map some ++ V.drop ((i + 1) * cs)))[j]? =
      if i * cs ≤ j ∧ j < (i + 1) * cs then (bs[j]?).map some else V[j]? := by
  have h1 : (i + 1) * cs = i * cs + cs := by ring
  rw [h1]
  have hcl : (chunk cs bs i).length = min cs (bs.length - i * cs) := by simp [chunk]
  have htl : (V.take (i * cs)).length = i * cs := by rw [List.length_take]; omega
  by_cases ha : j < i * cs
  · rw [List.getElem?_append_left (by omega), if_neg (by omega), List.getElem?_take, if_pos ha]
  · rw [List.getElem?_append_right (by omega), htl]
    by_cases hb : j < i * cs + cs
    · rw [if_pos ⟨by omega, hb⟩]
      by_cases hc : j < bs.length
      · rw [List.getElem?_append_left (by rw [List.length_map, hcl]; omega), List.getElem?_map, chunk_get, if_pos (by omega)]
        congr 2
        omega
      · rw [List.getElem?_append_right (by rw [List.length_map, hcl]; omega), List.length_map, hcl, List.getElem?_drop,
          List.getElem?_eq_none (l := bs) (by omega), List.getElem?_eq_none (by omega)]
        rfl
    · rw [if_neg (by omega), List.getElem?_append_right (by rw [List.length_map, hcl]; omega), List.length_map, hcl, List.getElem?_drop]
      by_cases hd : j < bs.length
      · congr 1
        omega
      · rw [List.getElem?_eq_none (l := V) (by omega), List.getElem?_eq_none (by omega)]

theorem set_length (cs i : Nat) (V : List (Option β)) (bs : List β) (hl : V.length = bs.length) (hi : i * cs < bs.length) :
    (V.take (i * cs) ++ ((chunk cs bs i).map some ++ V.drop ((i + 1) * cs))).length = bs.length := by
  have h1 : (i + 1) * cs = i * cs + cs := by ring
  rw [h1]
  simp only [chunk, List.length_append, List.length_take, List.length_map, List.length_drop]
  omega

/-- parts finished so far have their results in place -/
theorem pool_fold (f : α → Except E β) (args : List α) (cs : Nat) (bs : List β) (hbs : args.map f = bs.map .ok) : ∀ (done : List Nat),
    (∀ i ∈ done, i * cs < bs.length) → ∀ (V : List (Option β)), V.length = bs.length →
    ∃ W, done.foldl (fun (r : Res E β) i => r.set cs i (serial f (chunk cs args i))) ⟨V, none⟩ = ⟨W, none⟩ ∧ W.length = bs.length ∧
      ∀ j, W[j]? = if ∃ i ∈ done, i * cs ≤ j ∧ j < (i + 1) * cs then (bs[j]?).map some else V[j]?
  | [], _, V, hV => ⟨V, rfl, hV, fun j => by simp⟩
  | i :: done, hd, V, hV => by
    have hi := hd i (by simp)
    have hs : serial f (chunk cs args i) = .ok (chunk cs bs i) := by
      rw [serial_ok, chunk_map, chunk_map, hbs]
    obtain ⟨W, h1, h2, h3⟩ := pool_fold f args cs bs hbs done (fun k hk => hd k (by simp [hk])) _ (set_length cs i V bs hV hi)
    refine ⟨W, ?_, h2, fun j => ?_⟩
    · rw [List.foldl_cons, hs]
      exact h1
    · rw [h3 j, set_get cs i V bs hV hi]
      by_cases hA : ∃ k ∈ done, k * cs ≤ j ∧ j < (k + 1) * cs
      · rw [if_pos hA, if_pos]
        obtain ⟨k, hk, hk'⟩ := hA
        exact ⟨k, by simp [hk], hk'⟩
      · rw [if_neg hA]
        by_cases hB : i * cs ≤ j ∧ j < (i + 1) * cs
        · rw [if_pos hB, if_pos ⟨i, by simp, hB⟩]
        · rw [if_neg hB, if_neg]
          rintro ⟨k, hk, hk'⟩
          rcases List.mem_cons.mp hk with rfl | hk
          · exact hB hk'
          · exact hA ⟨k, hk, hk'⟩

theorem mapM_id_some : ∀ (bs : List β), (bs.map some).mapM id = some bs
  | [] => rfl
  | b :: bs => by rw [List.map_cons, List.mapM_cons, mapM_id_some bs]; rfl

theorem chunk_cover (n len j : Nat) (hj : j < len) : ∃ i, i < nrChunks (chunkSize n len) len ∧ i * chunkSize n len ≤ j ∧ j < (i + 1) * chunkSize n len := by
  have hcs : 0 < chunkSize n len := by
    unfold chunkSize
    by_cases h : len % (n * 4) = 0
    · rw [if_pos h]
      by_cases h4 : n * 4 = 0
      · rw [h4, Nat.mod_zero] at h; omega
      · have hd := Nat.div_add_mod len (n * 4)
        by_cases hz : len / (n * 4) = 0
        · rw [hz, h] at hd; omega
        · exact Nat.lt_of_lt_of_le (Nat.pos_of_ne_zero hz) (Nat.le_add_right _ _)
    · rw [if_neg h]; exact Nat.succ_pos _
  generalize chunkSize n len = cs at hcs
  refine ⟨j / cs, ?_, Nat.div_mul_le_self j cs, ?_⟩
  · unfold nrChunks
    rw [if_neg (by omega)]
    by_cases h : len % cs = 0
    · rw [if_pos h]
      have : cs ∣ len := Nat.dvd_of_mod_eq_zero h
      have h2 := Nat.div_lt_div_of_lt_of_dvd this hj
      omega
    · rw [if_neg h]
      have := Nat.div_le_div_right (c := cs) (Nat.le_of_lt hj)
      omega
  · rw [Nat.mul_comm]
    exact Nat.lt_mul_div_succ j hcs

theorem chunk_in (cs len i : Nat) (hi : i < nrChunks cs len) : i * cs < len := by
  unfold nrChunks at hi
  split at hi
  · omega
  · rename_i h0
    have hd := Nat.div_add_mod len cs
    by_cases h : len % cs = 0
    · rw [if_pos h] at hi
      have := Nat.mul_lt_mul_of_pos_right hi (Nat.pos_of_ne_zero h0)
      rw [Nat.add_zero, Nat.mul_comm (len / cs)] at this
      omega
    · rw [if_neg h] at hi
      have := Nat.mul_le_mul_right cs (Nat.le_of_lt_succ hi)
      rw [Nat.mul_comm (len / cs)] at this
      omega

theorem poolRes_ok (f : α → Except E β) (args : List α) (n p : Nat) (evs : List Event) (d : List Nat)
    (h : order p (nrChunks (chunkSize n args.length) args.length) evs = some d) (bs : List β) (hbs : serial f args = .ok bs) :
    poolRes f args (chunkSize n args.length) d = some (.ok bs) := by
  have hm := (serial_ok f args bs).mp hbs
  have hl : args.length = bs.length := by simpa using congrArg List.length hm
  obtain ⟨W, h1, h2, h3⟩ := pool_fold f args (chunkSize n args.length) bs hm d (fun i hi => by
    rw [← hl]
    exact chunk_in _ _ _ (by simpa using (order_perm h).mem_iff.mp hi)) (List.replicate args.length none) (by simp [hl])
  unfold poolRes
  simp only [h1]
  have : W = bs.map some := by
    apply List.ext_getElem?
    intro j
    rw [h3 j, List.getElem?_map]
    by_cases hj : j < args.length
    · obtain ⟨i, hi, hi'⟩ := chunk_cover n args.length j hj
      rw [if_pos ⟨i, (order_perm h).mem_iff.mpr (by simpa using hi), hi'⟩]
    · rw [List.getElem?_eq_none (l := bs) (by omega), List.getElem?_eq_none (by simpa using hj)]
      simp
  rw [this, mapM_id_some]
  rfl

theorem exc_keep (f : α → Except E β) (args : List α) (cs : Nat) (e : E) : ∀ (done : List Nat) (V : List (Option β)),
    done.foldl (fun (r : Res E β) i => r.set cs i (serial f (chunk cs args i))) ⟨V, some e⟩ = ⟨V, some e⟩
  | [], _ => rfl
  | i :: done, V => by
    rw [List.foldl_cons]
    have : Res.set ⟨V, some e⟩ cs i (serial f (chunk cs args i)) = ⟨V, some e⟩ := by
      cases serial f (chunk cs args i) <;> rfl
    rw [this]
    exact exc_keep f args cs e done V

theorem pool_fails (f : α → Except E β) (args : List α) (cs : Nat) : ∀ (done : List Nat) (V : List (Option β)),
    (∃ i ∈ done, ∃ e, serial f (chunk cs args i) = .error e) →
    ∃ i ∈ done, ∃ e, serial f (chunk cs args i) = .error e ∧ (done.foldl (fun (r : Res E β) i => r.set cs i (serial f (chunk cs args i))) ⟨V, none⟩).exc = some e
  | [], _, h => by simp at h
  | i :: done, V, h => by
    rw [List.foldl_cons]
    cases hs : serial f (chunk cs args i) with
    | error e =>
      refine ⟨i, by simp, e, hs, ?_⟩
      have : Res.set ⟨V, none⟩ cs i (.error e : Except E (List β)) = ⟨V, some e⟩ := rfl
      rw [this, exc_keep]
    | ok bs =>
      obtain ⟨k, hk, e, he⟩ := h
      rcases List.mem_cons.mp hk with rfl | hk
      · rw [hs] at he; cases he
      · obtain ⟨k', h1, e', h2, h3⟩ := pool_fails f args cs done (V.take (i * cs) ++ (bs.map some ++ V.drop ((i + 1) * cs))) ⟨k, hk, e, he⟩
        exact ⟨k', by simp [h1], e', h2, h3⟩

theorem chunk_sub (cs : Nat) (args : List α) (i : Nat) (a : α) (h : a ∈ chunk cs args i) : a ∈ args :=
  List.mem_of_mem_drop (List.mem_of_mem_take h)

theorem poolRes_error (f : α → Except E β) (args : List α) (n p : Nat) (evs : List Event) (d : List Nat)
    (h : order p (nrChunks (chunkSize n args.length) args.length) evs = some d) (a : α) (ha : a ∈ args) (e0 : E) (hf : f a = .error e0) :
    ∃ e, poolRes f args (chunkSize n args.length) d = some (.error e) ∧ ∃ a ∈ args, f a = .error e := by
  obtain ⟨j, hj, hja⟩ := List.getElem_of_mem ha
  obtain ⟨i, hi, h1, h2⟩ := chunk_cover n args.length j hj
  have hmem : a ∈ chunk (chunkSize n args.length) args i := by
    apply List.mem_of_getElem? (i := j - i * chunkSize n args.length)
    have e : (i + 1) * chunkSize n args.length = i * chunkSize n args.length + chunkSize n args.length := by ring
    rw [chunk_get, if_pos (by omega), show i * chunkSize n args.length + (j - i * chunkSize n args.length) = j by omega]
    rw [List.getElem?_eq_getElem hj, hja]
  obtain ⟨e1, he1⟩ := serial_fails f _ a hmem e0 hf
  obtain ⟨k, -, e, he, hr⟩ := pool_fails f args (chunkSize n args.length) d (List.replicate args.length none)
    ⟨i, (order_perm h).mem_iff.mpr (by simpa using hi), e1, he1⟩
  refine ⟨e, ?_, ?_⟩
  · unfold poolRes
    simp only [hr]
  · obtain ⟨a', h1, h2⟩ := serial_error f _ e he
    exact ⟨a', chunk_sub _ _ _ _ h1, h2⟩

/-! ## C169 -/

/-- C169: with one process, threads or processes, and any schedule, `map` gives what the loop over the arguments gives. With processes this needs that the
    function fails for no argument. -/
theorem C169_map_partial (threads force : Bool) (n : Int) (hn : 1 ≤ n) (f : α → Except E β) (args : List α) (evs : List Event) (r : Except (Exc E) (List β))
    (h : map threads none force n f args evs = some r)
    (hf : threads = true ∨ (n = 1 ∧ force = false) ∨ ∀ a ∈ args, ∃ b, f a = .ok b) :
    (∀ bs, r = .ok bs ↔ Loop f args (.ok bs)) ∧ ∀ e, r = .error (.func e) ↔ Loop f args (.error e) := by
  have key : r = lift (serial f args) := by
    unfold map at h
    cases threads with
    | true =>
      simp only [if_true] at h
      rw [if_neg (by omega)] at h
      split at h
      · cases h
      · rename_i d hd
        rw [threadRes_eq f args _ evs d hd] at h
        simpa using h.symm
    | false =>
      simp only [Bool.false_eq_true, if_false] at h
      by_cases h1 : (n = 1 && !force) = true
      · rw [if_pos h1] at h
        simpa using h.symm
      · rw [if_neg h1, if_neg (by omega)] at h
        have hf : ∀ a ∈ args, ∃ b, f a = .ok b := by
          rcases hf with hf | ⟨rfl, rfl⟩ | hf
          · cases hf
          · simp at h1
          · exact hf
        split at h
        · cases h
        · rename_i d hd
          obtain ⟨bs, hbs⟩ : ∃ bs, serial f args = .ok bs := by
            cases hs : serial f args with
            | ok bs => exact ⟨bs, rfl⟩
            | error e =>
              obtain ⟨a, ha, hfa⟩ := serial_error f args e hs
              obtain ⟨b, hb⟩ := hf a ha
              rw [hb] at hfa; cases hfa
          rw [poolRes_ok f args _ _ evs d hd bs hbs] at h
          rw [hbs]
          simpa using h.symm
  subst key
  refine ⟨fun bs => ?_, fun e => ?_⟩
  · rw [serial_loop]
    cases serial f args <;> simp [lift]
  · rw [serial_loop]
    cases serial f args <;> simp [lift]

/-- C169: there is an exception if and only if the function fails for an argument, and it is that of one of the arguments -/
theorem C169_error_partial (threads force : Bool) (n : Int) (hn : 1 ≤ n) (f : α → Except E β) (args : List α) (evs : List Event) (r : Except (Exc E) (List β))
    (h : map threads none force n f args evs = some r) :
    ((∃ a ∈ args, ∃ e, f a = .error e) ↔ ∃ x, r = .error x) ∧ ∀ x, r = .error x → ∃ a ∈ args, ∃ e, f a = .error e ∧ x = .func e := by
  by_cases hok : ∀ a ∈ args, ∃ b, f a = .ok b
  · have h1 := C169_map_partial threads force n hn f args evs r h (Or.inr (Or.inr hok))
    have hno : ¬ ∃ a ∈ args, ∃ e, f a = .error e := by
      rintro ⟨a, ha, e, he⟩
      obtain ⟨b, hb⟩ := hok a ha
      rw [hb] at he; cases he
    have hs : ∃ bs, serial f args = .ok bs := by
      cases hs : serial f args with
      | ok bs => exact ⟨bs, rfl⟩
      | error e =>
        obtain ⟨a, ha, hfa⟩ := serial_error f args e hs
        exact absurd ⟨a, ha, e, hfa⟩ hno
    obtain ⟨bs, hbs⟩ := hs
    have : r = .ok bs := (h1.1 bs).mpr ((serial_loop f args _).mpr hbs)
    subst this
    exact ⟨⟨fun h => absurd h hno, fun ⟨x, hx⟩ => by cases hx⟩, fun x hx => by cases hx⟩
  · have hex : ∃ a ∈ args, ∃ e, f a = .error e := by
      simp only [not_forall] at hok
      obtain ⟨a, ha, hb⟩ := hok
      cases hfa : f a with
      | ok b => exact absurd ⟨b, hfa⟩ hb
      | error e => exact ⟨a, ha, e, hfa⟩
    obtain ⟨a, ha, e, hfa⟩ := hex
    have key : ∃ e', r = .error (.func e') ∧ ∃ a ∈ args, f a = .error e' := by
      have hser : ∃ e', serial f args = .error e' ∧ ∃ a ∈ args, f a = .error e' := by
        obtain ⟨e', he'⟩ := serial_fails f args a ha e hfa
        exact ⟨e', he', serial_error f args e' he'⟩
      unfold map at h
      cases threads with
      | true =>
        simp only [if_true] at h
        rw [if_neg (by omega)] at h
        split at h
        · cases h
        · rename_i d hd
          rw [threadRes_eq f args _ evs d hd] at h
          obtain ⟨e', h1, h2⟩ := hser
          rw [h1] at h
          exact ⟨e', by simpa [lift] using h.symm, h2⟩
      | false =>
        simp only [Bool.false_eq_true, if_false] at h
        by_cases h1 : (n = 1 && !force) = true
        · rw [if_pos h1] at h
          obtain ⟨e', h1, h2⟩ := hser
          rw [h1] at h
          exact ⟨e', by simpa [lift] using h.symm, h2⟩
        · rw [if_neg h1, if_neg (by omega)] at h
          split at h
          · cases h
          · rename_i d hd
            obtain ⟨e', h1, h2⟩ := poolRes_error f args _ _ evs d hd a ha e hfa
            rw [h1] at h
            exact ⟨e', by simpa [lift] using h.symm, h2⟩
    obtain ⟨e', rfl, a', ha', hfa'⟩ := key
    refine ⟨⟨fun _ => ⟨_, rfl⟩, fun _ => ⟨a, ha, e, hfa⟩⟩, fun x hx => ?_⟩
    cases hx
    exact ⟨a', ha', e', hfa', rfl⟩

/-- C169: each call has a schedule, and so a result -/
theorem C169_some (n m : Nat) (hn : 1 ≤ n) : ∃ evs d, order n m evs = some d := by
  have key : ∀ k (s : St), 2 * s.queue.length + s.busy.length = k → ∃ evs d, run n s evs = some ⟨[], [], d⟩ := by
    intro k
    induction k with
    | zero =>
      intro s hs
      obtain ⟨q, b, d⟩ := s
      simp only at hs
      have hq : q = [] := List.length_eq_zero_iff.mp (by omega)
      have hb : b = [] := List.length_eq_zero_iff.mp (by omega)
      subst hq; subst hb
      exact ⟨[], d, rfl⟩
    | succ k ih =>
      intro s hs
      have : ∃ e s', step n s e = some s' := by
        obtain ⟨q, b, d⟩ := s
        cases b with
        | cons c b => exact ⟨.finish 0, _, rfl⟩
        | nil =>
          cases q with
          | cons a q => exact ⟨.take, ⟨q, [a], d⟩, by simp [step]; omega⟩
          | nil => simp at hs
      obtain ⟨e, s', he⟩ := this
      obtain ⟨evs, d, h⟩ := ih s' (by have := (step_perm he).2; omega)
      exact ⟨e :: evs, d, by rw [run, he]; exact h⟩
  obtain ⟨evs, d, h⟩ := key _ (init m) rfl
  exact ⟨evs, d, by unfold order; rw [h]⟩

/-- and when the workers are done there is one, for threads, -/
theorem C169_threads_result (n : Int) (hn : 1 ≤ n) (pool : Option Nat) (force : Bool) (f : α → Except E β) (args : List α) (evs : List Event) (d : List Nat)
    (h : run n.toNat (init args.length) evs = some ⟨[], [], d⟩) : ∃ r, map true pool force n f args evs = some r := by
  have ho : order n.toNat args.length evs = some d := by unfold order; rw [h]
  unfold map
  rw [if_pos rfl, if_neg (by omega), ho]
  simp only
  rw [threadRes_eq f args _ evs d ho]
  exact ⟨_, rfl⟩

/-- and for processes -/
theorem C169_procs_result (n : Int) (hn : 2 ≤ n) (force : Bool) (f : α → Except E β) (args : List α) (evs : List Event) (d : List Nat)
    (h : run n.toNat (init (nrChunks (chunkSize n.toNat args.length) args.length)) evs = some ⟨[], [], d⟩) : ∃ r, map false none force n f args evs = some r := by
  have ho : order n.toNat (nrChunks (chunkSize n.toNat args.length) args.length) evs = some d := by unfold order; rw [h]
  unfold map
  rw [if_neg (by simp)]
  simp only
  rw [if_neg (by simp; omega), if_neg (by omega), ho]
  simp only
  cases hs : serial f args with
  | ok bs => rw [poolRes_ok f args _ _ evs d ho bs hs]; exact ⟨_, rfl⟩
  | error e =>
    obtain ⟨a, ha, hfa⟩ := serial_error f args e hs
    obtain ⟨e', h1, -⟩ := poolRes_error f args _ _ evs d ho a ha e hfa
    rw [h1]; exact ⟨_, rfl⟩

/-- C169: without workers it is a ValueError -/
theorem C169_workers (threads force : Bool) (n : Int) (hn : n ≤ 0) (f : α → Except E β) (args : List α) (evs : List Event) :
    map threads none force n f args evs = some (.error .value) := by
  unfold map
  cases threads with
  | true => rw [if_pos rfl, if_pos hn]
  | false =>
    rw [if_neg (by simp)]
    simp only
    rw [if_neg (by simp; omega), if_pos hn]

/-- C169 fails if a pool is given: all work is done, and then there is a ValueError. -/
theorem C169_pool_violated (force : Bool) (p : Nat) (n : Int) (f : α → Except E β) (args : List α) (evs : List Event) (r : Except (Exc E) (List β))
    (h : map false (some p) force n f args evs = some r) (hf : ∀ a ∈ args, ∃ b, f a = .ok b) : r = .error .value := by
  unfold map at h
  simp only [Bool.false_eq_true, if_false] at h
  split at h
  · cases h
  · rename_i d hd
    obtain ⟨bs, hbs⟩ : ∃ bs, serial f args = .ok bs := by
      cases hs : serial f args with
      | ok bs => exact ⟨bs, rfl⟩
      | error e =>
        obtain ⟨a, ha, hfa⟩ := serial_error f args e hs
        obtain ⟨b, hb⟩ := hf a ha
        rw [hb] at hfa; cases hfa
    rw [poolRes_ok f args _ _ evs d hd bs hbs] at h
    simpa using h.symm

/-- C169 fails with processes if the function fails for more than one argument: which exception is raised depends on the schedule. -/
theorem C169_exception_violated : ∃ (f : Nat → Except Nat Nat) (args : List Nat) (evs evs' : List Event),
    map false none false 2 f args evs = some (.error (.func 0)) ∧ map false none false 2 f args evs' = some (.error (.func 1)) ∧ Loop f args (.error 0) := by
  exact ⟨fun a => .error a, [0, 1], [.take, .take, .finish 1, .finish 0], [.take, .take, .finish 0, .finish 0], rfl, rfl, .here rfl⟩

/-- C169: the number of processes can be given as text, `all` and `auto` are all there are; None is a TypeError -/
theorem C169_procs (cpus : Nat) (clean : String → String) (parse : String → Option Int) :
    (∀ i, sanitize (E := E) cpus clean parse (.int i) = .ok i) ∧ (∀ s, clean s = "all" ∨ clean s = "auto" → sanitize (E := E) cpus clean parse (.text s) = .ok ↑cpus) ∧
    (∀ s i, clean s ≠ "all" → clean s ≠ "auto" → parse (clean s) = some i → sanitize (E := E) cpus clean parse (.text s) = .ok i) ∧
    (∀ s, clean s ≠ "all" → clean s ≠ "auto" → parse (clean s) = none → sanitize (E := E) cpus clean parse (.text s) = .error .value) ∧
    sanitize (E := E) cpus clean parse .none = .error .type := by
  refine ⟨fun i => rfl, fun s h => ?_, fun s i h1 h2 h => ?_, fun s h1 h2 h => ?_, rfl⟩
  · rcases h with h | h <;> simp [sanitize, h]
  · simp [sanitize, h1, h2, h]
  · simp [sanitize, h1, h2, h]

/-- the hypotheses can be met: 3 workers, 13 arguments, so 7 parts of 2 arguments; parts are finished out of order -/
example : map false none false 3 (fun a : Nat => (.ok (a * a) : Except Nat Nat)) (List.range 13)
    [.take, .take, .take, .finish 0, .take, .finish 2, .take, .finish 0, .finish 0, .take, .take, .finish 1, .finish 1, .finish 0] =
    some (.ok [0, 1, 4, 9, 16, 25, 36, 49, 64, 81, 100, 121, 144]) := by rfl

example : map true none false 2 (fun a : Nat => (if a = 2 then .error 7 else .ok (a * a) : Except Nat Nat)) (List.range 3)
    [.take, .take, .finish 0, .take, .finish 0, .finish 0] = some (.error (.func 7)) := by rfl

end Viscid.Props
