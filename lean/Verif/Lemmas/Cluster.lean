import Verif.Model.Cluster
import Verif.Spec.Cluster
import Mathlib.Tactic.Linarith
import Mathlib.Tactic.IntervalCases
import Mathlib.Data.List.Induction
import Mathlib.Data.List.Pairwise
/-!
# Lemmas about clustering
-/
namespace Viscid.Cluster
open Viscid.Spec.Cluster

/-! ### Distances -/

theorem foldl_min_le (qs : List (Int × Int)) (p : Int × Int) (m : Int) :
    qs.foldl (fun m q => min m (distSq q p)) m ≤ m ∧
    (∀ q ∈ qs, qs.foldl (fun m q => min m (distSq q p)) m ≤ distSq q p) ∧
    (qs.foldl (fun m q => min m (distSq q p)) m = m ∨
      ∃ q ∈ qs, qs.foldl (fun m q => min m (distSq q p)) m = distSq q p) := by
  induction qs generalizing m with
  | nil => simp
  | cons q qs ih =>
    rw [List.foldl_cons]
    obtain ⟨h1, h2, h3⟩ := ih (min m (distSq q p))
    refine ⟨by omega, ?_, ?_⟩
    · intro r hr
      rcases List.mem_cons.mp hr with rfl | hr
      · omega
      · exact h2 r hr
    · rcases h3 with h3 | ⟨r, hr, h3⟩
      · by_cases hm : m ≤ distSq q p
        · left; omega
        · right; exact ⟨q, List.mem_cons_self, by omega⟩
      · right; exact ⟨r, List.mem_cons_of_mem _ hr, h3⟩

theorem minDist_spec (cl : List (Int × Int)) (hne : cl ≠ []) (p : Int × Int) :
    (∀ q ∈ cl, minDist cl p ≤ distSq q p) ∧ ∃ q ∈ cl, minDist cl p = distSq q p := by
  cases cl with
  | nil => exact absurd rfl hne
  | cons q qs =>
    obtain ⟨h1, h2, h3⟩ := foldl_min_le qs p (distSq q p)
    unfold minDist
    refine ⟨?_, ?_⟩
    · intro r hr
      rcases List.mem_cons.mp hr with rfl | hr
      · exact h1
      · exact h2 r hr
    · rcases h3 with h3 | ⟨r, hr, h3⟩
      · exact ⟨q, List.mem_cons_self, h3⟩
      · exact ⟨r, List.mem_cons_of_mem _ hr, h3⟩

theorem near_mono (d : Bool) {a b : Int} (h : a ≤ b) (hb : near d b = true) : near d a = true := by
  unfold near at *
  cases d <;> simp at * <;> omega

theorem near_minDist (d : Bool) (cl : List (Int × Int)) (hne : cl ≠ []) (p : Int × Int) :
    near d (minDist cl p) = true ↔ ∃ q ∈ cl, near d (distSq q p) = true := by
  obtain ⟨h1, q, hq, h2⟩ := minDist_spec cl hne p
  constructor
  · intro h; exact ⟨q, hq, h2 ▸ h⟩
  · rintro ⟨r, hr, h⟩; exact near_mono d (h1 r hr) h

theorem sq_small (a : Int) (h : a * a ≤ 2) : -1 ≤ a ∧ a ≤ 1 := by
  constructor <;> nlinarith

theorem near_adjacent (d : Bool) (p q : Nat × Nat) :
    near d (distSq ((q.1 : Int), (q.2 : Int)) ((p.1 : Int), (p.2 : Int))) = true ↔ Adjacent d p q := by
  have key : ∀ a b : Int, near d (a * a + b * b) = true ↔ (-1 ≤ a ∧ a ≤ 1 ∧ -1 ≤ b ∧ b ≤ 1 ∧ (d = true ∨ a = 0 ∨ b = 0)) := by
    intro a b
    constructor
    · intro h
      have ha := mul_self_nonneg a
      have hb := mul_self_nonneg b
      have hs : a * a + b * b ≤ 2 := by
        unfold near at h; cases d <;> simp at h <;> omega
      obtain ⟨a1, a2⟩ := sq_small a (by omega)
      obtain ⟨b1, b2⟩ := sq_small b (by omega)
      refine ⟨a1, a2, b1, b2, ?_⟩
      unfold near at h
      cases d with
      | true => left; rfl
      | false =>
        right
        simp at h
        have : a = -1 ∨ a = 0 ∨ a = 1 := by omega
        have : b = -1 ∨ b = 0 ∨ b = 1 := by omega
        rcases ‹a = -1 ∨ a = 0 ∨ a = 1› with rfl | rfl | rfl <;> rcases ‹b = -1 ∨ b = 0 ∨ b = 1› with rfl | rfl | rfl <;> simp at h ⊢
    · rintro ⟨a1, a2, b1, b2, h⟩
      have : a = -1 ∨ a = 0 ∨ a = 1 := by omega
      have : b = -1 ∨ b = 0 ∨ b = 1 := by omega
      unfold near
      rcases ‹a = -1 ∨ a = 0 ∨ a = 1› with rfl | rfl | rfl <;> rcases ‹b = -1 ∨ b = 0 ∨ b = 1› with rfl | rfl | rfl <;>
        cases d <;> simp at h ⊢
  unfold distSq
  rw [key]
  unfold Adjacent
  constructor
  · rintro ⟨a1, a2, b1, b2, h⟩
    refine ⟨by omega, by omega, by omega, by omega, ?_⟩
    rcases h with h | h | h
    · left; exact h
    · right; left; omega
    · right; right; omega
  · rintro ⟨a1, a2, b1, b2, h⟩
    refine ⟨by omega, by omega, by omega, by omega, ?_⟩
    rcases h with h | h | h
    · left; exact h
    · right; left; omega
    · right; right; omega

/-! ### The loop -/

theorem fz_nil (t : List Entry → Bool) (i : Nat) (cs : List (List Entry)) (h : flatnonzero t i cs = []) :
    ∀ c ∈ cs, t c = false := by
  induction cs generalizing i with
  | nil => simp
  | cons c cs ih =>
    unfold flatnonzero at h
    by_cases hc : t c = true
    · rw [if_pos hc] at h; cases h
    · rw [if_neg hc] at h
      intro d hd
      rcases List.mem_cons.mp hd with rfl | hd
      · simpa using hc
      · exact ih (i + 1) h d hd

theorem fz_single (t : List Entry → Bool) (i k : Nat) (cs : List (List Entry)) (h : flatnonzero t i cs = [k]) :
    ∃ pre c post, cs = pre ++ c :: post ∧ k = i + pre.length ∧ t c = true ∧ (∀ d ∈ pre, t d = false) ∧
      ∀ d ∈ post, t d = false := by
  induction cs generalizing i with
  | nil => cases h
  | cons c cs ih =>
    unfold flatnonzero at h
    by_cases hc : t c = true
    · rw [if_pos hc] at h
      obtain ⟨h1, h2⟩ := List.cons.inj h
      exact ⟨[], c, cs, rfl, by simp [h1], hc, by simp, fz_nil t _ cs h2⟩
    · rw [if_neg hc] at h
      obtain ⟨pre, d, post, e1, e2, e3, e4, e5⟩ := ih (i + 1) h
      refine ⟨c :: pre, d, post, by rw [e1]; rfl, by rw [e2, List.length_cons]; omega, e3, ?_, e5⟩
      intro f hf
      rcases List.mem_cons.mp hf with rfl | hf
      · simpa using hc
      · exact e4 f hf

theorem fz_append (t : List Entry → Bool) (i : Nat) (cs ds : List (List Entry)) :
    flatnonzero t i (cs ++ ds) = flatnonzero t i cs ++ flatnonzero t (i + cs.length) ds := by
  induction cs generalizing i with
  | nil => simp [flatnonzero]
  | cons c cs ih =>
    rw [List.cons_append, show flatnonzero t i (c :: (cs ++ ds)) =
        if t c then i :: flatnonzero t (i + 1) (cs ++ ds) else flatnonzero t (i + 1) (cs ++ ds) from rfl,
      show flatnonzero t i (c :: cs) = if t c then i :: flatnonzero t (i + 1) cs else flatnonzero t (i + 1) cs from rfl,
      ih (i + 1), List.length_cons, show i + 1 + cs.length = i + (cs.length + 1) by omega]
    split
    · rfl
    · rfl

/-- The merging loop takes out exactly the touching clusters and collects their (shifted) entries. -/
theorem merge_eq (D : Domain) (e : Entry) (t : List Entry → Bool) (cs : List (List Entry)) :
    ∀ rest new, ∃ got, (flatnonzero t 0 cs).reverse.foldl (mergeTurn D e) (cs ++ rest, new) =
      (cs.filter (fun c => !t c) ++ rest, new ++ got) ∧
      got.Perm ((cs.filter t).flatMap fun c => c.map (shift D (-(toCluster D e c).2.1, -(toCluster D e c).2.2))) := by
  induction cs using List.reverseRecOn with
  | nil => intro rest new; exact ⟨[], by simp [flatnonzero], by simp⟩
  | append_singleton cs c ih =>
    intro rest new
    rw [fz_append]
    by_cases hc : t c = true
    · have hf : flatnonzero t (0 + cs.length) [c] = [cs.length] := by
        unfold flatnonzero; rw [if_pos hc]; simp [flatnonzero]
      rw [hf, List.reverse_append, List.reverse_singleton, List.singleton_append, List.foldl_cons]
      have hm : mergeTurn D e (cs ++ [c] ++ rest, new) cs.length =
          (cs ++ rest, new ++ c.map (shift D (-(toCluster D e c).2.1, -(toCluster D e c).2.2))) := by
        unfold mergeTurn
        have hg : (cs ++ [c] ++ rest)[cs.length]? = some c := by simp
        rw [hg]
        dsimp only
        congr 1
        rw [List.append_assoc, List.eraseIdx_append_of_length_le (by omega)]
        simp
      rw [hm]
      obtain ⟨got, e1, e2⟩ := ih rest (new ++ c.map (shift D (-(toCluster D e c).2.1, -(toCluster D e c).2.2)))
      refine ⟨c.map (shift D (-(toCluster D e c).2.1, -(toCluster D e c).2.2)) ++ got, ?_, ?_⟩
      · rw [e1, List.filter_append]
        simp [hc]
      · rw [List.filter_append, List.flatMap_append]
        simp only [List.filter_cons, hc, if_true, List.filter_nil, List.flatMap_cons, List.flatMap_nil, List.append_nil]
        exact (List.perm_append_comm).trans (List.Perm.append_right _ e2)
    · have hf : flatnonzero t (0 + cs.length) [c] = [] := by
        unfold flatnonzero; rw [if_neg hc]; rfl
      rw [hf, List.append_nil, List.append_assoc]
      obtain ⟨got, e1, e2⟩ := ih ([c] ++ rest) new
      refine ⟨got, ?_, ?_⟩
      · rw [e1, List.filter_append]
        simp [hc]
      · rw [List.filter_append]
        simpa [hc] using e2

/-- Whether a cluster is touched by an entry. -/
def touches (D : Domain) (e : Entry) (c : List Entry) : Bool := near D.diagonals (toCluster D e c).1

theorem filter_mid (t : List Entry → Bool) (pre post : List (List Entry)) (c : List Entry) (hc : t c = true)
    (h1 : ∀ d ∈ pre, t d = false) (h2 : ∀ d ∈ post, t d = false) :
    (pre ++ c :: post).filter t = [c] ∧ (pre ++ c :: post).filter (fun d => !t d) = pre ++ post := by
  have a1 : pre.filter t = [] := List.filter_eq_nil_iff.mpr (fun d hd => by simp [h1 d hd])
  have a2 : post.filter t = [] := List.filter_eq_nil_iff.mpr (fun d hd => by simp [h2 d hd])
  have b1 : pre.filter (fun d => !t d) = pre := List.filter_eq_self.mpr (fun d hd => by simp [h1 d hd])
  have b2 : post.filter (fun d => !t d) = post := List.filter_eq_self.mpr (fun d hd => by simp [h2 d hd])
  constructor
  · rw [List.filter_append, List.filter_cons, if_pos hc, a1, a2]; rfl
  · rw [List.filter_append, List.filter_cons, if_neg (by simp [hc]), b1, b2]

theorem modify_mid {α : Type} (f : α → α) (pre : List α) (c : α) (post : List α) :
    (pre ++ c :: post).modify pre.length f = pre ++ f c :: post := by
  induction pre with
  | nil => simp
  | cons a as ih => simp [ih]

/-- The domain of non-periodic axes. -/
def flat (d : Bool) : Domain := ⟨(0, 0), (0, 0), [], d⟩

theorem shift_flat (d : Bool) (w : Int × Int) (e : Entry) : shift (flat d) w e = e := by
  obtain ⟨n, ⟨a, b⟩, ⟨p, q⟩⟩ := e
  simp [shift, flat]

/-- Without periodic axes, adding a point merges it with the clusters it touches and keeps the others. -/
theorem addPoint_flat (d : Bool) (cls : List (List Entry)) (e : Entry) :
    ∃ g, (addPoint (flat d) cls e).Perm (g :: cls.filter (fun c => !touches (flat d) e c)) ∧
      g.Perm (e :: (cls.filter (touches (flat d) e)).flatten) := by
  have hshift : ∀ w, shift (flat d) w = id := fun w => funext fun e => shift_flat d w e
  unfold addPoint
  dsimp only
  rw [show (fun c => near (flat d).diagonals (toCluster (flat d) e c).1) = touches (flat d) e from rfl]
  generalize hk : flatnonzero (touches (flat d) e) 0 cls = ks
  match ks, hk with
  | [], hk =>
    have h := fz_nil _ _ _ hk
    refine ⟨[e], ?_, ?_⟩
    · rw [List.filter_eq_self.mpr (fun c hc => by simp [h c hc])]
      exact List.perm_append_comm
    · rw [List.filter_eq_nil_iff.mpr (fun c hc => by simp [h c hc])]
      simp
  | [k], hk =>
    obtain ⟨pre, c, post, e1, e2, e3, e4, e5⟩ := fz_single _ _ _ _ hk
    obtain ⟨f1, f2⟩ := filter_mid _ pre post c e3 e4 e5
    refine ⟨c ++ [e], ?_, ?_⟩
    · dsimp only
      rw [e1, f2, e2, Nat.zero_add]
      have : (pre ++ c :: post).modify pre.length (fun c => c ++ [shift (flat d) (toCluster (flat d) e c).2 e]) =
          pre ++ (c ++ [e]) :: post := by
        rw [modify_mid, shift_flat]
      rw [this]
      exact List.perm_middle
    · rw [e1, f1]
      simp
  | k1 :: k2 :: ks, hk =>
    dsimp only
    rw [← hk]
    obtain ⟨got, g1, g2⟩ := merge_eq (flat d) e (touches (flat d) e) cls [] [e]
    rw [List.append_nil, List.append_nil] at g1
    rw [g1]
    refine ⟨[e] ++ got, List.perm_append_comm, ?_⟩
    rw [List.singleton_append]
    refine List.Perm.cons _ (g2.trans ?_)
    simp only [hshift, List.map_id]
    rw [List.flatMap_id']

/-- Two entries next to each other. -/
def Next (d : Bool) (e f : Entry) : Prop := near d (distSq f.ind e.ind) = true

theorem Next.symm {d : Bool} {e f : Entry} (h : Next d e f) : Next d f e := by
  unfold Next at *
  have : distSq e.ind f.ind = distSq f.ind e.ind := by unfold distSq; ring
  rwa [this]

theorem touches_flat (d : Bool) (e : Entry) (c : List Entry) (hc : c ≠ []) :
    touches (flat d) e c = true ↔ ∃ f ∈ c, Next d e f := by
  unfold touches toCluster clusterDist
  show near d (minDist (c.map (·.ind)) e.ind) = true ↔ _
  rw [near_minDist d _ (by simpa using hc)]
  constructor
  · rintro ⟨q, hq, h⟩
    obtain ⟨f, hf, rfl⟩ := List.mem_map.mp hq
    exact ⟨f, hf, h⟩
  · rintro ⟨f, hf, h⟩
    exact ⟨f.ind, List.mem_map_of_mem hf, h⟩

/-- Paths of entries of the list S. -/
def Path (d : Bool) (S : List Entry) : Entry → Entry → Prop :=
  Relation.ReflTransGen fun e f => e ∈ S ∧ f ∈ S ∧ Next d e f

theorem Path.symm {d : Bool} {S : List Entry} {e f : Entry} (h : Path d S e f) : Path d S f e :=
  haveI : Std.Symm (fun e f => e ∈ S ∧ f ∈ S ∧ Next d e f) := ⟨fun _ _ h => ⟨h.2.1, h.1, h.2.2.symm⟩⟩
  (Relation.ReflTransGen.stdSymm).symm _ _ h

/-- The loop invariant. -/
structure Inv (d : Bool) (S done : List Entry) (cls : List (List Entry)) : Prop where
  perm : cls.flatten.Perm done
  ne : ∀ c ∈ cls, c ≠ []
  conn : ∀ c ∈ cls, ∀ e ∈ c, ∀ f ∈ c, Path d S e f
  apart : cls.Pairwise fun c c' => ∀ e ∈ c, ∀ f ∈ c', ¬ Next d e f

theorem apart_symm (d : Bool) : ∀ {c c' : List Entry}, (∀ e ∈ c, ∀ f ∈ c', ¬ Next d e f) → (∀ e ∈ c', ∀ f ∈ c, ¬ Next d e f) :=
  fun h e he f hf hn => h f hf e he hn.symm

theorem Inv.of_perm {d : Bool} {S done : List Entry} {a b : List (List Entry)} (h : Inv d S done a) (hp : a.Perm b) :
    Inv d S done b where
  perm := (hp.flatten.symm).trans h.perm
  ne c hc := h.ne c (hp.mem_iff.mpr hc)
  conn c hc := h.conn c (hp.mem_iff.mpr hc)
  apart := (hp.pairwise_iff (fun {_ _} h => apart_symm d h)).mp h.apart

theorem inv_step (d : Bool) (S done : List Entry) (cls : List (List Entry)) (e : Entry) (h : Inv d S done cls)
    (hS : ∀ f ∈ done, f ∈ S) (he : e ∈ S) : Inv d S (done ++ [e]) (addPoint (flat d) cls e) := by
  obtain ⟨g, p1, p2⟩ := addPoint_flat d cls e
  refine Inv.of_perm ?_ p1.symm
  have hin : ∀ c ∈ cls, ∀ f ∈ c, f ∈ S := fun c hc f hf =>
    hS f (h.perm.mem_iff.mp (List.mem_flatten.mpr ⟨c, hc, hf⟩))
  have gmem : ∀ f, f ∈ g ↔ f = e ∨ ∃ c ∈ cls, touches (flat d) e c = true ∧ f ∈ c := by
    intro f
    rw [p2.mem_iff, List.mem_cons, List.mem_flatten]
    constructor
    · rintro (h | ⟨c, hc, hf⟩)
      · left; exact h
      · right; exact ⟨c, (List.mem_filter.mp hc).1, (List.mem_filter.mp hc).2, hf⟩
    · rintro (h | ⟨c, hc, ht, hf⟩)
      · left; exact h
      · right; exact ⟨c, List.mem_filter.mpr ⟨hc, ht⟩, hf⟩
  have toe : ∀ f ∈ g, Path d S e f := by
    intro f hf
    rcases (gmem f).mp hf with rfl | ⟨c, hc, ht, hfc⟩
    · exact Relation.ReflTransGen.refl
    · obtain ⟨u, hu, hn⟩ := (touches_flat d e c (h.ne c hc)).mp ht
      exact Relation.ReflTransGen.head ⟨he, hin c hc u hu, hn⟩ (h.conn c hc u hu f hfc)
  refine ⟨?_, ?_, ?_, ?_⟩
  · rw [List.flatten_cons]
    refine (List.Perm.append_right _ p2).trans ?_
    rw [List.cons_append]
    refine (List.Perm.trans (List.Perm.cons e ?_) (List.perm_append_comm (l₁ := [e]) (l₂ := done)))
    rw [← List.flatten_append]
    exact ((List.filter_append_perm (touches (flat d) e) cls).flatten).trans h.perm
  · intro c hc
    rcases List.mem_cons.mp hc with rfl | hc
    · intro h0
      have := (gmem e).mpr (Or.inl rfl)
      rw [h0] at this; cases this
    · exact h.ne c (List.mem_filter.mp hc).1
  · intro c hc u hu v hv
    rcases List.mem_cons.mp hc with rfl | hc
    · exact (toe u hu).symm.trans (toe v hv)
    · exact h.conn c (List.mem_filter.mp hc).1 u hu v hv
  · rw [List.pairwise_cons]
    refine ⟨?_, h.apart.filter _⟩
    intro c' hc' u hu v hv hn
    obtain ⟨hc1, hc2⟩ := List.mem_filter.mp hc'
    rcases (gmem u).mp hu with rfl | ⟨c, hc, ht, huc⟩
    · have := (touches_flat d u c' (h.ne c' hc1)).mpr ⟨v, hv, hn⟩
      simp [this] at hc2
    · have hcc : c ≠ c' := by
        rintro rfl
        simp [ht] at hc2
      have : Std.Symm (fun c c' : List Entry => ∀ e ∈ c, ∀ f ∈ c', ¬ Next d e f) := ⟨fun _ _ h => apart_symm d h⟩
      exact h.apart.forall hc hc1 hcc u huc v hv hn

theorem inv_run (d : Bool) (S : List Entry) : ∀ (todo done : List Entry) (cls : List (List Entry)),
    Inv d S done cls → (∀ f ∈ done, f ∈ S) → (∀ f ∈ todo, f ∈ S) → Inv d S (done ++ todo) (todo.foldl (addPoint (flat d)) cls) := by
  intro todo
  induction todo with
  | nil => intro done cls h _ _; rw [List.append_nil]; exact h
  | cons e es ih =>
    intro done cls h hd ht
    have := ih (done ++ [e]) _ (inv_step d S done cls e h hd (ht e List.mem_cons_self))
      (by
        intro f hf
        rcases List.mem_append.mp hf with hf | hf
        · exact hd f hf
        · exact List.mem_singleton.mp hf ▸ ht e List.mem_cons_self)
      (fun f hf => ht f (List.mem_cons_of_mem _ hf))
    rw [List.append_assoc, List.singleton_append] at this
    exact this

end Viscid.Cluster
