import Verif.Model.Cotr
import Verif.Lemmas.Rotation
import Mathlib.LinearAlgebra.Matrix.NonsingularInverse
/-! # The caches of `Cotr` never change a result -/
namespace Viscid.Cotr
open Matrix Viscid.Rotation Viscid.Spec.Rotation

noncomputable section

/-! ## Values without caches -/

def lonP (p : Params) : ℝ := arctan2 p.coefs.2.2 p.coefs.2.1 + Real.pi
def latP (p : Params) : ℝ :=
  Real.pi / 2 - Real.arcsin
    ((p.coefs.2.1 * Real.cos (lonP p) + p.coefs.2.2 * Real.sin (lonP p)) / p.coefs.1)
def qgP (p : Params) : V3 :=
  ![Real.cos (latP p) * Real.cos (lonP p), Real.cos (latP p) * Real.sin (lonP p), Real.sin (latP p)]
def sunP (p : Params) : ℝ :=
  (280.460 + 36000.772 * p.t0 + 0.04107 * p.ut)
    + (1.915 - 0.0048 * p.t0) * Real.sin (deg2rad (357.528 + 35999.050 * p.t0 + 0.04107 * p.ut))
    + 0.020 * Real.sin (2 * deg2rad (357.528 + 35999.050 * p.t0 + 0.04107 * p.ut))

def B1 (p : Params) : M3 :=
  if p.notilt then 1 else makeRotation (100.461 + 36000.770 * p.t0 + 15.04107 * p.ut) .z
def B2 (p : Params) : M3 :=
  if p.notilt then 1 else makeRotation (sunP p) .z * makeRotation (23.439 - 0.013 * p.t0) .x
def B5 (p : Params) : M3 :=
  if p.notilt then 1 else makeRotation (rad2deg (latP p) - 90) .y * makeRotation (rad2deg (lonP p)) .z
def B6 : M3 := !![-1, 0, 0; 0, -1, 0; 0, 0, 1]

def qeP (p : Params) : V3 := (B2 p * (B1 p)ᵀ) *ᵥ qgP p
def gsmP (p : Params) : ℝ :=
  (p.fillAngle p.dipGsm).getD (rad2deg (arctan2 (qeP p 1) (qeP p 2)))
def tiltP (p : Params) : ℝ :=
  (p.fillAngle p.dipTilt).getD (rad2deg (arctan2 (qeP p 0) (√(qeP p 1 ^ 2 + qeP p 2 ^ 2))))
def B3 (p : Params) : M3 := makeRotation (-gsmP p) .x
def B4 (p : Params) : M3 := makeRotation (-tiltP p) .y

/-- The matrix with a positive index. -/
def EN (p : Params) : Nat → M3
  | 1 => B1 p
  | 2 => B2 p
  | 3 => B3 p
  | 4 => B4 p
  | 5 => B5 p
  | 6 => B6
  | _ => 1

def EP (p : Params) (i : Int) : M3 := if i < 0 then (EN p i.natAbs)ᵀ else EN p i.natAbs

/-- From gei to the system. -/
def F (p : Params) : Sys → M3
  | .geo => B1 p
  | .gse => B2 p
  | .gsm => B3 p * B2 p
  | .sm => B4 p * (B3 p * B2 p)
  | .mag => B5 p * B1 p
  | .mhd => B6 * B2 p
  | _ => 1

/-- mag coordinates have no meaning for this object -/
def noMag (p : Params) : Bool := p.disabled && !p.notilt

def ematR (p : Params) (i : Int) : Except Err M3 :=
  if i.natAbs = 5 ∧ noMag p = true then .error .runtimeError
  else if i.natAbs ≤ 6 then .ok (EP p i)
  else if i.natAbs = 11 ∨ i.natAbs = 12 then .error .notImplemented
  else .error .valueError

def prodR (p : Params) (m : M3) : List Int → Except Err M3
  | [] => .ok m
  | i :: rest => match ematR p i with
    | .ok e => prodR p (m * e) rest
    | .error e => .error e

/-- systems for which the pair does not need the missing mag matrix -/
def magBlocked (p : Params) (a b : Sys) : Bool :=
  noMag p && (decide (a = .mag) != decide (b = .mag))

structure Inv (p : Params) (σ : St) : Prop where
  emat : ∀ i M, σ.emat i = some M → i.natAbs ≤ 6 ∧ (i.natAbs = 5 → noMag p = false) ∧ M = EP p i
  nt : p.notilt = true → ∀ i : Int, (i.natAbs = 1 ∨ i.natAbs = 2 ∨ i.natAbs = 5) → σ.emat i = some 1
  xform : ∀ a b M, σ.xform (a, b) = some M →
    (a ∈ geocentric ∧ b ∈ geocentric) ∧ magBlocked p a b = false ∧ M = F p b * (F p a)ᵀ
  sun : ∀ v, σ.sun = some v → v = sunP p
  geolon : ∀ v, σ.geolon = some v → v = lonP p
  geolat : ∀ v, σ.geolat = some v → v = latP p
  qg : ∀ v, σ.qg = some v → v = qgP p
  qe : ∀ v, σ.qe = some v → v = qeP p
  tilt : ∀ v, σ.tilt = some v → v = tiltP p
  gsm : ∀ v, σ.gsm = some v → v = gsmP p
  tilt0 : ∀ v, p.fillAngle p.dipTilt = some v → σ.tilt = some v
  gsm0 : ∀ v, p.fillAngle p.dipGsm = some v → σ.gsm = some v

/-- Whatever was computed before, the call has the result `r`, and it leaves the caches right. -/
def Tri {α : Type} (p : Params) (act : Act α) (r : Except Err α) : Prop :=
  ∀ σ, Inv p σ → (act σ).1 = r ∧ Inv p (act σ).2

theorem Tri.pure {α : Type} {p : Params} (a : α) : Tri p (Pure.pure a : Act α) (.ok a) :=
  fun _ h => ⟨rfl, h⟩

theorem Tri.raise {α : Type} {p : Params} (e : Err) : Tri p (raise e : Act α) (.error e) :=
  fun _ h => ⟨rfl, h⟩

theorem Tri.bind {α β : Type} {p : Params} {act : Act α} {f : α → Act β} {a : α} {r : Except Err β}
    (h1 : Tri p act (.ok a)) (h2 : Tri p (f a) r) : Tri p (act >>= f) r := by
  intro σ hσ
  have h := h1 σ hσ
  show (match act σ with
    | (.ok a, σ') => f a σ'
    | (.error e, σ') => (.error e, σ')).1 = r ∧ Inv p (match act σ with
    | (.ok a, σ') => f a σ'
    | (.error e, σ') => (.error e, σ')).2
  match hact : act σ with
  | (.ok b, σ') =>
    rw [hact] at h
    have hb : b = a := by simpa using h.1
    subst hb
    exact h2 σ' h.2
  | (.error e, σ') =>
    rw [hact] at h
    exact absurd h.1 (by simp)

theorem Tri.bind_err {α β : Type} {p : Params} {act : Act α} {f : α → Act β} {e : Err}
    (h1 : Tri p act (.error e)) : Tri p (act >>= f) (.error e) := by
  intro σ hσ
  have h := h1 σ hσ
  show (match act σ with
    | (.ok a, σ') => f a σ'
    | (.error e, σ') => (.error e, σ')).1 = _ ∧ Inv p (match act σ with
    | (.ok a, σ') => f a σ'
    | (.error e, σ') => (.error e, σ')).2
  match hact : act σ with
  | (.ok b, σ') => rw [hact] at h; exact absurd h.1 (by simp)
  | (.error e', σ') =>
    rw [hact] at h
    have : e' = e := by simpa using h.1
    subst this
    exact ⟨rfl, h.2⟩

theorem tri_memo' {α : Type} {p : Params} {get : St → Option α} {set : St → α → St} {act : Act α} {v w₀ : α}
    (hget : ∀ σ, Inv p σ → ∀ w, get σ = some w → w = v)
    (hset : ∀ σ, Inv p σ → get (set σ w₀) = some v ∧ Inv p (set σ w₀))
    (hact : Tri p act (.ok w₀)) : Tri p (memo get set act) (.ok v) := by
  intro σ hσ
  unfold memo
  match hg : get σ with
  | some w => rw [hget σ hσ w hg]; exact ⟨rfl, hσ⟩
  | none =>
    have h := hact σ hσ
    match ha : act σ with
    | (.ok b, σ') =>
      rw [ha] at h
      have hb : b = w₀ := by simpa using h.1
      subst hb
      have hs := hset σ' h.2
      simp only [hs.1]
      exact ⟨trivial, hs.2⟩
    | (.error e, σ') => rw [ha] at h; exact absurd h.1 (by simp)

theorem tri_memo {α : Type} {p : Params} {get : St → Option α} {set : St → α → St} {act : Act α} {v : α}
    (hget : ∀ σ, Inv p σ → ∀ w, get σ = some w → w = v)
    (hset : ∀ σ, Inv p σ → get (set σ v) = some v ∧ Inv p (set σ v))
    (hact : Tri p act (.ok v)) : Tri p (memo get set act) (.ok v) :=
  tri_memo' hget hset hact

theorem tri_hit {α : Type} {p : Params} {get : St → Option α} {set : St → α → St} {act : Act α} {v : α}
    (hget : ∀ σ, Inv p σ → get σ = some v) : Tri p (memo get set act) (.ok v) := by
  intro σ hσ
  unfold Cotr.memo
  rw [hget σ hσ]
  exact ⟨rfl, hσ⟩

theorem tri_err {α : Type} {p : Params} {get : St → Option α} {set : St → α → St} {act : Act α} {e : Err}
    (hget : ∀ σ, Inv p σ → get σ = none) (hact : Tri p act (.error e)) :
    Tri p (memo get set act) (.error e) := by
  intro σ hσ
  unfold Cotr.memo
  rw [hget σ hσ]
  have h := hact σ hσ
  match ha : act σ with
  | (.ok b, σ') => rw [ha] at h; exact absurd h.1 (by simp)
  | (.error e', σ') =>
    rw [ha] at h
    have : e' = e := by simpa using h.1
    subst this
    exact ⟨rfl, h.2⟩

/-! ## Matrices -/

theorem makeRotation_isRot (t : ℝ) (ax : Ax) : IsRot (makeRotation t ax) := by
  unfold makeRotation
  have h := Real.sin_sq_add_cos_sq (deg2rad t)
  dsimp only
  split
  · exact IsRot.one
  · cases ax <;> refine isRot_of_entries ?_ ?_ ?_ ?_ ?_ ?_ ?_ <;>
      simp [Matrix.det_fin_three] <;> grind

theorem B6_isRot : IsRot B6 := by
  unfold B6
  refine isRot_of_entries ?_ ?_ ?_ ?_ ?_ ?_ ?_ <;> simp [Matrix.det_fin_three]

theorem B1_isRot (p : Params) : IsRot (B1 p) := by
  unfold B1; split
  · exact IsRot.one
  · exact makeRotation_isRot _ _

theorem B2_isRot (p : Params) : IsRot (B2 p) := by
  unfold B2; split
  · exact IsRot.one
  · exact (makeRotation_isRot _ _).mul (makeRotation_isRot _ _)

theorem B5_isRot (p : Params) : IsRot (B5 p) := by
  unfold B5; split
  · exact IsRot.one
  · exact (makeRotation_isRot _ _).mul (makeRotation_isRot _ _)

theorem EN_isRot (p : Params) (k : Nat) : IsRot (EN p k) := by
  unfold EN
  split
  · exact B1_isRot p
  · exact B2_isRot p
  · exact makeRotation_isRot _ _
  · exact makeRotation_isRot _ _
  · exact B5_isRot p
  · exact B6_isRot
  · exact IsRot.one

theorem F_isRot (p : Params) (s : Sys) : IsRot (F p s) := by
  have h1 := B1_isRot p
  have h2 := B2_isRot p
  have h3 : IsRot (B3 p) := makeRotation_isRot _ _
  have h4 : IsRot (B4 p) := makeRotation_isRot _ _
  have h5 := B5_isRot p
  unfold F
  split
  · exact h1
  · exact h2
  · exact h3.mul h2
  · exact h4.mul (h3.mul h2)
  · exact h5.mul h1
  · exact B6_isRot.mul h2
  · exact IsRot.one

/-- The table, as words. -/
def theWord (a b : Sys) : List Int :=
  match lookup a b with
  | some (.word l) => l
  | some (.int _) => []
  | none => match lookup b a with
    | some (.word l) => l.reverse.map fun v => -v
    | some (.int _) => []
    | none => []

theorem cancelT {A : M3} (h : A * Aᵀ = 1) (X : M3) : A * (Aᵀ * X) = X := by
  rw [← Matrix.mul_assoc, h, Matrix.one_mul]

theorem cancelT' {A : M3} (h : A * Aᵀ = 1) (X : M3) : Aᵀ * (A * X) = X := by
  rw [← Matrix.mul_assoc, mul_eq_one_comm.1 h, Matrix.one_mul]

theorem B6_symm : B6ᵀ = B6 := by
  unfold B6; apply ext9 <;> simp

theorem prodR_word (p : Params) (a b : Sys) (ha : a ∈ geocentric) (hb : b ∈ geocentric) :
    prodR p 1 (theWord a b) =
      if magBlocked p a b then .error .runtimeError else .ok (F p b * (F p a)ᵀ) := by
  have h1 := (B1_isRot p).1
  have h2 := (B2_isRot p).1
  have h3 : B3 p * (B3 p)ᵀ = 1 := (makeRotation_isRot _ _).1
  have h4 : B4 p * (B4 p)ᵀ = 1 := (makeRotation_isRot _ _).1
  have h5 := (B5_isRot p).1
  have h6 := B6_isRot.1
  simp only [geocentric, List.mem_cons, List.not_mem_nil, or_false] at ha hb
  rcases ha with rfl | rfl | rfl | rfl | rfl | rfl | rfl <;>
  rcases hb with rfl | rfl | rfl | rfl | rfl | rfl | rfl <;>
  cases hm : noMag p <;>
  simp [theWord, lookup, prodR, ematR, EP, EN, F, magBlocked, hm, Matrix.transpose_mul, Matrix.mul_assoc,
    cancelT h1, cancelT h2, cancelT h3, h1, h2, h3, h4, h5, B6_symm] <;>
  (rw [B6_symm] at h6; simp [h6])

/-! ## The calls -/

theorem sunLon_tri (p : Params) : Tri p (sunLon p) (.ok (sunP p)) := by
  unfold sunLon
  refine tri_memo (fun σ h w hw => h.sun w hw) (fun σ h => ⟨rfl, ?_⟩) (Tri.pure _)
  exact { h with sun := fun v hv => by simpa using hv.symm }

theorem dipGeolon_tri (p : Params) : Tri p (dipGeolon p) (.ok (lonP p)) := by
  unfold dipGeolon
  refine tri_memo (fun σ h w hw => h.geolon w hw) (fun σ h => ⟨rfl, ?_⟩) (Tri.pure _)
  exact { h with geolon := fun v hv => by simpa using hv.symm }

theorem dipGeolat_tri (p : Params) : Tri p (dipGeolat p) (.ok (latP p)) := by
  unfold dipGeolat
  refine tri_memo (fun σ h w hw => h.geolat w hw) (fun σ h => ⟨rfl, ?_⟩)
    ((dipGeolon_tri p).bind (Tri.pure _))
  exact { h with geolat := fun v hv => by simpa using hv.symm }

theorem dipGeo_tri (p : Params) : Tri p (dipGeo p) (.ok (qgP p)) := by
  unfold dipGeo
  refine tri_memo (fun σ h w hw => h.qg w hw) (fun σ h => ⟨rfl, ?_⟩)
    ((dipGeolon_tri p).bind ((dipGeolat_tri p).bind (Tri.pure _)))
  exact { h with qg := fun v hv => by simpa using hv.symm }

theorem product_tri (p : Params) (em : Int → Act M3) (l : List Int)
    (hem : ∀ i ∈ l, Tri p (em i) (ematR p i)) (m : M3) : Tri p (product em m l) (prodR p m l) := by
  induction l generalizing m with
  | nil => exact Tri.pure m
  | cons i r ih =>
    have hi := hem i (by simp)
    unfold product prodR
    cases he : ematR p i with
    | ok e => rw [he] at hi; exact hi.bind (ih (fun j hj => hem j (by simp [hj])) _)
    | error e => rw [he] at hi; exact hi.bind_err

/-- What `get_transform_matrix` returns or raises. -/
def matR (p : Params) (a b : Sys) : Except Err M3 :=
  if a ∈ geocentric ∧ b ∈ geocentric then
    if magBlocked p a b then .error .runtimeError else .ok (F p b * (F p a)ᵀ)
  else match lookup a b with
    | some _ => .error .typeError
    | none => match lookup b a with
      | some _ => .error .typeError
      | none => .error .valueError

theorem lookup_geo {a b : Sys} (ha : a ∈ geocentric) (hb : b ∈ geocentric) :
    lookup a b = some (.word (theWord a b)) ∨
    (lookup a b = none ∧ ∃ l, lookup b a = some (.word l) ∧ theWord a b = l.reverse.map fun v => -v) := by
  simp only [geocentric, List.mem_cons, List.not_mem_nil, or_false] at ha hb
  rcases ha with rfl | rfl | rfl | rfl | rfl | rfl | rfl <;>
  rcases hb with rfl | rfl | rfl | rfl | rfl | rfl | rfl <;> simp [theWord, lookup]

theorem lookup_not_geo {a b : Sys} (h : ¬ (a ∈ geocentric ∧ b ∈ geocentric)) (l : List Int) :
    lookup a b ≠ some (.word l) := by
  unfold lookup
  split <;> simp_all [geocentric]

theorem magBlocked_symm (p : Params) (a b : Sys) : magBlocked p a b = magBlocked p b a := by
  unfold magBlocked
  cases decide (a = Sys.mag) <;> cases decide (b = Sys.mag) <;> rfl

theorem storeX_inv {p : Params} {σ : St} (h : Inv p σ) {a b : Sys} (ha : a ∈ geocentric)
    (hb : b ∈ geocentric) (hm : magBlocked p a b = false) :
    (storeX a b (F p b * (F p a)ᵀ) σ).xform (a, b) = some (F p b * (F p a)ᵀ) ∧
    Inv p (storeX a b (F p b * (F p a)ᵀ) σ) := by
  have hT : (F p b * (F p a)ᵀ)ᵀ = F p a * (F p b)ᵀ := by
    rw [Matrix.transpose_mul, Matrix.transpose_transpose]
  unfold storeX
  dsimp only
  constructor
  · by_cases e : a = b
    · subst e; simp [hT]
    · rw [Function.update_of_ne (by simp [e])]; simp
  · refine { h with xform := fun c d M hM => ?_ }
    dsimp only at hM
    by_cases e1 : (c, d) = (b, a)
    · rw [e1, Function.update_self] at hM
      obtain ⟨rfl, rfl⟩ : c = b ∧ d = a := by simpa using e1
      refine ⟨⟨hb, ha⟩, magBlocked_symm p _ _ ▸ hm, ?_⟩
      rw [← hT]; simpa using hM.symm
    · rw [Function.update_of_ne e1] at hM
      by_cases e2 : (c, d) = (a, b)
      · rw [e2, Function.update_self] at hM
        obtain ⟨rfl, rfl⟩ : c = a ∧ d = b := by simpa using e2
        exact ⟨⟨ha, hb⟩, hm, by simpa using hM.symm⟩
      · rw [Function.update_of_ne e2] at hM
        exact h.xform c d M hM

theorem getMat_tri (p : Params) (em : Int → Act M3) (a b : Sys)
    (hem : a ∈ geocentric → b ∈ geocentric → ∀ i ∈ theWord a b, Tri p (em i) (ematR p i)) :
    Tri p (getMat em a b) (matR p a b) := by
  unfold getMat matR
  by_cases hg : a ∈ geocentric ∧ b ∈ geocentric
  · rw [if_pos hg]
    obtain ⟨ha, hb⟩ := hg
    have hp := product_tri p em (theWord a b) (hem ha hb) 1
    rw [prodR_word p a b ha hb] at hp
    have hact : ofTable em a b = product em 1 (theWord a b) := by
      unfold ofTable
      rcases lookup_geo ha hb with h | ⟨h, l, h', e⟩
      · rw [h]
      · rw [h, h', e]
    rw [hact]
    cases hm : magBlocked p a b with
    | true =>
      rw [hm] at hp
      refine tri_err (fun σ h => ?_) hp
      by_contra hne
      obtain ⟨M, hM⟩ := Option.ne_none_iff_exists'.1 hne
      have := (h.xform a b M hM).2.1
      rw [hm] at this; exact absurd this (by simp)
    | false =>
      rw [hm] at hp
      exact tri_memo (fun σ h w hw => (h.xform a b w hw).2.2) (fun σ h => storeX_inv h ha hb hm) hp
  · rw [if_neg hg]
    have hnone : ∀ σ, Inv p σ → σ.xform (a, b) = none := by
      intro σ h
      by_contra hne
      obtain ⟨M, hM⟩ := Option.ne_none_iff_exists'.1 hne
      exact hg (h.xform a b M hM).1
    have hg' : ¬ (b ∈ geocentric ∧ a ∈ geocentric) := fun h => hg ⟨h.2, h.1⟩
    unfold ofTable
    match hl : lookup a b with
    | some (.word l) => exact absurd hl (lookup_not_geo hg l)
    | some (.int i) => exact tri_err hnone (Tri.raise _)
    | none =>
      match hl' : lookup b a with
      | some (.word l) => exact absurd hl' (lookup_not_geo hg' l)
      | some (.int i) => exact tri_err hnone (Tri.raise _)
      | none => exact tri_err hnone (Tri.raise _)

/-- What `transform` returns or raises. -/
def transformR (p : Params) (a b : Sys) (v : V3) : Except Err V3 :=
  if a ∈ heliocentric ∧ b ∈ geocentric then .error .notImplemented
  else if a ∈ geocentric ∧ b ∈ heliocentric then .error .notImplemented
  else (matR p a b).map (· *ᵥ v)

theorem transformWith_tri (p : Params) (em : Int → Act M3) (a b : Sys) (v : V3)
    (hem : a ∈ geocentric → b ∈ geocentric → ∀ i ∈ theWord a b, Tri p (em i) (ematR p i)) :
    Tri p (transformWith em a b v) (transformR p a b v) := by
  unfold transformWith transformR
  split
  · exact Tri.raise _
  · split
    · exact Tri.raise _
    · have h := getMat_tri p em a b hem
      cases hr : matR p a b with
      | ok m => rw [hr] at h; exact h.bind (Tri.pure _)
      | error e => rw [hr] at h; exact h.bind_err

theorem EP_neg (p : Params) (k : Nat) (hk : k ≠ 0) : EP p (-(k : Int)) = (EN p k)ᵀ := by
  unfold EP
  rw [if_pos (by omega)]
  congr 2; omega

theorem EP_pos (p : Params) (k : Nat) : EP p (k : Int) = EN p k := by
  unfold EP
  rw [if_neg (by omega)]
  congr 1

theorem storeE_inv {p : Params} {σ : St} (h : Inv p σ) {i : Int} (hi : i.natAbs ≤ 6)
    (h5 : i.natAbs = 5 → noMag p = false)
    (hnt : p.notilt = true → ¬ (i.natAbs = 1 ∨ i.natAbs = 2 ∨ i.natAbs = 5)) :
    Inv p (storeE i (EN p i.natAbs) σ) := by
  unfold storeE
  dsimp only
  have hval : ∀ j M, Function.update (Function.update σ.emat (-(i.natAbs : Int)) (EN p i.natAbs)ᵀ)
      (i.natAbs : Int) (EN p i.natAbs) j = some M → (j.natAbs = i.natAbs ∧ M = EP p j) ∨ σ.emat j = some M := by
    intro j M hM
    by_cases e1 : j = (i.natAbs : Int)
    · left
      subst e1
      rw [Function.update_self] at hM
      refine ⟨by omega, ?_⟩
      rw [EP_pos]; simpa using hM.symm
    · rw [Function.update_of_ne e1] at hM
      by_cases e2 : j = -(i.natAbs : Int)
      · left
        subst e2
        rw [Function.update_self] at hM
        refine ⟨by omega, ?_⟩
        rw [EP_neg p _ (by omega)]; simpa using hM.symm
      · rw [Function.update_of_ne e2] at hM
        exact Or.inr hM
  refine { h with emat := fun j M hM => ?_, nt := fun hn j hj => ?_ }
  · rcases hval j M hM with ⟨e, hM⟩ | hM
    · exact ⟨e ▸ hi, fun h => h5 (e ▸ h), hM⟩
    · exact h.emat j M hM
  · have := hnt hn
    dsimp only
    rw [Function.update_of_ne (by omega), Function.update_of_ne (by omega)]
    exact h.nt hn j hj

theorem storeE_get (p : Params) (σ : St) (i : Int) :
    (storeE i (EN p i.natAbs) σ).emat i = some (EP p i) := by
  unfold storeE EP
  dsimp only
  by_cases h : i < 0
  · rw [if_pos h, Function.update_of_ne (by omega), show i = -(i.natAbs : Int) by omega]
    simp
  · rw [if_neg h]
    have e : (i.natAbs : Int) = i := by omega
    rw [e, Function.update_self]

/-- `_get_emat`, given that its body is right. -/
theorem emat_of_body {p : Params} {n : Nat} {i : Int}
    (hb : ¬ (p.notilt = true ∧ (i.natAbs = 1 ∨ i.natAbs = 2 ∨ i.natAbs = 5)) → i.natAbs ≤ 6 →
      ¬ (i.natAbs = 5 ∧ noMag p = true) → Tri p (ematBody p (emat p n) i.natAbs) (.ok (EN p i.natAbs))) :
    Tri p (emat p (n + 1) i) (ematR p i) := by
  unfold emat ematR
  have hnone : (i.natAbs > 6 ∨ (i.natAbs = 5 ∧ noMag p = true)) → ∀ σ, Inv p σ → σ.emat i = none := by
    intro hc σ h
    by_contra hne
    obtain ⟨M, hM⟩ := Option.ne_none_iff_exists'.1 hne
    have := h.emat i M hM
    rcases hc with hc | ⟨hc, hd⟩
    · omega
    · have := this.2.1 hc
      rw [this] at hd; exact absurd hd (by simp)
  by_cases h5 : i.natAbs = 5 ∧ noMag p = true
  · rw [if_pos h5]
    refine tri_err (hnone (Or.inr h5)) ?_
    have hd : p.disabled = true := by
      have := h5.2; unfold noMag at this; simp at this; exact this.1
    rw [h5.1]
    show Tri p (ematBody p (emat p n) 5) _
    unfold ematBody
    simp only [hd]
    exact Tri.raise _
  · rw [if_neg h5]
    by_cases h6 : i.natAbs ≤ 6
    · rw [if_pos h6]
      by_cases hnt : p.notilt = true ∧ (i.natAbs = 1 ∨ i.natAbs = 2 ∨ i.natAbs = 5)
      · have hE : EP p i = 1 := by
          unfold EP EN B1 B2 B5
          obtain ⟨hn, h | h | h⟩ := hnt <;> rw [h] <;> simp [hn]
        rw [hE]
        exact tri_hit fun σ h => h.nt hnt.1 i hnt.2
      · refine tri_memo' (fun σ h w hw => (h.emat i w hw).2.2) (fun σ h => ⟨storeE_get p σ i, ?_⟩) (hb hnt h6 h5)
        refine storeE_inv h h6 (fun e => ?_) (fun hn hh => hnt ⟨hn, hh⟩)
        cases hm : noMag p with
        | false => rfl
        | true => exact absurd ⟨e, hm⟩ h5
    · rw [if_neg h6]
      have hbody : Tri p (ematBody p (emat p n) i.natAbs)
          (if i.natAbs = 11 ∨ i.natAbs = 12 then .error .notImplemented else .error .valueError) := by
        unfold ematBody
        rw [if_neg (by omega), if_neg (by omega), if_neg (by omega), if_neg (by omega), if_neg (by omega),
          if_neg (by omega), if_neg (by omega)]
        split <;> exact Tri.raise _
      split
      · rename_i h; rw [if_pos h] at hbody
        exact tri_err (hnone (Or.inl (by omega))) hbody
      · rename_i h; rw [if_neg h] at hbody
        exact tri_err (hnone (Or.inl (by omega))) hbody

theorem notilt_false {p : Params} {k : Nat} (h : ¬ (p.notilt = true ∧ (k = 1 ∨ k = 2 ∨ k = 5)))
    (hk : k = 1 ∨ k = 2 ∨ k = 5) : p.notilt = false := by
  cases hn : p.notilt with
  | false => rfl
  | true => exact absurd ⟨hn, hk⟩ h

/-- The bodies that do not need the dipole angles. -/
theorem ematBody_tri_base (p : Params) (em : Int → Act M3) (k : Nat) (h6 : k ≤ 6) (h3 : k ≠ 3) (h4 : k ≠ 4)
    (hnt : ¬ (p.notilt = true ∧ (k = 1 ∨ k = 2 ∨ k = 5))) (h5 : ¬ (k = 5 ∧ noMag p = true)) :
    Tri p (ematBody p em k) (.ok (EN p k)) := by
  have hk : k = 0 ∨ k = 1 ∨ k = 2 ∨ k = 5 ∨ k = 6 := by omega
  rcases hk with rfl | rfl | rfl | rfl | rfl
  · exact Tri.pure _
  · have := notilt_false hnt (by simp)
    show Tri p (ematBody p em 1) (.ok (B1 p))
    unfold ematBody B1
    simp only [this]
    exact Tri.pure _
  · have := notilt_false hnt (by simp)
    show Tri p (ematBody p em 2) (.ok (B2 p))
    unfold ematBody B2
    simp only [this]
    exact (sunLon_tri p).bind (Tri.pure _)
  · have := notilt_false hnt (by simp)
    have hd : p.disabled = false := by
      unfold noMag at h5; simpa [this] using h5
    show Tri p (ematBody p em 5) (.ok (B5 p))
    unfold ematBody B5
    simp only [this, hd]
    exact (dipGeolat_tri p).bind ((dipGeolon_tri p).bind (Tri.pure _))
  · exact Tri.pure _

theorem emat_tri_base (p : Params) (n : Nat) (i : Int) (h3 : i.natAbs ≠ 3) (h4 : i.natAbs ≠ 4) :
    Tri p (emat p (n + 1) i) (ematR p i) :=
  emat_of_body fun hnt h6 h5 => ematBody_tri_base p _ _ h6 h3 h4 hnt h5

theorem matR_geo_gse (p : Params) : matR p .geo .gse = .ok (B2 p * (B1 p)ᵀ) := by
  simp [matR, geocentric, magBlocked, F]

theorem dipGse_tri (p : Params) (n : Nat) : Tri p (dipGseWith p (emat p (n + 1))) (.ok (qeP p)) := by
  unfold dipGseWith
  refine tri_memo (fun σ h w hw => h.qe w hw) (fun σ h => ⟨rfl, ?_⟩) ((dipGeo_tri p).bind ?_)
  · exact { h with qe := fun v hv => by simpa using hv.symm }
  · have h := transformWith_tri p (emat p (n + 1)) .geo .gse (qgP p) (fun _ _ i hi => by
      apply emat_tri_base <;> simp [theWord, lookup] at hi <;> omega)
    have e : transformR p .geo .gse (qgP p) = .ok (qeP p) := by
      unfold transformR
      rw [if_neg (by simp [heliocentric]), if_neg (by simp [heliocentric]), matR_geo_gse]
      rfl
    rwa [e] at h

theorem dipGsm_tri (p : Params) (n : Nat) : Tri p (dipGsmWith p (emat p (n + 1))) (.ok (gsmP p)) := by
  unfold dipGsmWith
  cases hf : p.fillAngle p.dipGsm with
  | some t =>
    refine tri_hit fun σ h => ?_
    rw [h.gsm0 t hf]; unfold gsmP; rw [hf]; rfl
  | none =>
    refine tri_memo (fun σ h w hw => h.gsm w hw) (fun σ h => ⟨rfl, ?_⟩) ((dipGse_tri p n).bind ?_)
    · exact { h with gsm := fun v hv => (by simpa using hv.symm), gsm0 := fun v hv => (by rw [hf] at hv; cases hv) }
    · have e : gsmP p = rad2deg (arctan2 (qeP p 1) (qeP p 2)) := by unfold gsmP; rw [hf]; rfl
      rw [e]; exact Tri.pure _

theorem dipTilt_tri (p : Params) (n : Nat) : Tri p (dipTiltWith p (emat p (n + 1))) (.ok (tiltP p)) := by
  unfold dipTiltWith
  cases hf : p.fillAngle p.dipTilt with
  | some t =>
    refine tri_hit fun σ h => ?_
    rw [h.tilt0 t hf]; unfold tiltP; rw [hf]; rfl
  | none =>
    refine tri_memo (fun σ h w hw => h.tilt w hw) (fun σ h => ⟨rfl, ?_⟩) ((dipGse_tri p n).bind ?_)
    · exact { h with tilt := fun v hv => (by simpa using hv.symm), tilt0 := fun v hv => (by rw [hf] at hv; cases hv) }
    · have e : tiltP p = rad2deg (arctan2 (qeP p 0) (√(qeP p 1 ^ 2 + qeP p 2 ^ 2))) := by
        unfold tiltP; rw [hf]; rfl
      rw [e]; exact Tri.pure _

theorem emat_tri (p : Params) (n : Nat) (i : Int) : Tri p (emat p (n + 2) i) (ematR p i) := by
  refine emat_of_body fun hnt h6 h5 => ?_
  by_cases h3 : i.natAbs = 3
  · rw [h3]
    show Tri p (ematBody p (emat p (n + 1)) 3) (.ok (B3 p))
    exact (dipGsm_tri p n).bind (Tri.pure _)
  · by_cases h4 : i.natAbs = 4
    · rw [h4]
      show Tri p (ematBody p (emat p (n + 1)) 4) (.ok (B4 p))
      exact (dipTilt_tri p n).bind (Tri.pure _)
    · exact ematBody_tri_base p _ _ h6 h3 h4 hnt h5

theorem transformMatrix_tri (p : Params) (a b : Sys) : Tri p (transformMatrix p a b) (matR p a b) :=
  getMat_tri p _ a b fun _ _ i _ => emat_tri p 98 i

theorem transform_tri (p : Params) (a b : Sys) (v : V3) : Tri p (transform p a b v) (transformR p a b v) :=
  transformWith_tri p _ a b v fun _ _ i _ => emat_tri p 98 i

theorem init_inv (p : Params) : Inv p (init p) := by
  refine ⟨?_, ?_, ?_, ?_, ?_, ?_, ?_, ?_, ?_, ?_, ?_, ?_⟩
  · intro i M hM
    unfold init at hM
    dsimp only at hM
    split at hM
    · rename_i h
      refine ⟨by omega, fun _ => by simp [noMag, h.1], ?_⟩
      have hE : EP p i = 1 := by
        unfold EP EN B1 B2 B5
        obtain ⟨hn, h | h | h⟩ := h <;> rw [h] <;> simp [hn]
      rw [hE]; simpa using hM.symm
    · cases hM
  · intro hn i hi
    unfold init
    dsimp only
    rw [if_pos ⟨hn, hi⟩]
  · intro a b M h; cases h
  · intro v h; cases h
  · intro v h; cases h
  · intro v h; cases h
  · intro v h; cases h
  · intro v h; cases h
  · intro v h; unfold init at h; dsimp only at h; unfold tiltP; rw [h]; rfl
  · intro v h; unfold init at h; dsimp only at h; unfold gsmP; rw [h]; rfl
  · intro v h; exact h
  · intro v h; exact h

theorem step_inv (p : Params) (σ : St) (h : Inv p σ) (c : Call) : Inv p (step p σ c) := by
  cases c with
  | matrix a b => exact (transformMatrix_tri p a b σ h).2
  | transform a b v => exact (transform_tri p a b v σ h).2
  | sunLon => exact (sunLon_tri p σ h).2
  | geolon => exact (dipGeolon_tri p σ h).2
  | geolat => exact (dipGeolat_tri p σ h).2
  | dipGeo => exact (dipGeo_tri p σ h).2
  | dipGse => exact (dipGse_tri p 99 σ h).2
  | dipGsm => exact (dipGsm_tri p 99 σ h).2
  | dipTilt => exact (dipTilt_tri p 99 σ h).2
  | moment s m => exact (transform_tri p .sm s _ σ h).2

theorem after_inv (p : Params) (h : List Call) : Inv p (after p h) := by
  unfold after
  suffices ∀ σ, Inv p σ → Inv p (h.foldl (step p) σ) from this _ (init_inv p)
  induction h with
  | nil => exact fun σ h => h
  | cons c r ih => exact fun σ hσ => ih _ (step_inv p σ hσ c)

end
end Viscid.Cotr
