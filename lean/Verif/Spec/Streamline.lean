import Verif.Model.Streamline
/-!
# Specification of streamline tracing (C23, C24, C27, C28, C29, C57)

`integ` is the integrator: what one call does to the point, the step, the elapsed time and its private
state.  Numbers such as 1032 are the published values of the END_* and TOPOLOGY_MS_* constants.
-/
namespace Viscid.Spec.Streamline
open Viscid.Streamline
variable {K σ : Type} [Field K] [LinearOrder K]

/-- The point a fraction τ of the way from p to q. -/
def between (p q : P3 K) (τ : K) : P3 K :=
  ⟨p.x + τ * (q.x - p.x), p.y + τ * (q.y - p.y), p.z + τ * (q.z - p.z)⟩

/-- `pts` are the successive points the integrator reaches from `p`; only the last one may have been
pulled back towards its predecessor. -/
inductive Follows (integ : Integ σ K) (timed : Prop) [Decidable timed] : σ → P3 K → K → K → List (P3 K) → Prop
  | nil (st p ds dt) : Follows integ timed st p ds dt []
  | step (st p ds dt rest) : (integ st p ds dt).ret = 0 →
      Follows integ timed (integ st p ds dt).st (integ st p ds dt).x (integ st p ds dt).ds
        (if timed then (integ st p ds dt).dt else dt) rest →
      Follows integ timed st p ds dt ((integ st p ds dt).x :: rest)
  | last (st p ds dt τ) : (integ st p ds dt).ret = 0 → 0 < τ → τ < 1 →
      Follows integ timed st p ds dt [between p (integ st p ds dt).x τ]

/-- Squared distance from the origin. -/
def r2 (p : P3 K) : K := p.x * p.x + p.y * p.y + p.z * p.z

/-- The point is in the region where tracing goes on. -/
def Inside (c : Cfg K) (p : P3 K) : Prop :=
  c.ibound * c.ibound ≤ r2 p ∧ (c.oboundR = 0 ∨ r2 p ≤ c.oboundR * c.oboundR) ∧
  (c.lo.x ≤ p.x ∧ p.x ≤ c.hi.x) ∧ (c.lo.y ≤ p.y ∧ p.y ≤ c.hi.y) ∧ (c.lo.z ≤ p.z ∧ p.z ≤ c.hi.z)

/-- The reason a code stands for. -/
def Reason (c : Cfg K) (p : P3 K) (len t : K) (code : Nat) : Prop :=
  (code = 3 ∧ r2 p < c.ibound * c.ibound ∧ 0 ≤ p.z) ∨
  (code = 5 ∧ r2 p < c.ibound * c.ibound ∧ p.z < 0) ∨
  (code = 1032 ∧ c.oboundR ≠ 0 ∧ c.oboundR * c.oboundR < r2 p) ∨
  (code = 24 ∧ p.x < c.lo.x) ∨ (code = 72 ∧ p.y < c.lo.y) ∨ (code = 264 ∧ p.z < c.lo.z) ∨
  (code = 40 ∧ c.hi.x < p.x) ∨ (code = 136 ∧ c.hi.y < p.y) ∨ (code = 520 ∧ c.hi.z < p.z) ∨
  (code = 20480 ∧ 0 < c.maxLength ∧ c.maxLength ≤ len) ∨
  (code = 36864 ∧ 0 < c.maxT ∧ c.maxT ≤ t)

/-- Documented priority of the codes, highest first. -/
def priority : List Nat := [3, 5, 1032, 24, 72, 264, 40, 136, 520, 20480, 36864]

/-- One traced direction from the seed `x0` with initial step `ds`: its vertices and why it ended
(12288: maxit steps were made; 69632: the field vanished). -/
structure Direction (c : Cfg K) (integ : Integ σ K) (x0 : P3 K) (ds : K) (pts : List (P3 K)) (flag : Nat) : Prop where
  follows : ∃ st, Follows integ (0 < c.maxT) st x0 ds 0 pts
  short : pts.length ≤ c.maxit
  inside : ∀ p ∈ pts.dropLast, Inside c p
  reason : (flag = 12288 ∧ pts.length = c.maxit ∧ ∀ p ∈ pts, Inside c p) ∨
    (flag = 69632 ∧ pts.length < c.maxit ∧ ∀ p ∈ pts, Inside c p) ∨
    (∃ p len t, pts.getLast? = some p ∧ Reason c p len t flag)

/-- Like `Follows`, for steps of fixed length h and `rem` units of arc length left: whole steps while
they fit, then one step cut to the remaining length. -/
inductive FollowsLen (integ : Integ σ K) (h : K) : K → σ → P3 K → K → List (P3 K) → Prop
  | nil (rem st p ds) : FollowsLen integ h rem st p ds []
  | step (rem st p ds rest) : (integ st p ds 0).ret = 0 → 0 < rem → h ≤ rem →
      FollowsLen integ h (rem - h) (integ st p ds 0).st (integ st p ds 0).x ds rest →
      FollowsLen integ h rem st p ds ((integ st p ds 0).x :: rest)
  | cut (rem st p ds) : (integ st p ds 0).ret = 0 → 0 < rem → rem < h →
      FollowsLen integ h rem st p ds [between p (integ st p ds 0).x (rem / h)]

/-- Elapsed time after n whole steps, starting from `dt`. -/
def elapsed (integ : Integ σ K) : Nat → σ → P3 K → K → K → K
  | 0, _, _, _, dt => dt
  | n + 1, st, p, ds, dt =>
    let o := integ st p ds dt
    elapsed integ n o.st o.x o.ds o.dt

/-- How a traced end is read. -/
inductive EndKind where
  | north
  | south
  | outer
  | other
  deriving DecidableEq, Repr

/-- Where an end code says the line went. -/
def kind (code : Nat) : EndKind :=
  if code = 3 then .north else if code = 5 then .south
  else if code ∈ [24, 40, 72, 136, 264, 520, 1032] then .outer else .other

/-- Magnetospheric topology from the two ends, for lines whose ends both reached a boundary. -/
def topology : EndKind → EndKind → Option Nat
  | .other, _ => none
  | _, .other => none
  | .outer, .outer => some 8
  | .outer, .north => some 2
  | .north, .outer => some 2
  | .outer, .south => some 4
  | .south, .outer => some 4
  | _, _ => some 1

end Viscid.Spec.Streamline
