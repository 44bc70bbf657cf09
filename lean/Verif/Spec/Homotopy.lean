import Verif.Spec.QP
import Verif.Model.SubjectTo

/-!
Steps along the homotopy between two box-constrained QPs, as one would define them with pen and paper: all vectors are
indexed by the variables.
-/
namespace QpOASES.Spec
open Finset SubjectToStatus SubjectToType

variable {K : Type} [Field K] [LinearOrder K] [IsStrictOrderedRing K]

/-- `(dx,dy)` satisfies the linearised optimality conditions of the working set for the data change `dg`, `dlb`, `dub`. -/
structure Direction (n : Nat) (H : Nat → Nat → K) (status : Nat → SubjectToStatus) (dg dlb dub dx dy : Nat → K) : Prop where
  stat : ∀ i < n, QP.row n H dx i + dg i = dy i
  lower : ∀ i < n, status i = ST_LOWER → dx i = dlb i
  upper : ∀ i < n, status i = ST_UPPER → dx i = dub i
  inactive : ∀ i < n, status i = ST_INACTIVE → dy i = 0

/-- Numbers strictly between zero and a tolerance. -/
def Negligible (tol v : K) : Prop := 0 < v ∧ v < tol

/-- A step of length `tau` in the direction `(dx,dy)` does not overstep: inactive limits (other than those of equalities,
and of a kind that is watched at all) are not crossed, multipliers of active limits do not change sign.  Limits approached
at a speed below `tol` are not guaranteed. -/
structure NoOverstep (n : Nat) (status : Nat → SubjectToStatus) (type : Nat → SubjectToType) (watchLower watchUpper : Prop)
    (lb ub x y dlb dub dx dy : Nat → K) (tol tau : K) : Prop where
  nonneg : 0 ≤ tau
  le_one : tau ≤ 1
  lower : watchLower → ∀ i < n, type i ≠ ST_EQUALITY → status i = ST_INACTIVE → lb i ≤ x i →
    lb i + tau * dlb i ≤ x i + tau * dx i ∨ Negligible tol (dlb i - dx i)
  upper : watchUpper → ∀ i < n, type i ≠ ST_EQUALITY → status i = ST_INACTIVE → x i ≤ ub i →
    x i + tau * dx i ≤ ub i + tau * dub i ∨ Negligible tol (dx i - dub i)
  pos : ∀ i < n, type i ≠ ST_EQUALITY → status i = ST_LOWER → 0 ≤ y i + tau * dy i ∨ Negligible tol (-dy i)
  neg : ∀ i < n, type i ≠ ST_EQUALITY → status i = ST_UPPER → y i + tau * dy i ≤ 0 ∨ Negligible tol (dy i)

/-- The reported reason for the length of the step: none, and then it is a full step; or a variable together with its new
status, and then the step is shorter and ends exactly where that variable changes status. -/
def StopsAt (status : Nat → SubjectToStatus) (lb ub x y dlb dub dx dy : Nat → K) (tau : K) : Option (Nat × SubjectToStatus) → Prop
  | none => tau = 1
  | some (i, st) => tau < 1 ∧
    (st = ST_INACTIVE ∧ (status i = ST_LOWER ∨ status i = ST_UPPER) ∧ y i + tau * dy i = 0 ∨
     st = ST_LOWER ∧ status i = ST_INACTIVE ∧ (lb i ≤ x i → x i + tau * dx i = lb i + tau * dlb i) ∨
     st = ST_UPPER ∧ status i = ST_INACTIVE ∧ (x i ≤ ub i → x i + tau * dx i = ub i + tau * dub i))

/-- The primal-dual pair is optimal and the working set explains it: active limits are attained, multipliers of the others
vanish.  Limits of a kind that is not watched need not be observed. -/
structure OptimalWith (n : Nat) (H : Nat → Nat → K) (g lb ub : Nat → K) (status : Nat → SubjectToStatus) (type : Nat → SubjectToType)
    (watchLower watchUpper : Prop) (x y : Nat → K) : Prop where
  stationary : (QP.box n H g lb ub).Stationary x y
  above : watchLower → ∀ i < n, lb i ≤ x i
  below : watchUpper → ∀ i < n, x i ≤ ub i
  consistent : ∀ i < n, lb i ≤ ub i
  lower : ∀ i < n, status i = ST_LOWER → x i = lb i ∧ (type i ≠ ST_EQUALITY → 0 ≤ y i)
  upper : ∀ i < n, status i = ST_UPPER → x i = ub i ∧ (type i ≠ ST_EQUALITY → y i ≤ 0)
  inactive : ∀ i < n, status i = ST_INACTIVE → y i = 0
  equality : ∀ i < n, type i = ST_EQUALITY → status i ≠ ST_INACTIVE ∧ lb i = ub i

/-- If all limits are watched, these are the optimality conditions. -/
theorem OptimalWith.kkt {n : Nat} {H : Nat → Nat → K} {g lb ub : Nat → K} {status : Nat → SubjectToStatus} {type : Nat → SubjectToType}
    {x y : Nat → K} (h : OptimalWith n H g lb ub status type True True x y) : (QP.box n H g lb ub).KKT x y :=
  ⟨h.stationary, ⟨h.above trivial, h.below trivial, fun k hk => absurd hk (Nat.not_lt_zero _), fun k hk => absurd hk (Nat.not_lt_zero _)⟩⟩

end QpOASES.Spec
