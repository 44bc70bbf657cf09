import Verif.Spec.QP

/-!
Residuals of the optimality conditions of a QP whose limits may be missing.
-/
namespace QpOASES.Spec
open Finset

variable {K : Type} [Field K] [LinearOrder K] [IsStrictOrderedRing K]

/-- `m` is the largest of zero and the values in `S`. -/
def MaxOf (S : K → Prop) (m : K) : Prop := 0 ≤ m ∧ (∀ v, S v → v ≤ m) ∧ (m = 0 ∨ S m)

/-- Residual of the stationarity condition of variable `i`. -/
def StatRes (n m : Nat) (H : Nat → Nat → K) (g : Nat → K) (A : Nat → Nat → K) (x y : Nat → K) (v : K) : Prop :=
  ∃ i < n, v = |QP.row n H x i + g i - (y i + ∑ k ∈ range m, A k i * y (n + k))|

/-- Distance by which one of the `n` values `a` falls short of its lower limit or exceeds its upper limit, if there is one. -/
def LimitRes (n : Nat) (lo up : Option (Nat → K)) (a : Nat → K) (v : K) : Prop :=
  ∃ i < n, (∃ l, lo = some l ∧ v = l i - a i) ∨ (∃ u, up = some u ∧ v = a i - u i)

/-- Product of a multiplier that is greater than `tol` and the distance to the lower limit, or that is less than `-tol` and the
distance to the upper limit. -/
def ProductRes (n : Nat) (lo up : Option (Nat → K)) (tol : K) (a y : Nat → K) (v : K) : Prop :=
  ∃ i < n, (∃ l, lo = some l ∧ tol < y i ∧ v = |(a i - l i) * y i|) ∨ (∃ u, up = some u ∧ y i < -tol ∧ v = |(a i - u i) * y i|)

/-- The optimality conditions, where multipliers in `[-tol,tol]` count as zero for complementarity. -/
structure KKTUpTo (P : QP K) (tol : K) (x y : Nat → K) : Prop extends QP.Feasible P x where
  stat : ∀ i < P.nV, QP.row P.nV P.H x i + P.g i = y i + ∑ k ∈ range P.nC, P.A k i * y (P.nV + k)
  pos : ∀ i < P.nV, tol < y i → x i = P.lb i
  neg : ∀ i < P.nV, y i < -tol → x i = P.ub i
  posA : ∀ k < P.nC, tol < y (P.nV + k) → QP.row P.nV P.A x k = P.lbA k
  negA : ∀ k < P.nC, y (P.nV + k) < -tol → QP.row P.nV P.A x k = P.ubA k

end QpOASES.Spec
