import Verif.Spec.QP

/-!
Solutions of a box-constrained QP up to a perturbation of gradient and limits.
-/
namespace QpOASES.Spec
open Finset

variable {K : Type} [Field K] [LinearOrder K] [IsStrictOrderedRing K]

/-- The first `n` entries of `v'` agree with those of `v` up to `tol`, relative to `max{1,|v i|}`. -/
def Near (n : Nat) (tol : K) (v v' : Nat → K) : Prop := ∀ i < n, |v i - v' i| ≤ tol * max 1 |v i|

/-- `(x,y)` satisfies the optimality conditions of the QP with Hessian `H`, gradient `g'` and limits `lb'`, `ub'`.
If none of the requested lower (upper) limits `lb` (`ub`) is finite, they need not be observed. -/
structure BoxOptimal (n : Nat) (H : Nat → Nat → K) (g' lb' ub' lb ub : Nat → K) (x y : Nat → K) : Prop where
  stationary : (QP.box n H g' lb' ub').Stationary x y
  lower : (∃ i < n, -INFTY < lb i) → ∀ i < n, lb' i ≤ x i
  upper : (∃ i < n, ub i < INFTY) → ∀ i < n, x i ≤ ub' i

/-- `(x,y)` solves the QP with data `H`, `g`, `lb`, `ub` up to the tolerance: it satisfies the optimality conditions for
nearby data. -/
def SolvesNear (n : Nat) (H : Nat → Nat → K) (g lb ub : Nat → K) (tol : K) (x y : Nat → K) : Prop :=
  ∃ g' lb' ub', Near n tol g g' ∧ Near n tol lb lb' ∧ Near n tol ub ub' ∧ BoxOptimal n H g' lb' ub' lb ub x y

end QpOASES.Spec
