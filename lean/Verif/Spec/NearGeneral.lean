import Verif.Spec.Near

/-!
Solutions of a QP with general constraints up to a perturbation of gradient and limits.
-/
namespace QpOASES.Spec
open Finset

variable {K : Type} [Field K] [LinearOrder K] [IsStrictOrderedRing K]

/-- `(x,y)` satisfies the optimality conditions of the QP `P'`, which stands for the QP `P` requested.  If none of the requested lower
(upper) limits of the variables is finite, those limits need not be observed; the same holds for the constraints.  A constraint both limits
of which are infinite need not be observed either. -/
structure Optimal (P' P : QP K) (x y : Nat → K) : Prop where
  stationary : P'.Stationary x y
  lower : (∃ i < P.nV, -INFTY < P.lb i) → ∀ i < P.nV, P'.lb i ≤ x i
  upper : (∃ i < P.nV, P.ub i < INFTY) → ∀ i < P.nV, x i ≤ P'.ub i
  lowerA : (∃ k < P.nC, -INFTY < P.lbA k) → ∀ k < P.nC, -INFTY < P.lbA k ∨ P.ubA k < INFTY → P'.lbA k ≤ QP.row P.nV P'.A x k
  upperA : (∃ k < P.nC, P.ubA k < INFTY) → ∀ k < P.nC, -INFTY < P.lbA k ∨ P.ubA k < INFTY → QP.row P.nV P'.A x k ≤ P'.ubA k

/-- `(x,y)` satisfies the optimality conditions of the QP up to the tolerance `tol` in gradient and limits, relative to `max{1,|·|}`;
exactly if `full` holds.  In both cases the Hessian may have been rounded to the identity. -/
def SolvesGeneral (P : QP K) (tol : K) (full : Prop) (x y : Nat → K) : Prop :=
  ∃ H' : Nat → Nat → K, (∀ i < P.nV, ∀ j < P.nV, |H' i j - P.H i j| ≤ EPS) ∧
    (∃ g' lb' ub' lbA' ubA', Near P.nV tol P.g g' ∧ Near P.nV tol P.lb lb' ∧ Near P.nV tol P.ub ub' ∧ Near P.nC tol P.lbA lbA' ∧
      Near P.nC tol P.ubA ubA' ∧ Optimal { P with H := H', g := g', lb := lb', ub := ub', lbA := lbA', ubA := ubA' } P x y) ∧
    (full → Optimal { P with H := H' } P x y)

/-- New limits of the constraints are of the same kind as those of the cold start: what had no limits still has none, equalities remain
equalities, and if there were no lower (upper) limits at all, there are still none. -/
structure SameKind (equalities : Prop) (tol : K) (m : Nat) (l0 u0 l u : Nat → K) : Prop where
  absent : ∀ k < m, l0 k < -INFTY + tol → INFTY - tol < u0 k → l k ≤ -INFTY ∧ INFTY ≤ u k
  equal : equalities → ∀ k < m, u0 k - tol < l0 k → l k = u k
  noLower : (∀ k < m, l0 k ≤ -INFTY) → ∀ k < m, l k ≤ -INFTY
  noUpper : (∀ k < m, INFTY ≤ u0 k) → ∀ k < m, INFTY ≤ u k

end QpOASES.Spec
