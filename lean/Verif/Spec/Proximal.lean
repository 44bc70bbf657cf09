import Verif.Spec.NearGeneral

/-!
The proximal point iteration for a QP.
-/
namespace QpOASES.Spec
open Finset

variable {K : Type} [Field K] [LinearOrder K] [IsStrictOrderedRing K]

/-- The QP with `eps/2*|x - z|²` added to its objective, up to a constant. -/
def QP.proximal (P : QP K) (eps : K) (z : Nat → K) : QP K :=
  { P with
    H := fun i j => P.H i j + if i = j then eps else 0
    g := fun i => P.g i - eps * z i }

/-- `(x,y)` satisfies the optimality conditions of the QP up to the tolerance `tol` in gradient and limits, relative to `max{1,|·|}`. -/
def NearlySolves (P : QP K) (tol : K) (x y : Nat → K) : Prop :=
  ∃ g' lb' ub' lbA' ubA', Near P.nV tol P.g g' ∧ Near P.nV tol P.lb lb' ∧ Near P.nV tol P.ub ub' ∧ Near P.nC tol P.lbA lbA' ∧
    Near P.nC tol P.ubA ubA' ∧ Optimal { P with g := g', lb := lb', ub := ub', lbA := lbA', ubA := ubA' } P x y

/-- `k` correction steps of the proximal point iteration for the QP lead to `(x,y)`: the QP is regularised about the origin first, then,
`k` times, about the previous solution.  Solutions are meant up to the tolerance `tol`. -/
inductive ProximalPoint (P : QP K) (tol eps : K) : Nat → (Nat → K) → (Nat → K) → Prop
  | first {x y : Nat → K} (h : NearlySolves (P.proximal eps fun _ => 0) tol x y) : ProximalPoint P tol eps 0 x y
  | next {k : Nat} {z w x y : Nat → K} (h : ProximalPoint P tol eps k z w) (h' : NearlySolves (P.proximal eps z) tol x y) :
      ProximalPoint P tol eps (k+1) x y

end QpOASES.Spec
