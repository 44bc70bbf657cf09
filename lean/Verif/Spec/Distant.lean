import Verif.Spec.Report

/-!
Points far away.
-/
namespace QpOASES.Spec
open Finset

variable {K : Type} [Field K] [LinearOrder K] [IsStrictOrderedRing K]

/-- At `x` a variable or a constraint has a value of at least `v` in modulus. -/
def QP.Beyond (P : QP K) (v : K) (x : Nat → K) : Prop :=
  (∃ i < P.nV, v ≤ |x i|) ∨ ∃ k < P.nC, v ≤ |QP.row P.nV P.A x k|

end QpOASES.Spec
