import Mathlib.LinearAlgebra.Matrix.Determinant.Basic
import Mathlib.Order.Fin.Basic

/-!
Cholesky factors and leading minors.
-/
namespace QpOASES.Spec
open Finset

variable {K : Type} [Field K]

/-- The first `m` rows of `R` satisfy the equations of `Rᵀ R = A` in the upper triangle of order `n`. -/
def CholRows [LinearOrder K] (m n : Nat) (A R : Nat → Nat → K) : Prop :=
  ∀ r < m, 0 < R r r ∧ ∀ c, r ≤ c → c < n → ∑ k ∈ range (r+1), R k r * R k c = A r c

/-- `R` (upper triangle) is the Cholesky factor of the symmetric matrix with upper triangle `A`. -/
def IsCholesky [LinearOrder K] (n : Nat) (A R : Nat → Nat → K) : Prop := CholRows n n A R

/-- Leading principal submatrix of order `k` of the symmetric matrix with upper triangle `A`. -/
def lead (A : Nat → Nat → K) (k : Nat) : Matrix (Fin k) (Fin k) K :=
  Matrix.of fun i j => if i.val ≤ j.val then A i.val j.val else A j.val i.val

end QpOASES.Spec
