import Verif.Model.Constants
import Mathlib.Algebra.BigOperators.Group.Finset.Basic
import Mathlib.Algebra.Order.Field.Basic

/-!
Quadratic programs  min ½ x'Hx + g'x  s.t.  lb ≤ x ≤ ub,  lbA ≤ Ax ≤ ubA,  and their optimality conditions.
-/
namespace QpOASES.Spec
open Finset

variable {K : Type} [Field K] [LinearOrder K] [IsStrictOrderedRing K]

structure QP (K : Type) where
  nV : Nat
  nC : Nat
  H : Nat → Nat → K
  g : Nat → K
  lb : Nat → K
  ub : Nat → K
  A : Nat → Nat → K
  lbA : Nat → K
  ubA : Nat → K

namespace QP

/-- Row `i` of `M` times `x`. -/
def row (n : Nat) (M : Nat → Nat → K) (x : Nat → K) (i : Nat) : K := ∑ j ∈ range n, M i j * x j

/-- Objective function. -/
def obj (P : QP K) (x : Nat → K) : K :=
  1 / 2 * ∑ i ∈ range P.nV, x i * row P.nV P.H x i + ∑ i ∈ range P.nV, P.g i * x i

/-- `x` satisfies all limits. -/
structure Feasible (P : QP K) (x : Nat → K) : Prop where
  lower : ∀ i < P.nV, P.lb i ≤ x i
  upper : ∀ i < P.nV, x i ≤ P.ub i
  lowerA : ∀ k < P.nC, P.lbA k ≤ row P.nV P.A x k
  upperA : ∀ k < P.nC, row P.nV P.A x k ≤ P.ubA k

def Symmetric (n : Nat) (H : Nat → Nat → K) : Prop := ∀ i < n, ∀ j < n, H i j = H j i

/-- Positive semidefinite. -/
def PosSemidef (n : Nat) (H : Nat → Nat → K) : Prop := ∀ d : Nat → K, 0 ≤ ∑ i ∈ range n, d i * row n H d i

/-- Positive definite. -/
def PosDef (n : Nat) (H : Nat → Nat → K) : Prop :=
  ∀ d : Nat → K, (∃ i < n, d i ≠ 0) → 0 < ∑ i ∈ range n, d i * row n H d i

/-- Stationarity and complementarity: the multipliers (first those of the variables, then those of the constraints)
balance the gradient; a positive multiplier means that the lower limit is attained, a negative one that the upper
limit is attained. -/
structure Stationary (P : QP K) (x y : Nat → K) : Prop where
  stat : ∀ i < P.nV, row P.nV P.H x i + P.g i = y i + ∑ k ∈ range P.nC, P.A k i * y (P.nV + k)
  pos : ∀ i < P.nV, 0 < y i → x i = P.lb i
  neg : ∀ i < P.nV, y i < 0 → x i = P.ub i
  posA : ∀ k < P.nC, 0 < y (P.nV + k) → row P.nV P.A x k = P.lbA k
  negA : ∀ k < P.nC, y (P.nV + k) < 0 → row P.nV P.A x k = P.ubA k

/-- The optimality (Karush-Kuhn-Tucker) conditions. -/
structure KKT (P : QP K) (x y : Nat → K) : Prop extends Stationary P x y, Feasible P x

/-- `x` is a global minimiser. -/
def IsMinimiser (P : QP K) (x : Nat → K) : Prop := P.Feasible x ∧ ∀ z, P.Feasible z → P.obj x ≤ P.obj z

/-- A QP without general constraints. -/
def box (n : Nat) (H : Nat → Nat → K) (g lb ub : Nat → K) : QP K :=
  { nV := n, nC := 0, H := H, g := g, lb := lb, ub := ub, A := fun _ _ => 0, lbA := fun _ => 0, ubA := fun _ => 0 }

end QP
end QpOASES.Spec
