import Verif.Spec.QP

/-!
Equality-constrained QPs:  min ½ x'Hx + g'x  where the variables in `B` are fixed at `b` and the rows in `C` of `Ax` are fixed at `c`.
-/
namespace QpOASES.Spec
open Finset

variable {K : Type} [Field K] [LinearOrder K] [IsStrictOrderedRing K]

/-- `x` satisfies the equations. -/
structure Satisfies (n m : Nat) (A : Nat → Nat → K) (B C : Nat → Prop) (b c : Nat → K) (x : Nat → K) : Prop where
  fixed : ∀ i < n, B i → x i = b i
  active : ∀ k < m, C k → QP.row n A x k = c k

/-- The optimality conditions: `y` are the multipliers of the variables, `z` those of the rows of `A`; those outside `B` and `C` vanish. -/
structure EqualityKKT (n m : Nat) (H A : Nat → Nat → K) (B C : Nat → Prop) (g b c : Nat → K) (x y z : Nat → K) : Prop
    extends Satisfies n m A B C b c x where
  stat : ∀ i < n, QP.row n H x i + g i = y i + ∑ k ∈ range m, A k i * z k
  free : ∀ i < n, ¬ B i → y i = 0
  inactive : ∀ k < m, ¬ C k → z k = 0

/-- Objective function -/
def objective (n : Nat) (H : Nat → Nat → K) (g x : Nat → K) : K :=
  1 / 2 * ∑ i ∈ range n, x i * QP.row n H x i + ∑ i ∈ range n, g i * x i

/-- Product of the matrix `J` with the data vector `d` of length `2 * n + m` -/
def applied (n m : Nat) (J : Nat → Nat → K) (d : Nat → K) (i : Nat) : K := ∑ r ∈ range (2 * n + m), J i r * d r

/-- `J` maps every data vector `(g, b, c)` to the one and only solution `(x, y, z)` of the equality-constrained QP. -/
structure IsReaction (n m : Nat) (H A : Nat → Nat → K) (B C : Nat → Prop) (J : Nat → Nat → K) : Prop where
  solves : ∀ d : Nat → K, EqualityKKT n m H A B C d (fun i => d (n + i)) (fun k => d (2 * n + k))
    (applied n m J d) (fun i => applied n m J d (n + i)) fun k => applied n m J d (2 * n + k)
  unique : ∀ d x y z : Nat → K, EqualityKKT n m H A B C d (fun i => d (n + i)) (fun k => d (2 * n + k)) x y z →
    (∀ i < n, x i = applied n m J d i) ∧ (∀ i < n, y i = applied n m J d (n + i)) ∧ ∀ k < m, z k = applied n m J d (2 * n + k)

end QpOASES.Spec
