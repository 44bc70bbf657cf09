import Mathlib.Algebra.BigOperators.Group.Finset.Basic
import Mathlib.Algebra.Order.Field.Basic
import Verif.Model.Numeric

/-!
What a matrix product is: independent of storage formats and loops.
-/
namespace QpOASES.Spec
open Finset

variable {K : Type} [Field K] [LinearOrder K] [IsStrictOrderedRing K]

/-- A coefficient that the tests `isZero`, `isEqual(.,1)`, `isEqual(.,-1)` (tolerance `ZERO = 1e-25`) classify
correctly: it is not different from, yet within 1e-25 of, one of 0, 1, -1.  (Every `double` is fine with
respect to 1 and -1; only `double`s of magnitude below 1e-25 other than 0 are excluded.) -/
structure Coeff (c : K) : Prop where
  zero : |c| ≤ ZERO → c = 0
  one : |c - 1| ≤ ZERO → c = 1
  negOne : |c + 1| ≤ ZERO → c = -1

/-- `y'` is `α·P + β·y` on the block of positions `pos k j` (`k < n` vectors, `j < m` components), and `y`
everywhere else. -/
def IsUpdate (n m : Nat) (pos : Nat → Nat → Nat) (α β : K) (P : Nat → Nat → K) (y y' : Nat → K) : Prop :=
  (∀ k < n, ∀ j < m, y' (pos k j) = α * P k j + β * y (pos k j)) ∧
  (∀ q, (∀ k < n, ∀ j < m, q ≠ pos k j) → y' q = y q)

/-- Component `j` of `A·x`, where `A` has `l` columns. -/
def mulVec (A : Nat → Nat → K) (l : Nat) (x : Nat → K) (j : Nat) : K := ∑ i ∈ range l, A j i * x i

/-- The blocks of `n` vectors with `m` components stored at distance `ld` do not overlap. -/
def Fits (n m ld : Nat) : Prop := n ≤ 1 ∨ m ≤ ld

end QpOASES.Spec
