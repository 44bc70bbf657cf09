import Verif.Model.Basic
import Mathlib.Algebra.BigOperators.Ring.Finset
import Mathlib.Algebra.Field.Defs

/-!
Specification of the factors that an active-set method keeps for its working set.
-/
namespace QpOASES.Spec
open Finset

variable {K : Type} [Field K]

/-- `free`: the free variables, `active`: the active constraints, in the order of the columns of `Q` and the rows of `T`.
The last `active.length` columns of `Q` span the range of the active constraints, the other ones their null space. -/
structure FactorsTQ (free active : List Nat) (A Q T : Nat → Nat → K) : Prop where
  /-- there are at most as many active constraints as free variables -/
  le : active.length ≤ free.length
  /-- the rows of `Q` that belong to free variables are orthonormal -/
  rows : ∀ i ∈ free, ∀ i' ∈ free, ∑ j ∈ range free.length, Q i j * Q i' j = if i = i' then 1 else 0
  /-- and so are its columns -/
  columns : ∀ j < free.length, ∀ j' < free.length, ∑ i ∈ free.toFinset, Q i j * Q i j' = if j = j' then 1 else 0
  /-- an active row times `Q` is zero in the null space part -/
  null : ∀ k < active.length, ∀ j < free.length - active.length, ∑ i ∈ free.toFinset, A (active.getD k 0) i * Q i j = 0
  /-- and equal to the reverse triangular matrix `T` in the range part -/
  range : ∀ k < active.length, ∀ c < active.length,
    ∑ i ∈ free.toFinset, A (active.getD k 0) i * Q i (free.length - active.length + c) = if active.length ≤ c + k + 1 then T k c else 0

/-- The upper triangle of `R` is the Cholesky factor of `Z'HZ`, where `Z` is the null space part of `Q`, with `nZ` columns. -/
def FactorsR (free : List Nat) (nZ : Nat) (H Q R : Nat → Nat → K) : Prop :=
  ∀ a < nZ, ∀ b < nZ, ∑ q ∈ range nZ, (if q ≤ a then R q a else 0) * (if q ≤ b then R q b else 0) =
    ∑ i ∈ free.toFinset, ∑ i' ∈ free.toFinset, Q i a * H i i' * Q i' b

end QpOASES.Spec
