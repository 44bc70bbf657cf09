import Verif.Spec.Matrix
import Mathlib.Algebra.Order.Field.Basic

/-!
What it means to read a part of a matrix into an array.
-/
namespace QpOASES.Spec

variable {K : Type} [Field K]

/-- `out'` holds `a 0, …, a (n-1)` and is otherwise the same as `out`. -/
def Holds (n : Nat) (a : Nat → K) (out out' : Nat → K) : Prop :=
  (∀ i < n, out' i = a i) ∧ ∀ i, n ≤ i → out' i = out i

/-- Two-dimensional version with leading dimension: entry `(i,j)` at `i + j*ld`, nothing else changed. -/
def HoldsBlock (n m ld : Nat) (a : Nat → Nat → K) (out out' : Nat → K) : Prop :=
  (∀ j < m, ∀ i < n, out' (i + j * ld) = a i j) ∧
  ∀ q, (∀ j < m, ∀ i < n, q ≠ i + j * ld) → out' q = out q

end QpOASES.Spec

namespace QpOASES

/-- Diagonal pointers as documented for `jd`: `jd[j]` is the first stored position of column (row) `j` whose
index is at least `j`, or the end of that column (row). -/
def DiagPtr (ptr idx : Nat → Nat) (n : Nat) (jd : Nat → Nat) : Prop :=
  ∀ j < n, ptr j ≤ jd j ∧ jd j ≤ ptr (j+1) ∧ (∀ i, ptr j ≤ i → i < jd j → idx i < j) ∧
    (jd j < ptr (j+1) → j ≤ idx (jd j))

/-- Every diagonal entry up to `n` is stored explicitly. -/
def DiagStored (ptr idx : Nat → Nat) (n : Nat) : Prop := ∀ j < n, ∃ i, ptr j ≤ i ∧ i < ptr (j+1) ∧ idx i = j

end QpOASES
