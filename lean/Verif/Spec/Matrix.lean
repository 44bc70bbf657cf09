import Verif.Model.SparseMatrix
import Mathlib.Algebra.BigOperators.Group.Finset.Basic
import Mathlib.Order.Interval.Finset.Nat

/-!
The matrix a storage object stands for.
-/
namespace QpOASES
open Finset

variable {K : Type}

/-- Entry in row `r`, column `c` of a dense matrix stored by rows. -/
def DenseMatrix.entry (M : DenseMatrix K) (r c : Nat) : K := M.val (r * M.leaDim + c)

/-- The rows are stored without gaps. -/
def DenseMatrix.Compact (M : DenseMatrix K) : Prop := M.leaDim = M.nCols

/-- Entry of compressed storage: the sum of the values of major index `m` stored for minor index `n`. -/
def compEntry [Field K] (ptr idx : Nat → Nat) (val : Nat → K) (m n : Nat) : K :=
  ∑ i ∈ Ico (ptr m) (ptr (m+1)), if idx i = n then val i else 0

def SparseMatrix.entry [Field K] (M : SparseMatrix K) (r c : Nat) : K := compEntry M.jc M.ir M.val c r
def SparseMatrixRow.entry [Field K] (M : SparseMatrixRow K) (r c : Nat) : K := compEntry M.jr M.ic M.val r c

/-- Well-formed compressed storage: pointers start at 0 and increase, the indices of one major index are in
range and strictly increasing, the arrays are long enough. -/
structure CompWf (nMaj nMin size : Nat) (ptr idx : Nat → Nat) : Prop where
  zero : ptr 0 = 0
  mono : ∀ m < nMaj, ptr m ≤ ptr (m+1)
  inc : ∀ m < nMaj, ∀ i j, ptr m ≤ i → i < j → j < ptr (m+1) → idx i < idx j
  rng : ∀ m < nMaj, ∀ i, ptr m ≤ i → i < ptr (m+1) → idx i < nMin
  size : ptr nMaj ≤ size

def SparseMatrix.Wf (M : SparseMatrix K) : Prop := CompWf M.nCols M.nRows M.size M.jc M.ir
def SparseMatrixRow.Wf (M : SparseMatrixRow K) : Prop := CompWf M.nRows M.nCols M.size M.jr M.ic

/-- The column numbers of an optional list: all columns if there is none. -/
def colOf (icols : Option Ix) (i : Nat) : Nat := match icols with | none => i | some ic => ic.number i
def colCount (nCols : Nat) (icols : Option Ix) : Nat := match icols with | none => nCols | some ic => ic.len

end QpOASES
