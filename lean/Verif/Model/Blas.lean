import Verif.Model.Numeric
import Verif.Model.Indexlist

/-!
Building blocks of the matrix routines: nested loops, the coefficient branches that GEMM and all matrix
classes share, and the bundled GEMM.
-/
namespace QpOASES

/-- two nested loops `for (k=0; k<n; ++k) for (j=0; j<m; ++j)` -/
def loop2 {σ : Type} (n m : Nat) (f : Nat → Nat → σ → σ) (s : σ) : σ :=
  loop (fun k s => loop (fun j s => f k j s) m s) n s

/-- three nested loops -/
def loop3 {σ : Type} (n m l : Nat) (f : Nat → Nat → Nat → σ → σ) (s : σ) : σ :=
  loop (fun k s => loop (fun j s => loop (fun i s => f k j i s) l s) m s) n s

/-- What the matrix routines read from an `Indexlist` (src/Indexlist.cpp): `length`, `number[]`, `iSort[]`.
`Ix.ofIndexlist` below ties this view to the modelled class. -/
structure Ix where
  len : Nat
  number : Nat → Nat
  iSort : Nat → Nat

/-- The view of an index list of nonnegative numbers (numbers of variables or constraints). -/
def Ix.ofIndexlist (s : Indexlist) : Ix where
  len := s.length
  number i := ((s.number.cell i).getD 0).toNat
  iSort i := ((s.iSort.cell i).getD 0).toNat

section
variable {K : Type} [Field K] [LinearOrder K] [IsStrictOrderedRing K]

/-- The scaling of the result by `beta` that precedes every product, e.g. src/Matrices.cpp:340-351 or
src/BLASReplacement.cpp:44-55:
`if isZero(beta) .. = 0 else if isEqual(beta,-1) .. = -.. else if !isEqual(beta,1) .. *= beta`.
`pos k j` is the position written; `neg k j` the position read by the branch for `beta = -1`, which is a
different one in two of the routines. -/
def scaleY (β : K) (n m : Nat) (pos neg : Nat → Nat → Nat) (y : Nat → K) : Nat → K :=
  if isZero β then loop2 n m (fun k j y => updA y (pos k j) 0) y
  else if isEqual β (-1) then loop2 n m (fun k j y => updA y (pos k j) (-(y (neg k j)))) y
  else if !isEqual β 1 then loop2 n m (fun k j y => updA y (pos k j) (y (pos k j) * β)) y
  else y

/-- The accumulation statement `y[p] += a*b`, `y[p] -= a*b` or `y[p] += alpha*a*b`, selected by
`isEqual(alpha,1)`, `isEqual(alpha,-1)`, e.g. src/Matrices.cpp:354-383.  (In the code the selection is made
once, outside the loops; `alpha` does not change, so selecting inside is the same.) -/
def accY (α : K) (y : Nat → K) (p : Nat) (a b : K) : Nat → K :=
  if isEqual α 1 then updA y p (y p + a * b)
  else if isEqual α (-1) then updA y p (y p - a * b)
  else updA y p (y p + α * a * b)

/-- A matrix entry scaled by `alpha` with the same three branches, e.g. src/Matrices.cpp:182-190. -/
def scaleEntry (α a : K) : K :=
  if isEqual α 1 then a else if isEqual α (-1) then -a else α * a

/-- `dgemm_`/`sgemm_`, src/BLASReplacement.cpp:39-92 (double) and 94-147 (single).  Column-major arrays;
`transA` is the test `TRANSA[0] == 'N'` being false; `TRANSB` is ignored by the code. -/
def gemm (transA : Bool) (M N L : Nat) (α : K) (A : Nat → K) (LDA : Nat) (B : Nat → K) (LDB : Nat)
    (β : K) (C : Nat → K) (LDC : Nat) : Nat → K :=
  let C1 := scaleY β N M (fun k j => j + LDC * k) (fun k j => j + LDC * k) C
  if transA = false then
    loop3 N M L (fun k j i C => accY α C (j + LDC * k) (A (j + LDA * i)) (B (i + LDB * k))) C1
  else
    loop3 N M L (fun k j i C => accY α C (j + LDC * k) (A (i + LDA * j)) (B (i + LDB * k))) C1

end
end QpOASES
