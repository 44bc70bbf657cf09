import Verif.Model.Lapack

/-!
Small kernels of the dense solver: plane rotations, triangular solves.  Two-dimensional arrays are modelled
as functions of two indices: `R i j` is `RR(i,j)`, i.e. `R[i+nV*j]` (src/QProblemB.cpp, include/qpOASES/QProblemB.hpp
macro `RR`), `T i j` is `TT(i,j)`, i.e. `T[i*sizeT+j]`; all accesses stay inside the allocated square.
-/
namespace QpOASES
open ReturnValue

variable {K : Type} [Field K] [LinearOrder K] [IsStrictOrderedRing K]

/-- Division; a zero divisor would give Inf or NaN. -/
def cdiv (a b : K) : Res K := if b = 0 then .ub .divByZero else .ok (a / b)

/-- `computeGivens`, include/qpOASES/QProblemB.ipp:409-441; returns `(xnew, ynew, c, s)`. -/
def computeGivens (sq : K → K) (xold yold : K) : K × K × K × K :=
  if isZero yold then (xold, yold, 1, 0)
  else
    let mu := if getAbs yold > getAbs xold then getAbs yold else getAbs xold
    let t := mu * sq (xold / mu * (xold / mu) + yold / mu * (yold / mu))
    let t := if xold < 0 then -t else t
    (t, 0, xold / t, yold / t)

/-- `applyGivens` as compiled by default (four multiplications), include/qpOASES/QProblemB.ipp:464-465. -/
def applyGivens (c s : K) (x y : K) : K × K := (c * x + s * y, -s * x + c * y)

/-- `applyGivens` with `__USE_THREE_MULTS_GIVENS__`, include/qpOASES/QProblemB.ipp:456-457. -/
def applyGivens3 (c s nu : K) (x y : K) : K × K :=
  let xnew := x * c + y * s
  (xnew, (xnew + x) * nu - y)

/-- `for (j = lo; j < hi; ++j) sum -= f(j);` -/
def subUp (f : Nat → K) (lo hi : Nat) (sum : K) : K := loopFrom lo hi (fun j s => s - f j) sum

/-- Guarded division of `backsolveR`, src/QProblemB.cpp:1664-1667 and 1679-1682: `none` is `RET_DIV_BY_ZERO`. -/
def divR (sum d : K) : Res (Option K) :=
  if getAbs d ≥ ZERO * getAbs sum then do
    let q ← cdiv sum d
    pure (some q)
  else .ok none

/-- `backsolveR`, not transposed, src/QProblemB.cpp:1654-1669: `n` rows left, the next one is `n-1`.
`b = none`: right-hand side and result are the same array. -/
def backsolveRN (R : Nat → Nat → K) (nR : Nat) (b : Option (Nat → K)) : Nat → (Nat → K) → Res (ReturnValue × (Nat → K))
  | 0, a => .ok (SUCCESSFUL_RETURN, a)
  | i+1, a => do
    let sum := subUp (fun j => R i j * a j) (i+1) nR (b.getD a i)
    match ← divR sum (R i i) with
    | none => .ok (RET_DIV_BY_ZERO, a)
    | some q => backsolveRN R nR b i (updA a i q)

/-- `backsolveR`, transposed, src/QProblemB.cpp:1672-1684: `m` rows left, the next one is `i`. -/
def backsolveRT (R : Nat → Nat → K) (b : Option (Nat → K)) : (m i : Nat) → (Nat → K) → Res (ReturnValue × (Nat → K))
  | 0, _, a => .ok (SUCCESSFUL_RETURN, a)
  | m+1, i, a => do
    let sum := subUp (fun j => R j i * a j) 0 i (b.getD a i)
    match ← divR sum (R i i) with
    | none => .ok (RET_DIV_BY_ZERO, a)
    | some q => backsolveRT R b m (i+1) (updA a i q)

/-- `backsolveR`, src/QProblemB.cpp:1635-1688, for a factor of order `nR` (`getNZ()`, or one less while
removing a bound). -/
def backsolveR (R : Nat → Nat → K) (nR : Nat) (b : Option (Nat → K)) (transposed : Bool) (a : Nat → K) :
    Res (ReturnValue × (Nat → K)) :=
  if transposed then backsolveRT R b nR 0 a else backsolveRN R nR b nR a

/-- Guarded division of `backsolveT`, src/QProblem.cpp:4540-4543 and 4555-4558. -/
def divT (sum d : K) : Option K := if getAbs d > EPS then some (sum / d) else none

/-- `backsolveT`, src/QProblem.cpp:4534-4560, one of the two loops: `coef i j` is the matrix entry used in row `i`
for the `j`-th eliminated unknown.  `m` rows left, the next one is `i`. -/
def backsolveTLoop (coef : Nat → Nat → K) (nT : Nat) (b : Nat → K) : (m i : Nat) → (Nat → K) → ReturnValue × (Nat → K)
  | 0, _, a => (SUCCESSFUL_RETURN, a)
  | m+1, i, a =>
    match divT (subUp (fun j => coef i j * a (nT-1-j)) 0 i (b i)) (coef i i) with
    | none => (RET_DIV_BY_ZERO, a)
    | some q => backsolveTLoop coef nT b m (i+1) (updA a (nT-1-i) q)

/-- `backsolveT`, src/QProblem.cpp:4518-4564, for `nT` active constraints and `tcol = sizeT-nT`.  Right-hand side
and result are different arrays at all call sites. -/
def backsolveT (T : Nat → Nat → K) (sizeT nT : Nat) (b : Nat → K) (transposed : Bool) (a : Nat → K) :
    ReturnValue × (Nat → K) :=
  if transposed then backsolveTLoop (fun i j => T (nT-1-j) (sizeT - nT + i)) nT b nT 0 a
  else backsolveTLoop (fun i j => T i (sizeT-1-j)) nT b nT 0 a

end QpOASES
