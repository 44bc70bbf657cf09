import Verif.Model.SparseMatrix

/-!
The bundled replacement of LAPACK, src/LAPACKReplacement.cpp.  `DTRTRS` and `DTRCON` are dummies there and are
not modelled.
-/
namespace QpOASES

variable {K : Type} [Field K] [LinearOrder K] [IsStrictOrderedRing K]

/-- `for (k = n-1; k >= 0; --k) sum -= f(k);` -/
def subDown (f : Nat → K) : Nat → K → K
  | 0, s => s
  | n+1, s => subDown f n (s - f n)

/-- The elements right of the diagonal of row `i`, src/LAPACKReplacement.cpp:65-73. -/
def potrfRow (n lda i : Nat) (a : Nat → K) : Nat → K :=
  loopFrom (i+1) n (fun j a =>
    updA a (i + lda * j) (subDown (fun k => a (k + lda * i) * a (k + lda * j)) i (a (j * lda + i)) / a (i + lda * i))) a

/-- `DPOTRF`/`SPOTRF`, src/LAPACKReplacement.cpp:39-78: `m` rows left, starting with row `i`.  Returns
`*info` and the array. -/
def potrfFrom (sq : K → K) (n lda : Nat) : (m i : Nat) → (Nat → K) → Nat × (Nat → K)
  | 0, _, a => (0, a)
  | m+1, i, a =>
    let sum := subDown (fun k => a (k + lda * i) * a (k + lda * i)) i (a (i + lda * i))
    if sum > 0 then potrfFrom sq n lda m (i+1) (potrfRow n lda i (updA a (i + lda * i) (sq sum)))
    else (i+1, updA a 0 sum)

def potrf (sq : K → K) (n : Nat) (a : Nat → K) (lda : Nat) : Nat × (Nat → K) := potrfFrom sq n lda n 0 a

end QpOASES
