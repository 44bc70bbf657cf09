import Verif.Model.Numeric

/-!
`getNorm` and `normaliseConstraints` of src/Utils.cpp.  Arrays are total functions: all accesses are at
`ii*nV + jj` with `ii < nC`, `jj < nV`.
-/
namespace QpOASES
open ReturnValue

variable {K : Type} [Field K] [LinearOrder K] [IsStrictOrderedRing K]

/-- `getNorm`, src/Utils.cpp:603-625.  `sq` is `getSqrt`. -/
def getNorm (sq : K → K) (v : Nat → K) (n : Nat) (type : Int) : K :=
  if type = 2 then sq (sumTo (fun i => v i * v i) n)
  else if type = 1 then sumTo (fun i => getAbs (v i)) n
  else -INFTY

/-- The three arrays changed by `normaliseConstraints`; `none` is a null pointer. -/
structure NormState (K : Type) where
  A : Nat → K
  lbA : Option (Nat → K)
  ubA : Option (Nat → K)

/-- Loop body of `normaliseConstraints`, src/Utils.cpp:976-1005 -/
def normaliseRow (sq : K → K) (nV : Nat) (type : Int) (ii : Nat) (s : NormState K) : NormState K :=
  let curNorm := getNorm sq (fun j => s.A (ii*nV + j)) nV type
  if curNorm > EPS then
    { A := loop (fun jj A => updA A (ii*nV + jj) (A (ii*nV + jj) / curNorm)) nV s.A
      lbA := s.lbA.map fun l => updA l ii (l ii / curNorm)
      ubA := s.ubA.map fun u => updA u ii (u ii / curNorm) }
  else
    { A := if type = 1 then loop (fun jj A => updA A (ii*nV + jj) (1 / (nV : K))) nV s.A
           else loop (fun jj A => updA A (ii*nV + jj) (1 / sq (nV : K))) nV s.A
      lbA := s.lbA.map fun l => updA l ii (-INFTY)
      ubA := s.ubA.map fun u => updA u ii INFTY }

/-- `normaliseConstraints`, src/Utils.cpp:963-1009; `A = none` is a null pointer. -/
def normaliseConstraints (sq : K → K) (nV nC : Int) (A : Option (Nat → K)) (lbA ubA : Option (Nat → K))
    (type : Int) : ReturnValue × Option (NormState K) :=
  match A with
  | none => (RET_INVALID_ARGUMENTS, none)
  | some A =>
    if nV ≤ 0 ∨ nC ≤ 0 then (RET_INVALID_ARGUMENTS, some ⟨A, lbA, ubA⟩)
    else (SUCCESSFUL_RETURN, some (loop (normaliseRow sq nV.toNat type) nC.toNat ⟨A, lbA, ubA⟩))

end QpOASES
