import Verif.Model.QProblem
import Verif.Model.Kkt

/-!
Post-processing of a solved QP with general constraints: `solveCurrentEQP` and `getFreeVariablesFlags` of src/QProblem.cpp and
`getVarianceCovariance` and `getKktViolation` of src/SolutionAnalysis.cpp.  Arrays of the caller are total functions.
-/
namespace QpOASES
open ReturnValue SubjectToStatus HessianType

variable {K : Type} [Field K] [LinearOrder K] [IsStrictOrderedRing K]

namespace QPC

/-- One block of the solution written by `solveCurrentEQP`, src/QProblem.cpp:762-765; `off` is the distance `x_out` has advanced. -/
def eqpWriteX (s : QPC K) (d : Dir K) (off : Nat) (x : Nat → K) : Nat → K :=
  let x := loop (fun j x => updA x (off + s.fx j) (d.xFX j)) s.nFX x
  loop (fun j x => updA x (off + s.fr j) (d.xFR j)) s.nFR x

/-- One block of the multipliers, src/QProblem.cpp:766-769 -/
def eqpWriteY (s : QPC K) (d : Dir K) (off : Nat) (y : Nat → K) : Nat → K :=
  let y := loop (fun j y => updA y (off + s.fx j) (d.yFX j)) s.nFX y
  loop (fun j y => updA y (off + (s.nV + s.ac j)) (d.yAC j)) s.nAC y

/-- The step direction for one right-hand side, src/QProblem.cpp:758-760.  The contents of the local arrays after a failing
`determineStepDirection` are unspecified: parameter `junk`. -/
def eqpSolve (s : QPC K) (junk : Dir K) (g lb ub lbA ubA : Nat → K) : Res (ReturnValue × Dir K) := do
  match ← s.determineStepDirection g lbA ubA lb ub false false with
  | .ok d => .ok (SUCCESSFUL_RETURN, d)
  | .error r => .ok (r, junk)

/-- The loop of `solveCurrentEQP`, src/QProblem.cpp:756-778: `m` right-hand sides left, the next one is `ii`; `r` is `returnvalue`. -/
def eqpLoop (s : QPC K) (junk : Nat → Dir K) (g lb ub lbA ubA : Nat → K) :
    (m ii : Nat) → (r : ReturnValue) → (x y : Nat → K) → Res (ReturnValue × (Nat → K) × (Nat → K))
  | 0, _, r, x, y => .ok (r, x, y)
  | m+1, ii, _, x, y => do
    let (r, d) ← s.eqpSolve (junk ii) (fun i => g (ii * s.nV + i)) (fun i => lb (ii * s.nV + i)) (fun i => ub (ii * s.nV + i))
      (fun i => lbA (ii * s.nC + i)) (fun i => ubA (ii * s.nC + i))
    eqpLoop s junk g lb ub lbA ubA m (ii+1) r (s.eqpWriteX d (ii * s.nV) x) (s.eqpWriteY d (ii * (s.nV + s.nC)) y)

/-- `solveCurrentEQP`, src/QProblem.cpp:718-787; `none` is a null pointer for a result. -/
def solveCurrentEQP (s : QPC K) (junk : Nat → Dir K) (nRhs : Int) (g lb ub lbA ubA : Nat → K) (xOut yOut : Option (Nat → K)) :
    Res (ReturnValue × Option (Nat → K) × Option (Nat → K)) :=
  match xOut, yOut with
  | some x, some y => do
    let n := nRhs.toNat
    let y := loop (fun i y => updA y i 0) ((s.nV + s.nC) * n) y
    let (r, x, y) ← s.eqpLoop junk g lb ub lbA ubA n 0 SUCCESSFUL_RETURN x y
    .ok (r, some x, some y)
  | _, _ => .ok (RET_INVALID_ARGUMENTS, xOut, yOut)

/-- `getFreeVariablesFlags`, src/QProblem.cpp:1058-1072 -/
def getFreeVariablesFlags (s : QPC K) (f : Nat → Bool) : ReturnValue × (Nat → Bool) :=
  let f := loop (fun i f => updA f i false) s.nV f
  (SUCCESSFUL_RETURN, loop (fun i f => updA f (s.fr i) true) s.nFR f)

/-- The reaction of the solution to the disturbance `v` of `(g, b, bA)`, src/SolutionAnalysis.cpp:362-379 and 432-449 -/
def reaction (s : QPC K) (v : Nat → K) : Res (Except ReturnValue (Dir K)) :=
  s.determineStepDirection v (fun k => v (2 * s.nV + k)) (fun k => v (2 * s.nV + k)) (fun i => v (s.nV + i)) (fun i => v (s.nV + i)) false false

/-- Storage of a reaction, src/SolutionAnalysis.cpp:404-416 and 474-486; `pos` is the place of a component. -/
def storeReaction (s : QPC K) (d : Dir K) (pos : Nat → Nat) (a : Nat → K) : Nat → K :=
  let a := loop (fun j a => updA a (pos (s.fr j)) (d.xFR j)) s.nFR a
  let a := loop (fun j a => updA (updA a (pos (s.fx j)) (d.xFX j)) (pos (s.nV + s.fx j)) (d.yFX j)) s.nFX a
  loop (fun j a => updA a (pos (2 * s.nV + s.ac j)) (d.yAC j)) s.nAC a

/-- One of the two loops over `run3`, src/SolutionAnalysis.cpp:359-418 and 429-488: `m` passes left; `src run3 i` is the `i`-th number loaded,
`pos run3 i` the place of the `i`-th number stored. -/
def reactionLoop (s : QPC K) (src : Nat → Nat → K) (pos : Nat → Nat → Nat) :
    (m run3 : Nat) → (a : Nat → K) → Res (ReturnValue × (Nat → K))
  | 0, _, a => .ok (SUCCESSFUL_RETURN, a)
  | m+1, run3, a => do
    match ← s.reaction (src run3) with
    | .error r => .ok (r, a)
    | .ok d => reactionLoop s src pos m (run3+1) (s.storeReaction d (pos run3) a)

/-- `SolutionAnalysis::getVarianceCovariance` for a `QProblem`, src/SolutionAnalysis.cpp:276-506: `V` is the covariance matrix of the data
`(g, b, bA)`, the result is written to `P`. -/
def getVarianceCovariance (s : QPC K) (V P : Nat → K) : Res (ReturnValue × (Nat → K)) := do
  let dim := 2 * s.nV + s.nC
  let C : Nat → K := loop (fun i a => updA a i 0) (dim * dim) fun _ => 0
  let P := loop (fun i a => updA a i 0) (dim * dim) P
  let (r, C) ← s.reactionLoop (fun run3 i => V (run3 * dim + i)) (fun run3 i => run3 * dim + i) dim 0 C
  if r ≠ SUCCESSFUL_RETURN then .ok (r, P) else
  s.reactionLoop (fun run3 i => C (run3 + i * dim)) (fun run3 i => run3 + i * dim) dim 0 P

/-- `SolutionAnalysis::getKktViolation` for a `QProblem`, src/SolutionAnalysis.cpp:166-247: the maximum and the three residuals. -/
def kktViolation (s : QPC K) : Res (K × Kkt K) := do
  let H ← s.toQPB.kktHessian
  let wB := (s.toQPB.getWorkingSetBounds (some fun _ => 0)).2
  let wC := (s.getWorkingSetConstraints (some fun _ => 0)).2
  let r := getKktViolation s.nV s.nC H (some s.g) (some fun q => s.A (q / s.nV) (q % s.nV)) (some s.lb) (some s.ub) (some s.lbA) (some s.ubA)
    s.x s.y wB wC (decide (s.hessianType = HST_IDENTITY))
  .ok (getMax (getMax (getMax 0 r.stat) r.feas) r.cmpl, r)

end QPC

/-- `SolutionAnalysis::getVarianceCovariance` for a `QProblemB`, src/SolutionAnalysis.cpp:265-270 -/
def QPB.getVarianceCovariance (_s : QPB K) (_V P : Nat → K) : ReturnValue × (Nat → K) := (RET_NOT_YET_IMPLEMENTED, P)

end QpOASES
