import Verif.Model.QProblemB

/-!
`getKktViolation` of src/Utils.cpp and of src/SolutionAnalysis.cpp (bound-constrained QPs).  Arrays are total functions;
`none` is a null pointer.
-/
namespace QpOASES
open ReturnValue SubjectToStatus HessianType

section
variable {K : Type} [Field K] [LinearOrder K] [IsStrictOrderedRing K]

/-- `if (v > m) m = v;` -/
def raiseTo (m v : K) : K := if v > m then v else m

/-- `dualActiveTolerance`, src/Utils.cpp:640 -/
def dualActiveTolerance : K := 1000 * EPS

/-- The sum computed for variable `i` in the stationarity check, src/Utils.cpp:651-671 -/
def kktSum (nV nC : Nat) (H g A : Option (Nat → K)) (x y : Nat → K) (ident : Bool) (i : Nat) : K :=
  let sum := match g with
    | some g => g i - y i
    | none => 0 - y i
  let sum := match H with
    | some H => loop (fun j s => s + H (i*nV+j) * x j) nV sum
    | none => if ident then sum + x i else sum
  match A with
  | some A => loop (fun j s => s - A (j*nV+i) * y (nV+j)) nC sum
  | none => sum

/-- Feasibility check of one variable or constraint with value `v`, src/Utils.cpp:681-687 and 740-746 -/
def kktFeas (lo up : Option (Nat → K)) (v : K) (i : Nat) (feas : K) : K :=
  let feas := match lo with
    | some l => raiseTo feas (l i - v)
    | none => feas
  match up with
  | some u => raiseTo feas (v - u i)
  | none => feas

/-- `prod` of one variable or constraint with value `v` and multiplier `m`, src/Utils.cpp:691-730 and 749-778.  `ws` is the working
set, if given. -/
def kktProd (lo up ws : Option (Nat → K)) (v m : K) (i : Nat) : K :=
  let prod : K := 0
  let prod := match lo with
    | some l => (match ws with
      | none => if m > dualActiveTolerance then (v - l i) * m else prod
      | some w => if isEqual (w i) (-1) then (v - l i) * m else prod)
    | none => prod
  match up with
  | some u => (match ws with
    | none => if m < -dualActiveTolerance then (v - u i) * m else prod
    | some w => if isEqual (w i) 1 then (v - u i) * m else prod)
  | none => prod

/-- `sum = (A*x)_i`, src/Utils.cpp:734-737 -/
def kktRow (nV : Nat) (A : Option (Nat → K)) (x : Nat → K) (i : Nat) : K :=
  match A with
  | some A => loop (fun j s => s + A (i*nV+j) * x j) nV 0
  | none => 0

/-- The three residuals. -/
structure Kkt (K : Type) where
  stat : K
  feas : K
  cmpl : K
deriving DecidableEq

/-- `getKktViolation`, src/Utils.cpp:631-783; always returns `SUCCESSFUL_RETURN`. -/
def getKktViolation (nV nC : Nat) (H g A lb ub lbA ubA : Option (Nat → K)) (x y : Nat → K) (wB wC : Option (Nat → K)) (ident : Bool) :
    Kkt K :=
  let stat := loop (fun i m => raiseTo m (getAbs (kktSum nV nC H g A x y ident i))) nV 0
  let feas := loop (fun i m => kktFeas lb ub (x i) i m) nV 0
  let cmpl := loop (fun i m => raiseTo m (getAbs (kktProd lb ub wB (x i) (y i) i))) nV 0
  let feas := loop (fun i m => kktFeas lbA ubA (kktRow nV A x i) i m) nC feas
  let cmpl := loop (fun i m => raiseTo m (getAbs (kktProd lbA ubA wC (kktRow nV A x i) (y (nV+i)) i))) nC cmpl
  ⟨stat, feas, cmpl⟩

/-- The Hessian passed on by `SolutionAnalysis::getKktViolation`, src/SolutionAnalysis.cpp:103-121 -/
def QPB.kktHessian (s : QPB K) : Res (Option (Nat → K)) :=
  match s.hessianType with
  | HST_ZERO => .ok none
  | HST_IDENTITY => .ok none
  | _ => do
    let H ← s.getH
    .ok (some fun q => if s.usingRegularisation = true ∧ q / s.nV = q % s.nV then H (q / s.nV) (q % s.nV) - s.regVal
      else H (q / s.nV) (q % s.nV))

/-- `SolutionAnalysis::getKktViolation` for a `QProblemB`, src/SolutionAnalysis.cpp:93-151: the maximum and the three residuals. -/
def QPB.kktViolation (s : QPB K) : Res (K × Kkt K) := do
  let H ← s.kktHessian
  let wB := (s.getWorkingSetBounds (some fun _ => 0)).2
  let r := getKktViolation s.nV 0 H (some s.g) none (some s.lb) (some s.ub) none none s.x s.y wB none (decide (s.hessianType = HST_IDENTITY))
  .ok (getMax (getMax (getMax 0 r.stat) r.feas) r.cmpl, r)

end
end QpOASES
