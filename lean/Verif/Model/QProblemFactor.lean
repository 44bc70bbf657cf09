import Verif.Model.QProblemB

/-!
`QProblem`, first part: the TQ factorisation and the Cholesky factor of the projected Hessian, step direction,
tests for linear independence and for curvature, adding and removing bounds and constraints.
src/QProblem.cpp, include/qpOASES/QProblem.ipp.

Conventions as in `Verif.Model.QProblemB`.  The constraint matrix is given by its entries, its methods are replaced by what
they are proved to compute (C14-C22); the case of a matrix pointer that has never been set is not modelled (`init`
refuses it, src/QProblem.cpp:5834-5835, 5865-5866).  `Q i j` is `QQ(i,j)`, `T i j` is `TT(i,j)`.  `constraintProduct` is null.  Temporary members
(`tempA`, `tempB`, `delta_xFRy`, …) are always written before they are read and are local here.  `getNZ( )` is
`nFR - nAC` on integers; here the difference of natural numbers, as no more constraints can be active than variables are
free.
-/
namespace QpOASES
open SubjectToStatus SubjectToType ReturnValue HessianType QProblemStatus

namespace WS

/-- `Bounds::swapFree`, src/Bounds.cpp:249-258: exchanges two numbers in the list of free variables. -/
def swapFree (w : WS) (a b : Nat) : WS :=
  { w with free := w.free.map fun i => if i = a then b else if i = b then a else i }

end WS

/-- Data members of `QProblem`, include/qpOASES/QProblem.hpp; `y` has `nV+nC` elements.  `cons.free` lists the inactive
and `cons.fixed` the active constraints.  `flipC` is the content saved by the flipper. -/
structure QPC (K : Type) extends QPB K where
  nC : Nat
  cons : WS
  A : Nat → Nat → K
  lbA : Nat → K
  ubA : Nat → K
  Ax : Nat → K
  Axl : Nat → K
  Axu : Nat → K
  T : Nat → Nat → K
  Q : Nat → Nat → K
  sizeT : Nat
  flipC : Option (WS × (Nat → Nat → K) × WS × (Nat → Nat → K) × (Nat → Nat → K))

namespace QPC

section
variable {K : Type} [Field K] [LinearOrder K] [IsStrictOrderedRing K]

/-- `getNFR`, `getNFX`, `getNAC`, `getNIAC`, `getNZ`, src/QProblem.cpp:849-852 -/
def nFR (s : QPC K) : Nat := s.bounds.nFR
def nFX (s : QPC K) : Nat := s.bounds.nFX
def nAC (s : QPC K) : Nat := s.cons.nFX
def nIAC (s : QPC K) : Nat := s.cons.nFR
def nZ (s : QPC K) : Nat := s.nFR - s.nAC
/-- `FR_idx[i]`, `FX_idx[i]`, `AC_idx[i]`, `IAC_idx[i]` -/
def fr (s : QPC K) (i : Nat) : Nat := s.bounds.fr i
def fx (s : QPC K) (i : Nat) : Nat := s.bounds.fx i
def ac (s : QPC K) (i : Nat) : Nat := s.cons.fx i
def iac (s : QPC K) (i : Nat) : Nat := s.cons.fr i

/-- The Hessian neither zero nor the identity: `H` is used and `R` is kept up to date. -/
def general (s : QPC K) : Bool := s.hessianType != HST_ZERO && s.hessianType != HST_IDENTITY

/-- Rotation of columns `a` (first argument of `applyGivens`) and `b` in the rows satisfying `p` -/
def rotCols (p : Nat → Bool) (c s : K) (a b : Nat) (M : Nat → Nat → K) : Nat → Nat → K :=
  fun r j =>
    if p r then
      if j = a then (applyGivens c s (M r a) (M r b)).1
      else if j = b then (applyGivens c s (M r a) (M r b)).2
      else M r j
    else M r j

/-- What the sweep over the null space columns changes: the transformed row, `Q` and `R` -/
structure Sweep (K : Type) where
  w : Nat → K
  Q : Nat → Nat → K
  R : Nat → Nat → K

/-- Rotation `j` of the sweep, src/QProblem.cpp:2926-2941 and 3395-3409: columns `j+1` and `j`.  `free`: rows of `Q`
to be rotated; `upd`: also update `R`. -/
def sweepStep (sq : K → K) (free : Nat → Bool) (upd : Bool) (j : Nat) (t : Sweep K) : Sweep K :=
  let p := computeGivens sq (t.w (j+1)) (t.w j)
  { w := updA (updA t.w (j+1) p.1) j p.2.1
    Q := rotCols free p.2.2.1 p.2.2.2 (j+1) j t.Q
    R := if upd then rotCols (fun i => decide (i ≤ j+1)) p.2.2.1 p.2.2.2 (j+1) j t.R else t.R }

/-- `for( j=0; j<nZ-1; ++j )` over the rotations -/
def sweep (sq : K → K) (free : Nat → Bool) (upd : Bool) (nZ : Nat) (t : Sweep K) : Sweep K :=
  loop (sweepStep sq free upd) (nZ - 1) t

/-- Rotation `i` restoring the triangular form of `R`, src/QProblem.cpp:2953-2958, 3463-3467: rows `i` and `i+1`;
the last column is left out. -/
def restoreStep (sq : K → K) (nZ : Nat) (i : Nat) (R : Nat → Nat → K) : Nat → Nat → K :=
  let p := computeGivens sq (R i i) (R (i+1) i)
  fun r j =>
    if j = i then (if r = i then p.1 else if r = i+1 then p.2.1 else R r j)
    else if i < j ∧ j < nZ - 1 then
      (if r = i then (applyGivens p.2.2.1 p.2.2.2 (R i j) (R (i+1) j)).1
       else if r = i+1 then (applyGivens p.2.2.1 p.2.2.2 (R i j) (R (i+1) j)).2 else R r j)
    else R r j

/-- Restoring the triangular form of `R` and dropping its last column, src/QProblem.cpp:2951-2962, 3461-3471 -/
def restoreR (sq : K → K) (nZ : Nat) (R : Nat → Nat → K) : Nat → Nat → K :=
  let R := loop (restoreStep sq nZ) (nZ - 1) R
  fun i j => if i < nZ ∧ j + 1 = nZ then 0 else R i j

/-- Membership in the list of free variables -/
def isFree (s : QPC K) (i : Nat) : Bool := s.bounds.free.contains i

/-- Parts II to IV of `addConstraint`, src/QProblem.cpp:2871-2974. -/
def addConstraintUpdate (sq : K → K) (s : QPC K) (number : Nat) (st : SubjectToStatus) (updateCholesky : Bool) :
    Res (ReturnValue × QPC K) :=
  let nFR := s.nFR
  let nAC := s.nAC
  let nZ := s.nZ
  let tcol := s.sizeT - nAC
  if (0 < nAC ∨ 0 < nZ) ∧ s.sizeT ≤ nAC then .ub .outOfBounds
  else
    let prod : Nat → K := fun j => sumTo (fun i => s.A number (s.fr i) * s.Q (s.fr i) j) nFR
    let T1 : Nat → Nat → K := fun r c => if r = nAC ∧ tcol ≤ c ∧ c < tcol + nAC then prod (nZ + (c - tcol)) else s.T r c
    let upd := updateCholesky && s.general
    let s := if 0 < nZ then
        let t := sweep sq s.isFree upd nZ ⟨prod, s.Q, s.R⟩
        { s with
          T := fun r c => if r = nAC ∧ c + 1 = tcol then t.w (nZ - 1) else T1 r c
          Q := t.Q
          R := if upd then restoreR sq nZ t.R else t.R }
      else { s with T := T1 }
    .ok (SUCCESSFUL_RETURN, { s with cons := s.cons.moveFreeToFixed number st })

/-- Rotation `j` of the part of `addBound` that changes `T`, src/QProblem.cpp:3421-3447 (the first rotation is the case
`j = nZ-1`); `(w, Q, T, tmp)`. -/
def boundSweepStep (sq : K → K) (free : Nat → Bool) (nFR nAC nZ tcol : Nat) (j : Nat)
    (t : (Nat → K) × (Nat → Nat → K) × (Nat → Nat → K) × (Nat → K)) :
    (Nat → K) × (Nat → Nat → K) × (Nat → Nat → K) × (Nat → K) :=
  let p := computeGivens sq (t.1 (j+1)) (t.1 j)
  let T := t.2.2.1
  let tmp := t.2.2.2
  let col := tcol + (j + 1 - nZ)
  (updA (updA t.1 (j+1) p.1) j p.2.1,
   rotCols free p.2.2.1 p.2.2.2 (j+1) j t.2.1,
   fun i c => if c = col ∧ nFR - 2 - j ≤ i ∧ i < nAC then (applyGivens p.2.2.1 p.2.2.2 (T i col) (tmp i)).2 else T i c,
   fun i => if nFR - 2 - j ≤ i ∧ i < nAC then (applyGivens p.2.2.1 p.2.2.2 (T i col) (tmp i)).1 else tmp i)

/-- Parts II to V of `addBound`, src/QProblem.cpp:3360-3480. -/
def addBoundUpdate (sq : K → K) (s : QPC K) (number : Nat) (st : SubjectToStatus) (updateCholesky : Bool) :
    Res (ReturnValue × QPC K) :=
  let nFR := s.nFR
  let nAC := s.nAC
  let nZ := s.nZ
  let tcol := s.sizeT - nAC
  if nFR = 0 ∨ (0 < nAC ∧ nZ = 0) then .ub .outOfBounds
  else
    let last := s.fr (nFR - 1)
    let s := if last ≠ number then { s with bounds := s.bounds.swapFree number last } else s
    let upd := updateCholesky && s.general
    let t := sweep sq s.isFree upd nZ ⟨fun i => s.Q (s.fr (nFR - 1)) i, s.Q, s.R⟩
    let s := if 0 < nAC then
        let u := loopFrom (nZ - 1) (nFR - 1) (boundSweepStep sq s.isFree nFR nAC nZ tcol) (t.w, t.Q, s.T, fun _ => 0)
        { s with Q := u.2.1, T := u.2.2.1 }
      else { s with Q := t.Q }
    let s := { s with R := if upd then restoreR sq nZ t.R else t.R }
    .ok (SUCCESSFUL_RETURN, { s with bounds := s.bounds.moveFreeToFixed number st })

/-- Statuses in which working set changes are refused -/
def noChanges (s : QPC K) : Bool :=
  s.status == QPS_NOTINITIALISED || s.status == QPS_AUXILIARYQPSOLVED || s.status == QPS_HOMOTOPYQPSOLVED || s.status == QPS_SOLVED

/-- Consistency checks of `addConstraint`, src/QProblem.cpp:2826-2839 -/
def addConstraintCheck (s : QPC K) (number : Nat) : Option ReturnValue :=
  if s.cons.getStatus number ≠ ST_INACTIVE then some RET_CONSTRAINT_ALREADY_ACTIVE
  else if (s.cons.n : Int) - s.nAC = s.cons.nUV then some RET_ALL_CONSTRAINTS_ACTIVE
  else if s.noChanges then some RET_UNKNOWN_BUG
  else none

/-- Consistency checks of `addBound`, src/QProblem.cpp:3314-3327 -/
def addBoundCheck (s : QPC K) (number : Nat) : Option ReturnValue :=
  if s.bounds.getStatus number ≠ ST_INACTIVE then some RET_BOUND_ALREADY_ACTIVE
  else if s.nFR = s.bounds.nUV then some RET_ALL_BOUNDS_ACTIVE
  else if s.noChanges then some RET_UNKNOWN_BUG
  else none

/-- `addConstraint( number,C_status,updateCholesky,BT_FALSE )`, and with `updateCholesky == BT_FALSE`: no test for linear
independence -/
def addConstraintPlain (sq : K → K) (s : QPC K) (number : Nat) (st : SubjectToStatus) (updateCholesky : Bool) :
    Res (ReturnValue × QPC K) :=
  match s.addConstraintCheck number with
  | some r => .ok (r, s)
  | none => addConstraintUpdate sq s number st updateCholesky

/-- `addBound` without test for linear independence -/
def addBoundPlain (sq : K → K) (s : QPC K) (number : Nat) (st : SubjectToStatus) (updateCholesky : Bool) :
    Res (ReturnValue × QPC K) :=
  match s.addBoundCheck number with
  | some r => .ok (r, s)
  | none => addBoundUpdate sq s number st updateCholesky

/-- Step direction: `delta_xFX`, `delta_xFR`, `delta_yAC`, `delta_yFX`, by position in the index lists. -/
structure Dir (K : Type) where
  xFX : Nat → K
  xFR : Nat → K
  yAC : Nat → K
  yFX : Nat → K

/-- The null space part of a refinement step, src/QProblem.cpp:4745-4797: `delta_xFRz` for the residual `rg`
(`tempA`, here with the additions of lines 4776-4781). -/
def stepZ (s : QPC K) (rg : Nat → K) : Res (Except ReturnValue (Nat → K)) :=
  let nZ := s.nZ
  let z : Nat → K := fun i => -sumTo (fun j => s.Q (s.fr j) i * rg j) s.nFR
  match s.hessianType with
  | HST_IDENTITY => .ok (.ok z)
  | HST_ZERO =>
    if s.usingRegularisation then .ok (.ok fun i => z i / s.regVal)
    else if 0 < nZ then .ok (.error RET_UNKNOWN_BUG) else .ok (.ok z)
  | _ =>
    if 0 < nZ then do
      let (r, z) ← backsolveR s.R nZ none true z
      if r ≠ SUCCESSFUL_RETURN then .ok (.error RET_STEPDIRECTION_FAILED_CHOLESKY) else do
      let (r, z) ← backsolveR s.R nZ none false z
      if r ≠ SUCCESSFUL_RETURN then .ok (.error RET_STEPDIRECTION_FAILED_CHOLESKY) else
      .ok (.ok z)
    else .ok (.ok z)

/-- Right-hand side for the multipliers in a refinement step, src/QProblem.cpp:4820-4872: `xy` is `delta_xFRy`, `zz` is
`ZFR_delta_xFRz`. -/
def rhsY (s : QPC K) (H : Nat → Nat → K) (rg xy zz : Nat → K) : Nat → K :=
  let nFR := s.nFR
  let nZ := s.nZ
  let yq := fun (v : Nat → K) (j : Nat) => sumTo (fun i => s.Q (s.fr i) (nZ + j) * v i) nFR
  match s.hessianType with
  | HST_IDENTITY => fun j => xy j + yq rg j
  | HST_ZERO => fun j => (if s.usingRegularisation then s.regVal * xy j else 0) + yq rg j
  | _ => yq fun i => if 0 < nZ then rg i + sumTo (fun k => H (s.fr i) (s.fr k) * zz k) nFR else rg i

/-- The range space part of a refinement step, src/QProblem.cpp:4717-4741: `delta_xFRy` for the residual `rb` (`tempB`, with the
addition of line 4729). -/
def stepY (s : QPC K) (skip : Bool) (rb : Nat → K) : Except ReturnValue (Nat → K) :=
  if 0 < s.nAC ∧ skip = false then
    match backsolveT s.T s.sizeT s.nAC rb false (fun _ => 0) with
    | (r, xy) => if r ≠ SUCCESSFUL_RETURN then .error RET_STEPDIRECTION_FAILED_TQ else .ok xy
  else .ok fun _ => 0

/-- The multipliers in a refinement step, src/QProblem.cpp:4818-4876 -/
def stepDual (s : QPC K) (rhs : Nat → K) : Except ReturnValue (Nat → K) :=
  if 0 < s.nAC then
    match backsolveT s.T s.sizeT s.nAC rhs true (fun _ => 0) with
    | (r, dy) => if r ≠ SUCCESSFUL_RETURN then .error RET_STEPDIRECTION_FAILED_TQ else .ok dy
  else .ok fun _ => 0

/-- One refinement step, src/QProblem.cpp:4710-4876: from the residuals `rg` (`tempA`) and `rb` (`tempB`) to
`(delta_xFR_TMP, delta_yAC_TMP)`.  `bC`, `bB`: `Delta_bC_isZero`, `Delta_bB_isZero`; `first`: `r == 0`. -/
def pass (s : QPC K) (H : Nat → Nat → K) (bC bB first : Bool) (dxFX rg rb : Nat → K) :
    Res (Except ReturnValue ((Nat → K) × (Nat → K))) :=
  let nFR := s.nFR
  let nFX := s.nFX
  let nAC := s.nAC
  let nZ := s.nZ
  let rb := if bB = false ∧ first = true then fun i => rb i - sumTo (fun k => s.A (s.ac i) (s.fx k) * dxFX k) nFX else rb
  match s.stepY (bC && bB) rb with
  | .error r => .ok (.error r)
  | .ok xy =>
    let ty : Nat → K := fun i => sumTo (fun j => s.Q (s.fr i) (nZ + j) * xy j) nAC
    let rg := if s.general ∧ bB = false ∧ first = true then
        fun i => rg i + sumTo (fun k => H (s.fr i) (s.fx k) * dxFX k) nFX else rg
    let rg := if s.general ∧ 0 < nAC ∧ (bC = false ∨ bB = false) then
        fun i => rg i + sumTo (fun k => H (s.fr i) (s.fr k) * ty k) nFR else rg
    if nFR = 0 then .ok (.ok (fun _ => 0, fun _ => 0)) else do
    match ← s.stepZ rg with
    | .error r => .ok (.error r)
    | .ok z =>
      let zz : Nat → K := fun i => sumTo (fun j => s.Q (s.fr i) j * z j) nZ
      match s.stepDual (s.rhsY H rg xy zz) with
      | .error r => .ok (.error r)
      | .ok dy => .ok (.ok (fun i => ty i + zz i, dy))

/-- Residual of the stationarity condition, src/QProblem.cpp:4887-4912 -/
def residualG (s : QPC K) (H : Nat → Nat → K) (dg dxFX dxFR dyAC : Nat → K) (i : Nat) : K :=
  let h : K := match s.hessianType with
    | HST_ZERO => if s.usingRegularisation then s.regVal * dxFR i else 0
    | HST_IDENTITY => dxFR i
    | _ => sumTo (fun k => H (s.fr i) (s.fr k) * dxFR k) s.nFR + sumTo (fun k => H (s.fr i) (s.fx k) * dxFX k) s.nFX
  dg (s.fr i) + h - sumTo (fun k => s.A (s.ac k) (s.fr i) * dyAC k) s.nAC

/-- Residual of the active constraints, src/QProblem.cpp:4918-4935 -/
def residualB (s : QPC K) (b dxFX dxFR : Nat → K) (i : Nat) : K :=
  b i - sumTo (fun k => s.A (s.ac i) (s.fr k) * dxFR k) s.nFR - sumTo (fun k => s.A (s.ac i) (s.fx k) * dxFX k) s.nFX

/-- The refinement loop of `determineStepDirection`, src/QProblem.cpp:4708-4944: `m` steps left; `d`, `dy` are
`delta_xFR`, `delta_yAC`; `b` is the shift of the active limits. -/
def refine (s : QPC K) (H : Nat → Nat → K) (bC bB : Bool) (dg b dxFX : Nat → K) :
    (m : Nat) → (first : Bool) → (rg rb d dy : Nat → K) → Res (Except ReturnValue ((Nat → K) × (Nat → K)))
  | 0, _, _, _, d, dy => .ok (.ok (d, dy))
  | m+1, first, rg, rb, d, dy => do
    match ← s.pass H bC bB first dxFX rg rb with
    | .error r => .ok (.error r)
    | .ok p =>
      let d := fun i => d i + p.1 i
      let dy := fun i => dy i + p.2 i
      if s.options.numRefinementSteps > 0 then
        let rg := s.residualG H dg dxFX d dy
        let rb := s.residualB b dxFX d
        let rnrm := getMax (QPB.maxAbs rg s.nFR) (QPB.maxAbs rb s.nAC)
        if rnrm < s.options.epsIterRef then .ok (.ok (d, dy)) else refine s H bC bB dg b dxFX m false rg rb d dy
      else refine s H bC bB dg b dxFX m false rg rb d dy

/-- `delta_xFX`, src/QProblem.cpp:4660-4677 -/
def dirFX (s : QPC K) (dlb dub : Nat → K) (bB : Bool) (i : Nat) : K :=
  if bB then 0 else if s.bounds.getStatus (s.fx i) = ST_LOWER then dlb (s.fx i) else dub (s.fx i)

/-- Shift of the limits of the active constraints, src/QProblem.cpp:4690-4705 -/
def shiftAC (s : QPC K) (dlbA dubA : Nat → K) (bC : Bool) (i : Nat) : K :=
  if bC then 0 else if s.cons.getStatus (s.ac i) = ST_LOWER then dlbA (s.ac i) else dubA (s.ac i)

/-- `delta_yFX`, src/QProblem.cpp:4948-4972 -/
def dirYFX (s : QPC K) (H : Nat → Nat → K) (dg dxFX dxFR dyAC : Nat → K) (i : Nat) : K :=
  let h : K := match s.hessianType with
    | HST_ZERO => if s.usingRegularisation then s.regVal * dxFX i else 0
    | HST_IDENTITY => dxFX i
    | _ => sumTo (fun k => H (s.fx i) (s.fr k) * dxFR k) s.nFR + sumTo (fun k => H (s.fx i) (s.fx k) * dxFX k) s.nFX
  dg (s.fx i) - sumTo (fun k => s.A (s.ac k) (s.fx i) * dyAC k) s.nAC + h

/-- `H` where it is used -/
def getHess (s : QPC K) : Res (Nat → Nat → K) := if s.general then s.getH else .ok fun _ _ => 0

/-- `determineStepDirection`, src/QProblem.cpp:4637-4975 -/
def determineStepDirection (s : QPC K) (dg dlbA dubA dlb dub : Nat → K) (bC bB : Bool) : Res (Except ReturnValue (Dir K)) := do
  let H ← s.getHess
  let dxFX := s.dirFX dlb dub bB
  let b := s.shiftAC dlbA dubA bC
  match ← s.refine H bC bB dg b dxFX (s.options.numRefinementSteps + 1).toNat true (fun i => dg (s.fr i)) b (fun _ => 0) (fun _ => 0) with
  | .error r => .ok (.error r)
  | .ok p => .ok (.ok ⟨dxFX, p.1, p.2, s.dirYFX H dg dxFX p.1 p.2⟩)

/-- `performPlainRatioTest`, src/QProblem.cpp:4256-4275: the rest of the index list starting at position `i`; the divisor
is positive if `epsDen` is nonnegative. -/
def plainRatioTest (num den : Nat → K) (epsNum epsDen : K) : (idx : List Nat) → (i : Nat) → (t : K) → (bc : Option Nat) →
    Res (K × Option Nat)
  | [], _, t, bc => .ok (t, bc)
  | ii :: idx, i, t, bc =>
    if num i > epsNum ∧ den i > epsDen ∧ t * den i > num i then do
      let q ← cdiv (num i) (den i)
      plainRatioTest num den epsNum epsDen idx (i+1) q (some ii)
    else plainRatioTest num den epsNum epsDen idx (i+1) t bc

/-- Bound or constraint, index, status -/
structure Change where
  isBound : Bool
  idx : Nat
  st : SubjectToStatus

/-- The four ratio tests of `ensureNonzeroCurvature`, src/QProblem.cpp:4380-4476: step length and exchange. -/
def curvatureTests (s : QPC K) (remBound : Bool) (remIdx : Nat) (d : Dir K) : Res (K × Option Change) := do
  let o := s.options
  let J := o.maxPrimalJump
  let (tU, bU) ← plainRatioTest (fun i => s.ub (s.fr i) - s.x (s.fr i)) d.xFR o.epsNum o.epsDen s.bounds.free 0 J none
  let (tU, bU) ← if remBound = true ∧ s.bounds.getStatus remIdx = ST_LOWER then
      plainRatioTest (fun _ => s.ub remIdx - s.x remIdx) (fun _ => 1) o.epsNum o.epsDen [remIdx] 0 tU bU else .ok (tU, bU)
  let (tL, bL) ← plainRatioTest (fun i => s.x (s.fr i) - s.lb (s.fr i)) (fun i => -d.xFR i) o.epsNum o.epsDen s.bounds.free 0 J none
  let (tL, bL) ← if remBound = true ∧ s.bounds.getStatus remIdx = ST_UPPER then
      plainRatioTest (fun _ => s.x remIdx - s.lb remIdx) (fun _ => 1) o.epsNum o.epsDen [remIdx] 0 tL bL else .ok (tL, bL)
  let As : Nat → K := fun i => sumTo (fun k => s.A (s.iac i) (s.fx k) * d.xFX k) s.nFX + sumTo (fun k => s.A (s.iac i) (s.fr k) * d.xFR k) s.nFR
  let (tCU, bCU) ← plainRatioTest (fun i => s.Axu (s.iac i)) As o.epsNum o.epsDen s.cons.free 0 J none
  let (tCU, bCU) ← if remBound = false ∧ s.cons.getStatus remIdx = ST_LOWER then
      plainRatioTest (fun _ => s.Axu remIdx) (fun _ => 1) o.epsNum o.epsDen [remIdx] 0 tCU bCU else .ok (tCU, bCU)
  let (tCL, bCL) ← plainRatioTest (fun i => s.Axl (s.iac i)) (fun i => -As i) o.epsNum o.epsDen s.cons.free 0 J none
  let (tCL, bCL) ← if remBound = false ∧ s.cons.getStatus remIdx = ST_UPPER then
      plainRatioTest (fun _ => s.Axl remIdx) (fun _ => 1) o.epsNum o.epsDen [remIdx] 0 tCL bCL else .ok (tCL, bCL)
  let p : K × Option Change := (J, none)
  let p := if tCU < p.1 then (tCU, bCU.map fun k => ⟨false, k, ST_UPPER⟩) else p
  let p := if tCL < p.1 then (tCL, bCL.map fun k => ⟨false, k, ST_LOWER⟩) else p
  let p := if tU < p.1 then (tU, bU.map fun k => ⟨true, k, ST_UPPER⟩) else p
  let p := if tL < p.1 then (tL, bL.map fun k => ⟨true, k, ST_LOWER⟩) else p
  .ok p

/-- `A*x`, element `i` -/
def prodA (s : QPC K) (x : Nat → K) (i : Nat) : K := sumTo (fun j => s.A i j * x j) s.nV

/-- `v[idx[i]] += t*d[i]` -/
def addAt (t : K) (d : Nat → K) (idx : List Nat) (v : Nat → K) : Nat → K := QPB.addAt t d idx 0 v

/-- Largest absolute value of the four parts of a step direction, src/QProblem.cpp:4350-4374 -/
def Dir.normY (s : QPC K) (d : Dir K) : K := getMax (QPB.maxAbs d.yAC s.nAC) (QPB.maxAbs d.yFX s.nFX)
def Dir.normX (s : QPC K) (d : Dir K) : K := getMax (QPB.maxAbs d.xFX s.nFX) (QPB.maxAbs d.xFR s.nFR)

/-- Moving along a direction of zero curvature, src/QProblem.cpp:4484-4494 -/
def jump (s : QPC K) (d : Dir K) (sigma : K) : QPC K :=
  let x := addAt sigma d.xFX s.bounds.fixed (addAt sigma d.xFR s.bounds.free s.x)
  let Ax := fun i => if i < s.nC then s.prodA x i else s.Ax i
  { s with
    x := x
    Ax := Ax
    Axu := fun i => if i < s.nC then s.ubA i - Ax i else s.Axu i
    Axl := fun i => if i < s.nC then Ax i - s.lbA i else s.Axl i }

/-- `ensureNonzeroCurvature`, src/QProblem.cpp:4278-4511.  A failing `determineStepDirection` leaves arrays of the caller
unset, which are read afterwards. -/
def ensureNonzeroCurvature (s : QPC K) (remBound : Bool) (remIdx : Nat) : Res (ReturnValue × QPC K × Option Change) := do
  let nul : Nat → K := fun _ => 0
  let e ← if remBound then
      let ek := updA nul remIdx (if s.bounds.getStatus remIdx = ST_LOWER then 1 else -1)
      s.determineStepDirection nul nul nul ek ek false false
    else
      let ek := updA nul remIdx (if s.cons.getStatus remIdx = ST_LOWER then 1 else -1)
      s.determineStepDirection nul ek ek nul nul false true
  match e with
  | .error _ => .ub .uninitialised
  | .ok d =>
    if Dir.normY s d < s.options.epsNZCTests * Dir.normX s d then do
      let (sigma, c) ← s.curvatureTests remBound remIdx d
      if sigma ≥ s.options.maxPrimalJump then .ok (RET_HOTSTART_STOPPED_UNBOUNDEDNESS, { s with unbounded := true }, none)
      else .ok (SUCCESSFUL_RETURN, s.jump d sigma, c)
    else .ok (SUCCESSFUL_RETURN, s, none)

/-- Adding the member found by `ensureNonzeroCurvature`; the result is ignored, src/QProblem.cpp:3999-4008, 4238-4247 -/
def exchange (sq : K → K) (s : QPC K) (c : Change) : Res (QPC K) := do
  let (_, s) ← if c.isBound then addBoundPlain sq s c.idx c.st true else addConstraintPlain sq s c.idx c.st true
  .ok s

/-- `flipper.set`, src/QProblem.cpp:3838, 4063 -/
def saveFlip (s : QPC K) : QPC K := { s with flipC := some (s.bounds, s.R, s.cons, s.Q, s.T) }

/-- `flipper.get`, src/QProblem.cpp:3946, 4198; nothing is copied if nothing has been saved -/
def restoreFlip (s : QPC K) : QPC K :=
  match s.flipC with
  | some (b, R, c, Q, T) => { s with bounds := b, R := R, cons := c, Q := Q, T := T }
  | none => s

/-- Rotation restoring the triangular form of `T` in `removeConstraint`, src/QProblem.cpp:3858-3870, for
`j = nAC-2-k` (`k` from `number_idx` upwards): `(T, Q)`. -/
def removeStep (sq : K → K) (free : Nat → Bool) (nAC nZ tcol : Nat) (k : Nat) (t : (Nat → Nat → K) × (Nat → Nat → K)) :
    (Nat → Nat → K) × (Nat → Nat → K) :=
  let j := nAC - 2 - k
  let T := t.1
  let p := computeGivens sq (T k (tcol + 1 + j)) (T k (tcol + j))
  let T1 : Nat → Nat → K := fun i c =>
    if i = k then (if c = tcol + 1 + j then p.1 else if c = tcol + j then p.2.1 else T i c) else T i c
  (rotCols (fun i => decide (nAC - j - 1 ≤ i ∧ i < nAC - 1)) p.2.2.1 p.2.2.2 (tcol + 1 + j) (tcol + j) T1,
   rotCols free p.2.2.1 p.2.2.2 (nZ + 1 + j) (nZ + j) t.2)

/-- Parts I and II of `removeConstraint`, src/QProblem.cpp:3840-3879: `(T, Q)`. -/
def removeRow (sq : K → K) (s : QPC K) (k : Nat) : (Nat → Nat → K) × (Nat → Nat → K) :=
  let nAC := s.nAC
  let tcol := s.sizeT - nAC
  let T1 : Nat → Nat → K := fun i c =>
    if k ≤ i ∧ i + 1 < nAC ∧ tcol + (nAC - 2 - i) ≤ c ∧ c < tcol + nAC then s.T (i+1) c else s.T i c
  let T2 : Nat → Nat → K := fun i c => if i + 1 = nAC ∧ tcol ≤ c ∧ c < tcol + nAC then 0 else T1 i c
  loopFrom k (nAC - 1) (removeStep sq s.isFree nAC s.nZ tcol) (T2, s.Q)

/-- Setting the new diagonal element of `R` when a member has left the working set, src/QProblem.cpp:3938-3981, 4189-4230.
`none`: flip back. -/
def newDiag (sq : K → K) (s : QPC K) (nZ : Nat) (rho2 : K) (allowFlipping exchanged : Bool) : Option (ReturnValue × QPC K) :=
  let set := fun (v : K) => { s with R := fun i j => if i = nZ ∧ j = nZ then v else s.R i j }
  if s.options.enableFlippingBounds = true ∧ allowFlipping = true ∧ exchanged = false then
    if rho2 > s.options.epsFlipping then some (SUCCESSFUL_RETURN, set (sq rho2)) else none
  else if exchanged = false then
    if rho2 > ZERO then some (SUCCESSFUL_RETURN, set (sq rho2))
    else if allowFlipping = false then some (SUCCESSFUL_RETURN, set (100 * EPS))
    else some (RET_HESSIAN_NOT_SPD, { s with hessianType := HST_SEMIDEF })
  else some (SUCCESSFUL_RETURN, s)

/-- Flipping a constraint, src/QProblem.cpp:3944-3961 -/
def flipConstraint (s : QPC K) (number : Nat) : ReturnValue × QPC K :=
  let s := restoreFlip { s with hessianType := HST_SEMIDEF }
  let s := { s with cons := s.cons.flipFixed number }
  match s.cons.getStatus number with
  | ST_LOWER => (SUCCESSFUL_RETURN, { s with lbA := updA s.lbA number (s.ubA number), Axl := updA s.Axl number (-s.Axu number) })
  | ST_UPPER => (SUCCESSFUL_RETURN, { s with ubA := updA s.ubA number (s.lbA number), Axu := updA s.Axu number (-s.Axl number) })
  | _ => (RET_MOVING_BOUND_FAILED, s)

/-- Flipping a bound, src/QProblem.cpp:4195-4212 -/
def flipBound (s : QPC K) (number : Nat) : ReturnValue × QPC K :=
  let s := restoreFlip { s with hessianType := if s.hessianType ≠ HST_ZERO then HST_SEMIDEF else s.hessianType }
  let s := { s with bounds := s.bounds.flipFixed number }
  match s.bounds.getStatus number with
  | ST_LOWER => (SUCCESSFUL_RETURN, { s with lb := updA s.lb number (s.ub number) })
  | ST_UPPER => (SUCCESSFUL_RETURN, { s with ub := updA s.ub number (s.lb number) })
  | _ => (RET_MOVING_BOUND_FAILED, s)

/-- New column of `R` when a constraint has been removed, src/QProblem.cpp:3887-3936: `none` if a triangular solve fails, otherwise the
column and `rho2`. -/
def newColumnC (s : QPC K) : Res (Option ((Nat → K) × K)) := do
  let H ← s.getH
  let nFR := s.nFR
  let nZ := s.nZ
  let Hz : Nat → K := fun i => sumTo (fun k => H (s.fr i) (s.fr k) * s.Q (s.fr k) nZ) nFR
  let (r, v) ← backsolveR s.R nZ (some fun i => sumTo (fun j => s.Q (s.fr j) i * Hz j) nFR) true (fun _ => 0)
  if r ≠ SUCCESSFUL_RETURN then .ok none
  else .ok (some (v, subUp (fun i => v i * v i) 0 nZ 0 + sumTo (fun j => s.Q (s.fr j) nZ * Hz j) nFR))

/-- `removeConstraint` after the test for curvature, src/QProblem.cpp:3837-4011; `c`: the member that enters instead. -/
def removeConstraintUpdate (sq : K → K) (s : QPC K) (number : Nat) (updateCholesky allowFlipping : Bool) (c : Option Change) :
    Res (ReturnValue × QPC K) := do
  let s := if c.isNone = true ∧ s.options.enableFlippingBounds = true ∧ allowFlipping = true then s.saveFlip else s
  let nZ := s.nZ
  let p := removeRow sq s (s.cons.fixed.idxOf number)
  let s := { s with T := p.1, Q := p.2 }
  if updateCholesky = true ∧ s.general = true then do
    match ← s.newColumnC with
    | none => .ok (RET_REMOVECONSTRAINT_FAILED, s)
    | some (v, rho2) =>
      let s := { s with R := fun i j => if i < nZ ∧ j = nZ then v i else s.R i j }
      match newDiag sq s nZ rho2 allowFlipping c.isSome with
      | none => .ok (s.flipConstraint number)
      | some (r, s) =>
        if r ≠ SUCCESSFUL_RETURN then .ok (r, s) else
        let s := { s with cons := s.cons.moveFixedToFree number }
        match c with
        | none => .ok (SUCCESSFUL_RETURN, s)
        | some c => do
          let s ← exchange sq { s with R := fun i j => if i = nZ ∧ j = nZ then 0 else s.R i j } c
          .ok (SUCCESSFUL_RETURN, s)
  else
    let s := { s with cons := s.cons.moveFixedToFree number }
    match c with
    | none => .ok (SUCCESSFUL_RETURN, s)
    | some c => do
      let s ← exchange sq { s with R := fun i j => if i = nZ ∧ j = nZ then 0 else s.R i j } c
      .ok (SUCCESSFUL_RETURN, s)

/-- `removeConstraint`, src/QProblem.cpp:3782-4012 -/
def removeConstraint (sq : K → K) (s : QPC K) (number : Nat) (updateCholesky allowFlipping ensureNZC : Bool) :
    Res (ReturnValue × QPC K) :=
  if s.noChanges then .ok (RET_UNKNOWN_BUG, s)
  else if s.cons.getStatus number = ST_INACTIVE then .ok (RET_CONSTRAINT_NOT_ACTIVE, s)
  else if s.cons.fixed.contains number = false then .ok (RET_CONSTRAINT_NOT_ACTIVE, s)
  else if ensureNZC then do
    let (r, s, c) ← s.ensureNonzeroCurvature false number
    if r ≠ SUCCESSFUL_RETURN then .ok (r, s) else removeConstraintUpdate sq s number updateCholesky allowFlipping c
  else removeConstraintUpdate sq s number updateCholesky allowFlipping none

/-- Rotation restoring the triangular form of `[T A(:,number)]` in `removeBound`, src/QProblem.cpp:4098-4112, for
`j = nAC-1-k`: `(T, tmp, Q)`. -/
def removeBoundStep (sq : K → K) (free : Nat → Bool) (nAC nZ tcol : Nat) (k : Nat) (t : (Nat → Nat → K) × (Nat → K) × (Nat → Nat → K)) :
    (Nat → Nat → K) × (Nat → K) × (Nat → Nat → K) :=
  let j := nAC - 1 - k
  let T := t.1
  let tmp := t.2.1
  let p := computeGivens sq (tmp k) (T k (tcol + j))
  (fun i c => if c = tcol + j then
      (if i = k then p.1 else if nAC - j ≤ i ∧ i < nAC then (applyGivens p.2.2.1 p.2.2.2 (tmp i) (T i c)).1 else T i c) else T i c,
   fun i => if i = k then p.2.1 else if nAC - j ≤ i ∧ i < nAC then (applyGivens p.2.2.1 p.2.2.2 (tmp i) (T i (tcol + j))).2 else tmp i,
   rotCols free p.2.2.1 p.2.2.2 (nZ + 1 + j) (nZ + j) t.2.2)

/-- New column of `R` when a bound has been removed, src/QProblem.cpp:4124-4187; `nFR`, `nZ` before the removal, `nn` is the
variable that has become free. -/
def newColumnB (s : QPC K) (nFR nZ nn : Nat) : Res (Option ((Nat → K) × K)) := do
  let H ← s.getH
  let z2 := s.Q nn nZ
  let rho2 := H nn nn * z2 * z2
  let Hz : Nat → K := fun i => sumTo (fun k => H (s.fr i) (s.fr k) * s.Q (s.fr k) nZ) nFR
  let h1 : Nat → K := fun i => H (s.fr i) nn
  let (r, v) ← backsolveR s.R nZ (some fun i => sumTo (fun j => s.Q (s.fr j) i * (Hz j + z2 * h1 j)) nFR) true (fun _ => 0)
  if r ≠ SUCCESSFUL_RETURN then .ok none
  else .ok (some (v, subUp (fun i => v i * v i) 0 nZ rho2 + sumTo (fun j => s.Q (s.fr j) nZ * (Hz j + 2 * z2 * h1 j)) nFR))

/-- `removeBound` after the test for curvature, src/QProblem.cpp:4062-4252. -/
def removeBoundUpdate (sq : K → K) (s : QPC K) (number : Nat) (updateCholesky allowFlipping : Bool) (c : Option Change) :
    Res (ReturnValue × QPC K) := do
  let s := if s.options.enableFlippingBounds = true ∧ allowFlipping = true ∧ c.isNone = true then s.saveFlip else s
  let nFR := s.nFR
  let nAC := s.nAC
  let nZ := s.nZ
  let tcol := s.sizeT - nAC
  let old := s.isFree
  let s := { s with bounds := s.bounds.moveFixedToFree number }
  let Q1 : Nat → Nat → K := fun i j =>
    if i = number then (if j = nFR then 1 else if j < nFR then 0 else s.Q i j)
    else if old i = true ∧ j = nFR then 0 else s.Q i j
  let t := loop (removeBoundStep sq s.isFree nAC nZ tcol) nAC (s.T, fun i => s.A (s.ac i) number, Q1)
  let s := { s with T := t.1, Q := t.2.2 }
  if updateCholesky = true ∧ s.general = true then do
    match ← s.newColumnB nFR nZ number with
    | none => .ok (RET_REMOVEBOUND_FAILED, s)
    | some (v, rho2) =>
      let s := { s with R := fun i j => if i < nZ ∧ j = nZ then v i else s.R i j }
      match newDiag sq s nZ rho2 allowFlipping c.isSome with
      | none => .ok (s.flipBound number)
      | some (r, s) =>
        if r ≠ SUCCESSFUL_RETURN then .ok (r, s) else
        match c with
        | none => .ok (SUCCESSFUL_RETURN, s)
        | some c => do
          let s ← exchange sq { s with R := fun i j => if i = nZ ∧ j = nZ then 0 else s.R i j } c
          .ok (SUCCESSFUL_RETURN, s)
  else .ok (SUCCESSFUL_RETURN, s)

/-- `removeBound`, src/QProblem.cpp:4018-4252 -/
def removeBound (sq : K → K) (s : QPC K) (number : Nat) (updateCholesky allowFlipping ensureNZC : Bool) : Res (ReturnValue × QPC K) :=
  if s.bounds.getStatus number = ST_INACTIVE then .ok (RET_BOUND_NOT_ACTIVE, s)
  else if s.noChanges then .ok (RET_UNKNOWN_BUG, s)
  else if ensureNZC then do
    let (r, s, c) ← s.ensureNonzeroCurvature true number
    if r ≠ SUCCESSFUL_RETURN then .ok (r, s) else removeBoundUpdate sq s number updateCholesky allowFlipping c
  else removeBoundUpdate sq s number updateCholesky allowFlipping none

/-- The expensive test for linear independence, src/QProblem.cpp:3000-3070, 3499-3567, for the gradient `a` of the new member -/
def fullLITest (s : QPC K) (a : Nat → K) : Res Bool := do
  let nul : Nat → K := fun _ => 0
  match ← s.determineStepDirection a nul nul nul nul false false with
  | .error _ => .ub .uninitialised
  | .ok d => .ok (decide (Dir.normX s d > s.options.epsLITests * Dir.normY s d))

/-- `addConstraint_checkLI`, src/QProblem.cpp:2982-3111: linearly independent? -/
def checkLIConstraint (s : QPC K) (number : Nat) : Res Bool :=
  if s.options.enableFullLITests then s.fullLITest (s.A number)
  else
    let l2 := sumTo (fun i => s.A number (s.fr i) * s.A number (s.fr i)) s.nFR
    .ok ((List.range s.nZ).any fun j => decide (getAbs (sumTo (fun i => s.A number (s.fr i) * s.Q (s.fr i) j) s.nFR) > s.options.epsLITests * l2))

/-- `addBound_checkLI`, src/QProblem.cpp:3487-3590 -/
def checkLIBound (s : QPC K) (number : Nat) : Res Bool :=
  if s.options.enableFullLITests then s.fullLITest (updA (fun _ => 0) number 1)
  else .ok ((List.range s.nZ).any fun i => decide (getAbs (s.Q number i) > s.options.epsLITests))

/-- The active member `dropInfeasibles` chooses to drop, src/QProblem.cpp:6268-6320: constraint or bound with its index.  The
type looked up for the active constraint at position `i` is that of constraint number `i`. -/
def dropChoice (s : QPC K) (isBound : Bool) (xiB xiC : Nat → K) : Option (Bool × Nat) :=
  let o := s.options
  let find := fun (t : SubjectToType) => (List.range s.nAC).find? fun i => s.cons.type i == t && decide (getAbs (xiC i) > o.epsDen)
  let p : Option (Bool × Nat) × Int := (none, if isBound then o.dropBoundPriority else o.dropIneqConPriority)
  let p := if o.dropEqConPriority ≤ p.2 then
      match find ST_EQUALITY with | some i => (some (false, s.ac i), o.dropEqConPriority) | none => p
    else p
  let p := if o.dropIneqConPriority ≤ p.2 then
      match find ST_BOUNDED with | some i => (some (false, s.ac i), o.dropIneqConPriority) | none => p
    else p
  if o.dropBoundPriority ≤ p.2 then
    match (List.range s.nFX).find? fun i => decide (getAbs (xiB i) > o.epsDen) with | some i => some (true, s.fx i) | none => p.1
  else p.1

/-- Status of a dropped member, src/QProblem.cpp:6328, 6334, 6346, 6348 -/
def droppedStatus (st : SubjectToStatus) : SubjectToStatus := if st = ST_LOWER then ST_INFEASIBLE_LOWER else ST_INFEASIBLE_UPPER

/-- `SubjectTo::setStatus`, include/qpOASES/SubjectTo.ipp:104-115 -/
def _root_.QpOASES.WS.setStatus (w : WS) (i : Nat) (st : SubjectToStatus) : WS :=
  if i < w.n then { w with status := updA w.status i st } else w

/-- `dropInfeasibles`, src/QProblem.cpp:6263-6355; the results of `removeBound` and `removeConstraint` are ignored. -/
def dropInfeasibles (sq : K → K) (s : QPC K) (number : Nat) (st : SubjectToStatus) (isBound : Bool) (xiB xiC : Nat → K) :
    Res (ReturnValue × QPC K) :=
  match s.dropChoice isBound xiB xiC with
  | some (true, k) => do
    let old := s.bounds.getStatus k
    let (_, s) ← removeBound sq s k true false false
    .ok (SUCCESSFUL_RETURN, { s with bounds := s.bounds.setStatus k (droppedStatus old) })
  | some (false, k) => do
    let old := s.cons.getStatus k
    let (_, s) ← removeConstraint sq s k true false false
    .ok (SUCCESSFUL_RETURN, { s with cons := s.cons.setStatus k (droppedStatus old) })
  | none =>
    if isBound then .ok (RET_ENSURELI_DROPPED, { s with bounds := s.bounds.setStatus number (droppedStatus st) })
    else .ok (RET_ENSURELI_DROPPED, { s with cons := s.cons.setStatus number (droppedStatus st) })

/-- Exchanging a dependent member of the working set, src/QProblem.cpp:3190-3288, 3667-3764: `xiC`, `xiB` are the
coefficients of the linear combination. -/
def resolveLI (sq : K → K) (s : QPC K) (number : Nat) (st : SubjectToStatus) (isBound : Bool) (xiC xiB : Nat → K) :
    Res (ReturnValue × QPC K) := do
  let o := s.options
  let (t, bc) ← QPB.ratioTest s.cons (fun i => s.y (s.nV + s.ac i)) xiC o.epsNum o.epsDen s.cons.fixed 0 o.maxDualJump none
  let (t, bb) ← QPB.ratioTest s.bounds (fun i => s.y (s.fx i)) xiB o.epsNum o.epsDen s.bounds.fixed 0 t none
  if bc.isNone && bb.isNone then
    if o.enableDropInfeasibles then dropInfeasibles sq s number st isBound xiB xiC
    else .ok (RET_ENSURELI_FAILED_NOINDEX, { s with infeasible := true })
  else
    let y := addAt (-t) xiB s.bounds.fixed (addAt (-t) xiC (s.cons.fixed.map (s.nV + ·)) s.y)
    let s := { s with y := updA y (if isBound then number else s.nV + number) (if st = ST_LOWER then t else -t) }
    match bb, bc with
    | some k, _ => do
      let (r, s) ← removeBound sq s k true false false
      if r ≠ SUCCESSFUL_RETURN then .ok (RET_REMOVE_FROM_ACTIVESET_FAILED, s)
      else .ok (SUCCESSFUL_RETURN, { s with y := updA s.y k 0 })
    | none, some k => do
      let (r, s) ← removeConstraint sq s k true false false
      if r ≠ SUCCESSFUL_RETURN then .ok (RET_REMOVE_FROM_ACTIVESET_FAILED, s)
      else .ok (SUCCESSFUL_RETURN, { s with y := updA s.y (s.nV + k) 0 })
    | none, none => .ok (SUCCESSFUL_RETURN, s)

/-- Coefficients of the active constraints, src/QProblem.cpp:3164-3181, 3643-3661: `v` is the transformed gradient -/
def coeffC (s : QPC K) (v : Nat → K) : Option (Nat → K) :=
  if 0 < s.nAC then
    match backsolveT s.T s.sizeT s.nAC v true (fun _ => 0) with
    | (r, xi) => if r ≠ SUCCESSFUL_RETURN then none else some xi
  else some fun _ => 0

/-- `addConstraint_ensureLI`, src/QProblem.cpp:3117-3300 -/
def ensureLIConstraint (sq : K → K) (s : QPC K) (number : Nat) (st : SubjectToStatus) : Res (ReturnValue × QPC K) := do
  if ← s.checkLIConstraint number then .ok (SUCCESSFUL_RETURN, s) else
  let sg : K := if st = ST_LOWER then 1 else -1
  match s.coeffC (fun i => sumTo (fun j => s.Q (s.fr j) (s.nZ + i) * (sg * s.A number (s.fr j))) s.nFR) with
  | none => .ok (RET_ENSURELI_FAILED_TQ, s)
  | some xiC =>
    resolveLI sq s number st false xiC (fun i => sg * s.A number (s.fx i) - sumTo (fun k => s.A (s.ac k) (s.fx i) * xiC k) s.nAC)

/-- `addBound_ensureLI`, src/QProblem.cpp:3596-3775 -/
def ensureLIBound (sq : K → K) (s : QPC K) (number : Nat) (st : SubjectToStatus) : Res (ReturnValue × QPC K) := do
  if ← s.checkLIBound number then .ok (SUCCESSFUL_RETURN, s) else
  let sg : K := if st = ST_LOWER then 1 else -1
  match s.coeffC (fun i => sg * s.Q number (s.nZ + i)) with
  | none => .ok (RET_ENSURELI_FAILED_TQ, s)
  | some xiC => resolveLI sq s number st true xiC (fun i => -sumTo (fun k => s.A (s.ac k) (s.fx i) * xiC k) s.nAC)

/-- `addConstraint( number,C_status,BT_TRUE,BT_TRUE )`, src/QProblem.cpp:2819-2975 -/
def addConstraint (sq : K → K) (s : QPC K) (number : Nat) (st : SubjectToStatus) : Res (ReturnValue × QPC K) :=
  match s.addConstraintCheck number with
  | some r => .ok (r, s)
  | none => do
    let (r, s) ← ensureLIConstraint sq s number st
    if r = SUCCESSFUL_RETURN then addConstraintUpdate sq s number st true
    else if r = RET_ENSURELI_FAILED_NOINDEX then .ok (RET_ADDCONSTRAINT_FAILED_INFEASIBILITY, s)
    else if r = RET_ENSURELI_DROPPED then .ok (SUCCESSFUL_RETURN, s)
    else .ok (RET_ENSURELI_FAILED, s)

/-- `addBound( number,B_status,BT_TRUE,BT_TRUE )`, src/QProblem.cpp:3307-3481 -/
def addBound (sq : K → K) (s : QPC K) (number : Nat) (st : SubjectToStatus) : Res (ReturnValue × QPC K) :=
  match s.addBoundCheck number with
  | some r => .ok (r, s)
  | none => do
    let (r, s) ← ensureLIBound sq s number st
    if r = SUCCESSFUL_RETURN then addBoundUpdate sq s number st true
    else if r = RET_ENSURELI_FAILED_NOINDEX then .ok (RET_ADDBOUND_FAILED_INFEASIBILITY, s)
    else if r = RET_ENSURELI_DROPPED then .ok (SUCCESSFUL_RETURN, s)
    else .ok (RET_ENSURELI_FAILED, s)

end
end QPC
end QpOASES
