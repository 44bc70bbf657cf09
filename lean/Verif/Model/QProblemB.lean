import Verif.Model.WS
import Verif.Model.Kernels
import Verif.Model.Options
import Verif.Model.Normalise

/-!
`QProblemB`: src/QProblemB.cpp, include/qpOASES/QProblemB.ipp.

Conventions.  Numbers are elements of an ordered field `K`; `sq` is `getSqrt`.  Vectors are functions on indices of
which only those below `nV` (or below the number of free/fixed variables) matter.  A null pointer is `none`.  The Hessian
is a dense symmetric matrix given by its entries (`SymDenseMat` with leading dimension `nV`); its methods are replaced by
what they are proved to compute (C14-C22).  `THROWERROR`, `THROWWARNING`, `THROWINFO` return their argument (C45) and are
omitted, as are printing, `tabularOutput` and memory management.  `getCPUtime` reads the next value of a stream given in
the state.
-/
namespace QpOASES
open SubjectToStatus SubjectToType ReturnValue

/-- `enum HessianType`, include/qpOASES/Types.hpp:248-257 -/
inductive HessianType where
  | HST_ZERO | HST_IDENTITY | HST_POSDEF | HST_POSDEF_NULLSPACE | HST_SEMIDEF | HST_INDEF | HST_UNKNOWN
  deriving DecidableEq, Repr

/-- `enum QProblemStatus`, include/qpOASES/Types.hpp:233-244 -/
inductive QProblemStatus where
  | QPS_NOTINITIALISED | QPS_PREPARINGAUXILIARYQP | QPS_AUXILIARYQPSOLVED | QPS_PERFORMINGHOMOTOPY
  | QPS_HOMOTOPYQPSOLVED | QPS_SOLVED
  deriving DecidableEq, Repr

open HessianType QProblemStatus

/-- Data members of `QProblemB`, include/qpOASES/QProblemB.hpp.  `flip` is the content saved by the flipper. -/
structure QPB (K : Type) where
  nV : Nat
  bounds : WS
  H : Option (Nat → Nat → K)
  g : Nat → K
  lb : Nat → K
  ub : Nat → K
  x : Nat → K
  y : Nat → K
  R : Nat → Nat → K
  haveCholesky : Bool
  tau : K
  hessianType : HessianType
  regVal : K
  infeasible : Bool
  unbounded : Bool
  status : QProblemStatus
  count : Nat
  ramp0 : K
  ramp1 : K
  rampOffset : Nat
  flip : Option (WS × (Nat → Nat → K))
  options : Options K
  /-- successive values of `getCPUtime( )` -/
  clk : Nat → K
  now : Nat

/-- What a solver call leaves behind: return value, `nWSR`, `*cputime` and the object. -/
structure Out (K : Type) where
  rv : ReturnValue
  nWSR : Int
  cputime : Option K
  s : QPB K

namespace QPB

section
variable {K : Type} [Field K] [LinearOrder K] [IsStrictOrderedRing K]

/-- `QProblemB::QProblemB( nV, hessianType )`, src/QProblemB.cpp:98-165, with dense matrices and default options. -/
def new (nV : Int) (hessianType : HessianType) (clk : Nat → K) : QPB K :=
  let nV := if nV ≤ 0 then 1 else nV.toNat
  let options : Options K := Options.setToDefault
  { nV := nV, bounds := WS.init nV, H := none, g := fun _ => 0, lb := fun _ => 0, ub := fun _ => 0, R := fun _ _ => 0
    haveCholesky := false, x := fun _ => 0, y := fun _ => 0, tau := 0, hessianType := hessianType, regVal := 0
    infeasible := false, unbounded := false, status := QPS_NOTINITIALISED, count := 0
    ramp0 := options.initialRamping, ramp1 := options.finalRamping, rampOffset := 0, flip := none
    options := options, clk := clk, now := 0 }

/-- `reset`, src/QProblemB.cpp:210-247 -/
def reset (s : QPB K) : QPB K :=
  { s with
    bounds := WS.init s.nV
    R := fun _ _ => 0
    haveCholesky := false
    tau := 0
    hessianType := HST_UNKNOWN
    regVal := 0
    infeasible := false
    unbounded := false
    status := QPS_NOTINITIALISED
    ramp0 := s.options.initialRamping
    ramp1 := s.options.finalRamping
    rampOffset := 0
    flip := none }

/-- `setOptions`, include/qpOASES/QProblemB.ipp:191-200 -/
def setOptions (s : QPB K) (o : Options K) : QPB K := { s with options := s.options.setOptions o }

/-- `usingRegularisation`, include/qpOASES/QProblemB.ipp:169-175 -/
def usingRegularisation (s : QPB K) : Bool := decide (s.regVal > ZERO)

/-- `getCPUtime( )`: next value of the clock -/
def tick (s : QPB K) : K × QPB K := (s.clk s.now, { s with now := s.now + 1 })

/-- `if ( cputime != 0 ) starttime = getCPUtime( );` -/
def startClock (s : QPB K) (cputime : Option K) : K × QPB K := match cputime with | none => (0, s) | some _ => s.tick

/-- dereferencing `H` -/
def getH (s : QPB K) : Res (Nat → Nat → K) :=
  match s.H with
  | some H => .ok H
  | none => .ub .nullDeref

/-- `SymDenseMat::isDiag` of a matrix given by its entries, src/Matrices.cpp:139-152 -/
def isDiag (n : Nat) (H : Nat → Nat → K) : Bool :=
  (List.range n).all fun i => (List.range i).all fun j => !(decide (getAbs (H i j) > EPS) || decide (getAbs (H j i) > EPS))

/-- `options.enableRegularisation = BT_TRUE; options.numRegularisationSteps = 1;` if not enabled,
src/QProblemB.cpp:1187-1191, 1218-1222, 1267-1271 -/
def ensureRegularisation (s : QPB K) : QPB K :=
  if s.options.enableRegularisation then s
  else { s with options := { s.options with enableRegularisation := true, numRegularisationSteps := 1 } }

/-- The loop over the diagonal in `determineHessianType`, src/QProblemB.cpp:1237-1257: entries `i`, …, `i+m-1`.
`none`: the entry is indefinite; `some none`: uninitialised diagonal; otherwise the two flags. -/
def diagScan (H : Nat → Nat → K) : (m i : Nat) → (isId isZ : Bool) → Option (Option (Bool × Bool))
  | 0, _, isId, isZ => some (some (isId, isZ))
  | m+1, i, isId, isZ =>
    let curDiag := H i i
    if curDiag ≥ INFTY then some none
    else if curDiag < -ZERO then none
    else diagScan H m (i+1) (if getAbs (curDiag - 1) > EPS then false else isId) (if getAbs curDiag > EPS then false else isZ)

/-- `determineHessianType`, src/QProblemB.cpp:1176-1275 -/
def determineHessianType (s : QPB K) : ReturnValue × QPB K :=
  match s.hessianType, s.H with
  | HST_ZERO, _ => (SUCCESSFUL_RETURN, s.ensureRegularisation)
  | HST_IDENTITY, _ => (SUCCESSFUL_RETURN, s)
  | HST_UNKNOWN, some H =>
    let s := { s with hessianType := HST_POSDEF }
    if isDiag s.nV H then
      match diagScan H s.nV 0 true true with
      | none =>
        let s := { s with hessianType := HST_INDEF }
        if s.options.enableFlippingBounds then (SUCCESSFUL_RETURN, s) else (RET_HESSIAN_INDEFINITE, s)
      | some none => (RET_DIAGONAL_NOT_INITIALISED, s)
      | some (some (isIdentity, isZero)) =>
        let s := if isIdentity then { s with hessianType := HST_IDENTITY } else s
        let s := if isZero then ({ s with hessianType := HST_ZERO } : QPB K).ensureRegularisation else s
        (SUCCESSFUL_RETURN, s)
    else (SUCCESSFUL_RETURN, s)
  | _, some _ => (SUCCESSFUL_RETURN, s)
  | _, none => (SUCCESSFUL_RETURN, ({ s with hessianType := HST_ZERO } : QPB K).ensureRegularisation)

/-- Type of bound `i`, part 3) of `setupSubjectToType`, src/QProblemB.cpp:1325-1357 -/
def typeOf (s : QPB K) (lbNew ubNew : Option (Nat → K)) (i : Nat) : SubjectToType :=
  match lbNew, ubNew with
  | some l, some u =>
    if l i < -INFTY + s.options.boundTolerance ∧ u i > INFTY - s.options.boundTolerance ∧ s.options.enableFarBounds = false then
      ST_UNBOUNDED
    else if s.options.enableEqualities = true ∧ s.lb i > s.ub i - s.options.boundTolerance ∧
        l i > u i - s.options.boundTolerance then ST_EQUALITY
    else ST_BOUNDED
  | none, none => ST_UNBOUNDED
  | _, _ => ST_BOUNDED

/-- `setupSubjectToType`, src/QProblemB.cpp:1290-1360; always returns `SUCCESSFUL_RETURN` -/
def setupSubjectToType (s : QPB K) (lbNew ubNew : Option (Nat → K)) : QPB K :=
  { s with bounds := { s.bounds with
      noLower := match lbNew with
        | some l => (List.range s.nV).all fun i => !decide (l i > -INFTY)
        | none => true
      noUpper := match ubNew with
        | some u => (List.range s.nV).all fun i => !decide (u i < INFTY)
        | none => true
      type := fun i => if i < s.nV then s.typeOf lbNew ubNew i else s.bounds.type i } }

/-- `computeCholesky`, src/QProblemB.cpp:1366-1441.  `POTRF` works on the array `R[i+nV*j]`. -/
def computeCholesky (sq : K → K) (s : QPB K) : Res (ReturnValue × QPB K) :=
  let s := { s with R := fun _ _ => 0 }
  match s.hessianType with
  | HST_ZERO =>
    if s.usingRegularisation then
      .ok (SUCCESSFUL_RETURN, { s with R := fun i j => if i = j ∧ i < s.nV then sq s.regVal else 0 })
    else .ok (RET_CHOLESKY_OF_ZERO_HESSIAN, s)
  | HST_IDENTITY => .ok (SUCCESSFUL_RETURN, { s with R := fun i j => if i = j ∧ i < s.nV then 1 else 0 })
  | _ =>
    let nFR := s.bounds.nFR
    if nFR > 0 then do
      let H ← s.getH
      let R0 : Nat → Nat → K := fun i j => if i < nFR ∧ j < nFR then H (s.bounds.fr i) (s.bounds.fr j) else 0
      let p := potrf sq nFR (fun q => R0 (q % s.nV) (q / s.nV)) s.nV
      let R1 : Nat → Nat → K := fun i j => p.2 (i + s.nV * j)
      let s := { s with R := R1 }
      if p.1 > 0 then
        let s := if R1 0 0 < 0 then
            { s with options := { s.options with
              epsRegularisation := getMin (-(R1 0 0) + s.options.epsRegularisation) (sq (getAbs s.options.epsRegularisation)) } }
          else s
        .ok (RET_HESSIAN_NOT_SPD, { s with hessianType := HST_SEMIDEF })
      else
        .ok (SUCCESSFUL_RETURN, { s with R := fun i j => if i = j + 1 ∧ j + 1 < nFR then 0 else R1 i j })
    else .ok (SUCCESSFUL_RETURN, s)

/-- `regulariseHessian`, src/QProblemB.cpp:1999-2031; `SymDenseMat::addToDiag` does not fail. -/
def regulariseHessian (sq : K → K) (s : QPB K) : Res (ReturnValue × QPB K) :=
  if s.options.enableRegularisation = false then .ok (SUCCESSFUL_RETURN, s)
  else if s.hessianType = HST_IDENTITY then .ok (RET_CANNOT_REGULARISE_IDENTITY, s)
  else if s.usingRegularisation then .ok (SUCCESSFUL_RETURN, s)
  else if s.hessianType = HST_ZERO then
    .ok (SUCCESSFUL_RETURN, { s with regVal := getNorm sq s.g s.nV 2 * s.options.epsRegularisation })
  else do
    let H ← s.getH
    let regVal := getNorm sq (fun q => H (q / s.nV) (q % s.nV)) (s.nV * s.nV) 2 * s.options.epsRegularisation
    .ok (SUCCESSFUL_RETURN,
      { s with regVal := regVal, H := some fun i j => if i = j ∧ i < s.nV then H i j + regVal else H i j })

/-- `setupInitialCholesky`, src/QProblemB.cpp:1447-1473.  (`getNV() != getNFR()-getNFV()` on `int_t`.) -/
def setupInitialCholesky (sq : K → K) (s : QPB K) : Res (ReturnValue × QPB K) := do
  let (r, s) ← if (s.nV : Int) ≠ (s.bounds.nFR : Int) - s.bounds.nFV ∧ s.options.enableRegularisation = true then
      regulariseHessian sq s else .ok (SUCCESSFUL_RETURN, s)
  if r ≠ SUCCESSFUL_RETURN then .ok (RET_INIT_FAILED_REGULARISATION, s) else do
  let (r, s) ← computeCholesky sq s
  if r = RET_HESSIAN_NOT_SPD then do
    let (r, s) ← regulariseHessian sq s
    if r ≠ SUCCESSFUL_RETURN then .ok (RET_INIT_FAILED_REGULARISATION, s) else do
    let (r, s) ← computeCholesky sq s
    if r ≠ SUCCESSFUL_RETURN then .ok (RET_INIT_FAILED_CHOLESKY, s)
    else .ok (SUCCESSFUL_RETURN, { s with haveCholesky := true })
  else if r ≠ SUCCESSFUL_RETURN then .ok (RET_INIT_FAILED_CHOLESKY, s)
  else .ok (SUCCESSFUL_RETURN, { s with haveCholesky := true })

/-- Status chosen for bound `i` by `obtainAuxiliaryWorkingSet`, src/QProblemB.cpp:1493-1613
(`__ALWAYS_INITIALISE_WITH_ALL_EQUALITIES__` defined). -/
def auxStatus (s : QPB K) (xOpt yOpt : Option (Nat → K)) (guess : Option WS) (i : Nat) : SubjectToStatus :=
  match guess with
  | some w => if s.bounds.type i = ST_EQUALITY then ST_LOWER else w.getStatus i
  | none =>
    match xOpt, yOpt with
    | some x, none =>
      if x i ≤ s.lb i + s.options.boundTolerance then ST_LOWER
      else if x i ≥ s.ub i - s.options.boundTolerance then ST_UPPER
      else if s.bounds.type i = ST_EQUALITY then ST_LOWER else ST_INACTIVE
    | _, some y =>
      if y i > EPS then ST_LOWER
      else if y i < -EPS then ST_UPPER
      else if s.bounds.type i = ST_EQUALITY then ST_LOWER else ST_INACTIVE
    | none, none =>
      match s.bounds.type i with
      | ST_UNBOUNDED => ST_INACTIVE
      | ST_EQUALITY => ST_LOWER
      | _ => s.options.initialStatusBounds

/-- `obtainAuxiliaryWorkingSet`, src/QProblemB.cpp:1479-1617: bounds `i`, …, `i+m-1`; `none` is an error. -/
def obtainAux (st : Nat → SubjectToStatus) : (m i : Nat) → WS → Option WS
  | 0, _, w => some w
  | m+1, i, w =>
    match w.setupBound i (st i) with
    | (true, w) => obtainAux st m (i+1) w
    | (false, _) => none

/-- `setupAuxiliaryQPgradient`, src/QProblemB.cpp:2871-2905 -/
def setupAuxiliaryQPgradient (s : QPB K) : Res (QPB K) :=
  match s.hessianType with
  | HST_ZERO => .ok (if s.usingRegularisation then { s with g := fun i => s.y i - s.regVal * s.x i } else { s with g := s.y })
  | HST_IDENTITY => .ok { s with g := fun i => s.y i - s.x i }
  | _ => do
    let H ← s.getH
    .ok { s with g := fun i => s.y i - sumTo (fun j => H i j * s.x j) s.nV }

/-- One element of `setupAuxiliaryQPbounds`, src/QProblemB.cpp:2918-2969: new `(lb[i], ub[i])`; `none` is the
default case. -/
def auxBound (o : Options K) (useRelaxation : Bool) (t : SubjectToType) (st : SubjectToStatus) (x lb ub : K) : Option (K × K) :=
  match st with
  | ST_INACTIVE =>
    some (if useRelaxation then (if t = ST_EQUALITY then (x, x) else (x - o.boundRelaxation, x + o.boundRelaxation)) else (lb, ub))
  | ST_LOWER => some (x, if t = ST_EQUALITY then x else if useRelaxation then x + o.boundRelaxation else ub)
  | ST_UPPER => some (if t = ST_EQUALITY then x else if useRelaxation then x - o.boundRelaxation else lb, x)
  | ST_INFEASIBLE_LOWER => some (lb, ub)
  | ST_INFEASIBLE_UPPER => some (lb, ub)
  | ST_UNDEFINED => none

/-- `setupAuxiliaryQPbounds`, src/QProblemB.cpp:2911-2974: elements `i`, …, `i+m-1` -/
def setupAuxiliaryQPbounds (useRelaxation : Bool) : (m i : Nat) → QPB K → ReturnValue × QPB K
  | 0, _, s => (SUCCESSFUL_RETURN, s)
  | m+1, i, s =>
    match auxBound s.options useRelaxation (s.bounds.type i) (s.bounds.getStatus i) (s.x i) (s.lb i) (s.ub i) with
    | none => (RET_UNKNOWN_BUG, s)
    | some (l, u) => setupAuxiliaryQPbounds useRelaxation m (i+1) { s with lb := updA s.lb i l, ub := updA s.ub i u }

/-- The Givens sweep of `addBound`, src/QProblemB.cpp:3525-3532, rotation `i` (rows `i-1` and `i`). -/
def givensStep (sq : K → K) (nFR : Nat) (i : Nat) (R : Nat → Nat → K) : Nat → Nat → K :=
  let p := computeGivens sq (R (i-1) i) (R i i)
  let c := p.2.2.1
  let sn := p.2.2.2
  fun r j =>
    if j = i then (if r = i-1 then p.1 else if r = i then p.2.1 else R r j)
    else if i < j ∧ j < nFR then
      (if r = i-1 then (applyGivens c sn (R (i-1) j) (R i j)).1
       else if r = i then (applyGivens c sn (R (i-1) j) (R i j)).2 else R r j)
    else R r j

/-- Cholesky update of `addBound`, src/QProblemB.cpp:3525-3540 -/
def cholRemoveColumn (sq : K → K) (nFR k : Nat) (R : Nat → Nat → K) : Nat → Nat → K :=
  let R := loopFrom (k+1) nFR (givensStep sq nFR) R
  let R := fun i j => if i + 1 < nFR ∧ k ≤ j ∧ j + 1 < nFR then R i (j+1) else R i j
  fun i j => if i < nFR ∧ j + 1 = nFR then 0 else R i j

/-- `addBound`, src/QProblemB.cpp:3486-3550 -/
def addBound (sq : K → K) (s : QPB K) (number : Nat) (st : SubjectToStatus) (updateCholesky : Bool) : ReturnValue × QPB K :=
  if s.status = QPS_NOTINITIALISED ∨ s.status = QPS_AUXILIARYQPSOLVED ∨ s.status = QPS_HOMOTOPYQPSOLVED ∨ s.status = QPS_SOLVED then
    (RET_UNKNOWN_BUG, s)
  else if s.status = QPS_PREPARINGAUXILIARYQP then
    (SUCCESSFUL_RETURN, { s with bounds := s.bounds.moveFreeToFixed number st })
  else
    let R := if updateCholesky = true ∧ s.hessianType ≠ HST_ZERO ∧ s.hessianType ≠ HST_IDENTITY then
        cholRemoveColumn sq s.bounds.nFR (s.bounds.free.idxOf number) s.R else s.R
    (SUCCESSFUL_RETURN, { s with R := R, bounds := s.bounds.moveFreeToFixed number st })

/-- Restoring index sets and factor and flipping the bound instead, src/QProblemB.cpp:3644-3652 and 3674-3682
(`flipper.get`; nothing is copied if nothing has been saved). -/
def flipBack (s : QPB K) (number : Nat) : ReturnValue × QPB K :=
  let s := match s.flip with
    | some (w, R) => { s with bounds := w, R := R }
    | none => s
  let s := { s with bounds := s.bounds.flipFixed number }
  match s.bounds.getStatus number with
  | ST_LOWER => (SUCCESSFUL_RETURN, { s with lb := updA s.lb number (s.ub number) })
  | ST_UPPER => (SUCCESSFUL_RETURN, { s with ub := updA s.ub number (s.lb number) })
  | _ => (RET_MOVING_BOUND_FAILED, s)

/-- `removeBound`, src/QProblemB.cpp:3556-3687 (the cases `HST_ZERO`, `HST_IDENTITY` of the inner switch, 3602-3615,
are unreachable). -/
def removeBound (sq : K → K) (s : QPB K) (number : Nat) (updateCholesky : Bool) : Res (ReturnValue × QPB K) :=
  if s.status = QPS_NOTINITIALISED ∨ s.status = QPS_AUXILIARYQPSOLVED ∨ s.status = QPS_HOMOTOPYQPSOLVED ∨ s.status = QPS_SOLVED then
    .ok (RET_UNKNOWN_BUG, s)
  else
    let nFR := s.bounds.nFR
    let s := if s.options.enableFlippingBounds then { s with flip := some (s.bounds, s.R) } else s
    let s := { s with bounds := s.bounds.moveFixedToFree number }
    if s.status = QPS_PREPARINGAUXILIARYQP then .ok (SUCCESSFUL_RETURN, s)
    else if updateCholesky = true ∧ s.hessianType ≠ HST_ZERO ∧ s.hessianType ≠ HST_IDENTITY then do
      let H ← s.getH
      let (r, v) ← backsolveR s.R nFR (some fun i => H number (s.bounds.fr i)) true (fun _ => 0)
      if r ≠ SUCCESSFUL_RETURN then .ok (RET_REMOVEBOUND_FAILED, s) else
      let r0 := subUp (fun i => v i * v i) 0 nFR (H number number)
      let s := { s with R := fun i j => if i < nFR ∧ j = nFR then v i else s.R i j }
      if s.options.enableFlippingBounds then
        if r0 > s.options.epsFlipping then
          .ok (SUCCESSFUL_RETURN, { s with R := fun i j => if i = nFR ∧ j = nFR then sq r0 else s.R i j })
        else .ok (flipBack { s with hessianType := HST_SEMIDEF } number)
      else
        if r0 > ZERO then
          .ok (SUCCESSFUL_RETURN, { s with R := fun i j => if i = nFR ∧ j = nFR then sq r0 else s.R i j })
        else .ok (RET_HESSIAN_NOT_SPD, { s with hessianType := HST_SEMIDEF })
    else if s.hessianType = HST_ZERO ∧ s.options.enableFlippingBounds = true then .ok (flipBack s number)
    else .ok (SUCCESSFUL_RETURN, s)

/-- Part II of `setupAuxiliaryWorkingSet`, src/QProblemB.cpp:2794-2808: bounds `i`, …, `i+m-1`. -/
def auxRemove (sq : K → K) (aux : WS) : (m i : Nat) → QPB K → Res (ReturnValue × QPB K)
  | 0, _, s => .ok (SUCCESSFUL_RETURN, s)
  | m+1, i, s => do
    let (r, s) ← if s.bounds.getStatus i = ST_LOWER ∧ aux.getStatus i ≠ ST_LOWER then removeBound sq s i true
      else .ok (SUCCESSFUL_RETURN, s)
    if r ≠ SUCCESSFUL_RETURN then .ok (RET_SETUP_WORKINGSET_FAILED, s) else do
    let (r, s) ← if s.bounds.getStatus i = ST_UPPER ∧ aux.getStatus i ≠ ST_UPPER then removeBound sq s i true
      else .ok (SUCCESSFUL_RETURN, s)
    if r ≠ SUCCESSFUL_RETURN then .ok (RET_SETUP_WORKINGSET_FAILED, s) else
    auxRemove sq aux m (i+1) s

/-- Part III of `setupAuxiliaryWorkingSet`, src/QProblemB.cpp:2814-2821. -/
def auxAdd (sq : K → K) (aux : WS) (updateCholesky : Bool) : (m i : Nat) → QPB K → ReturnValue × QPB K
  | 0, _, s => (SUCCESSFUL_RETURN, s)
  | m+1, i, s =>
    if s.bounds.getStatus i = ST_INACTIVE ∧ aux.getStatus i ≠ ST_INACTIVE then
      match addBound sq s i (aux.getStatus i) updateCholesky with
      | (r, s) => if r ≠ SUCCESSFUL_RETURN then (RET_SETUP_WORKINGSET_FAILED, s) else auxAdd sq aux updateCholesky m (i+1) s
    else auxAdd sq aux updateCholesky m (i+1) s

/-- `setupAuxiliaryWorkingSet`, src/QProblemB.cpp:2763-2824; `auxiliaryBounds` is not null at the call sites. -/
def setupAuxiliaryWorkingSet (sq : K → K) (s : QPB K) (aux : WS) (setupAfresh : Bool) : Res (ReturnValue × QPB K) :=
  if (List.range s.nV).any fun i => s.bounds.getStatus i == ST_UNDEFINED || aux.getStatus i == ST_UNDEFINED then
    .ok (RET_UNKNOWN_BUG, s)
  else do
    let (r, s) ← if setupAfresh then .ok (SUCCESSFUL_RETURN, s) else auxRemove sq aux s.nV 0 s
    if r ≠ SUCCESSFUL_RETURN then .ok (r, s) else
    .ok (auxAdd sq aux (!setupAfresh) s.nV 0 s)

/-- `shallRefactorise`, src/QProblemB.cpp:3458-3480 -/
def shallRefactorise (s : QPB K) (guess : WS) : Bool :=
  if s.hessianType = HST_SEMIDEF ∨ s.hessianType = HST_INDEF then true
  else decide (2 * (List.range s.nV).countP (fun i => guess.getStatus i ≠ s.bounds.getStatus i) > guess.nFX)

/-- Part II of `setupAuxiliaryQP`, src/QProblemB.cpp:3024-3033: the results of the two set-up functions are ignored. -/
def setupAuxiliaryQPdata (s : QPB K) : Res (QPB K) := do
  let s := { s with y := fun i => if i < s.nV ∧ s.bounds.getStatus i = ST_INACTIVE then 0 else s.y i }
  let s ← setupAuxiliaryQPgradient s
  .ok (setupAuxiliaryQPbounds false s.nV 0 s).2

/-- `setupAuxiliaryQP`, src/QProblemB.cpp:2980-3036, for `guessedBounds != &bounds`.  The result of
`setupAuxiliaryWorkingSet` is ignored. -/
def setupAuxiliaryQP (sq : K → K) (s : QPB K) (guess : WS) : Res (ReturnValue × QPB K) := do
  let s := { s with status := QPS_PREPARINGAUXILIARYQP }
  if s.shallRefactorise guess then do
    let s := { s with bounds := WS.init s.nV }
    let s := s.setupSubjectToType (some s.lb) (some s.ub)
    let s := { s with bounds := s.bounds.setupAllFree }
    let (_, s) ← setupAuxiliaryWorkingSet sq s guess true
    let (r, s) ← computeCholesky sq s
    if r ≠ SUCCESSFUL_RETURN then .ok (RET_SETUP_AUXILIARYQP_FAILED, s) else do
    let s ← setupAuxiliaryQPdata s
    .ok (SUCCESSFUL_RETURN, s)
  else do
    let (_, s) ← setupAuxiliaryWorkingSet sq s guess false
    let s ← setupAuxiliaryQPdata s
    .ok (SUCCESSFUL_RETURN, s)

/-- Shift directions, src/QProblemB.cpp:1708-1733: null bounds mean infinite ones. -/
def lowerOf (lbNew : Option (Nat → K)) : Nat → K := lbNew.getD fun _ => -INFTY
def upperOf (ubNew : Option (Nat → K)) : Nat → K := ubNew.getD fun _ => INFTY

/-- `Delta_bB_isZero`, src/QProblemB.cpp:1736-1747 -/
def deltaIsZero (s : QPB K) (dlb dub : Nat → K) : Bool :=
  s.bounds.fixed.all fun ii => !(decide (getAbs (dlb ii) > EPS) || decide (getAbs (dub ii) > EPS))

/-- Maximum of the absolute values of the first `n` elements (`rnrm`), src/QProblemB.cpp:3138-3145, 3153-3155 -/
def maxAbs (v : Nat → K) (n : Nat) : K := loop (fun i m => if m < getAbs (v i) then getAbs (v i) else m) n 0

/-- The refinement loop of `determineStepDirection`, src/QProblemB.cpp:3097-3165: `m` passes left, `first` is `r == 0`;
`d` is `delta_xFR`, `res` is `delta_xFR_TMP`.  `none`: a triangular solve failed. -/
def refine (s : QPB K) (H : Nat → Nat → K) (dg : Nat → K) (isZero : Bool) (dxFX : Nat → K) :
    (m : Nat) → (first : Bool) → (res d : Nat → K) → Res (Option (Nat → K))
  | 0, _, _, d => .ok (some d)
  | m+1, first, res, d => do
    let nFR := s.bounds.nFR
    let nFX := s.bounds.nFX
    let res := if s.hessianType ≠ HST_ZERO ∧ s.hessianType ≠ HST_IDENTITY ∧ isZero = false ∧ first = true then
        fun i => if i < nFR then res i - sumTo (fun k => H (s.bounds.fr i) (s.bounds.fx k) * dxFX k) nFX else res i
      else res
    let (r, res) ← backsolveR s.R nFR none true res
    if r ≠ SUCCESSFUL_RETURN then .ok none else do
    let (r, res) ← backsolveR s.R nFR none false res
    if r ≠ SUCCESSFUL_RETURN then .ok none else
    let d := fun i => if i < nFR then d i + res i else d i
    if s.options.numRefinementSteps > 0 then
      let res : Nat → K := fun i => if i < nFR then -dg (s.bounds.fr i) else res i
      let res : Nat → K := match s.hessianType with
        | HST_ZERO => res
        | HST_IDENTITY => fun i => if i < nFR then res i - d i else res i
        | _ => fun i => if i < nFR then res i - sumTo (fun k => H (s.bounds.fr i) (s.bounds.fr k) * d k) nFR -
            sumTo (fun k => H (s.bounds.fr i) (s.bounds.fx k) * dxFX k) nFX else res i
      let rnrm := if s.hessianType = HST_ZERO then 0 else maxAbs res nFR
      if rnrm < s.options.epsIterRef then .ok (some d) else refine s H dg isZero dxFX m false res d
    else refine s H dg isZero dxFX m false res d

/-- Step direction: `delta_xFX`, `delta_xFR`, `delta_yFX`, by position in the index lists. -/
structure Dir (K : Type) where
  xFX : Nat → K
  xFR : Nat → K
  yFX : Nat → K

/-- `determineStepDirection`, src/QProblemB.cpp:3042-3203; `none` is `RET_STEPDIRECTION_FAILED_CHOLESKY`. -/
def determineStepDirection (s : QPB K) (dg dlb dub : Nat → K) (isZero : Bool) : Res (Option (Dir K)) := do
  let w := s.bounds
  let H ← if s.hessianType = HST_ZERO ∨ s.hessianType = HST_IDENTITY then .ok (fun _ _ => 0) else s.getH
  let dxFX : Nat → K := fun i => if isZero then 0 else if w.getStatus (w.fx i) = ST_LOWER then dlb (w.fx i) else dub (w.fx i)
  let o ← refine s H dg isZero dxFX (s.options.numRefinementSteps + 1).toNat true (fun i => -dg (w.fr i)) (fun _ => 0)
  match o with
  | none => .ok none
  | some dxFR =>
    let dyFX : Nat → K := match s.hessianType with
      | HST_ZERO => fun i => if s.usingRegularisation then dg (w.fx i) + s.regVal * dxFX i else dg (w.fx i)
      | HST_IDENTITY => fun i => dg (w.fx i) + dxFX i
      | _ => fun i =>
        let v := dg (w.fx i) + sumTo (fun k => H (w.fx i) (w.fr k) * dxFR k) w.nFR
        if isZero then v else v + sumTo (fun k => H (w.fx i) (w.fx k) * dxFX k) w.nFX
    .ok (some ⟨dxFX, dxFR, dyFX⟩)

/-- `isBlocking`, include/qpOASES/QProblemB.ipp:475-490 -/
def isBlocking (num den epsNum epsDen t : K) : Bool :=
  decide (den ≥ epsDen) && decide (num ≥ epsNum) && decide (num < t * den)

/-- `performRatioTest`, src/QProblemB.cpp:2065-2107: the rest of the index list starting at position `i`. -/
def ratioTest (w : WS) (num den : Nat → K) (epsNum epsDen : K) : (idx : List Nat) → (i : Nat) → (t : K) → (bc : Option Nat) →
    Res (K × Option Nat)
  | [], _, t, bc => .ok (t, bc)
  | ii :: idx, i, t, bc =>
    let blocking :=
      if w.type ii ≠ ST_EQUALITY then
        if w.getStatus ii = ST_LOWER ∨ w.getStatus ii = ST_INACTIVE then isBlocking (num i) (den i) epsNum epsDen t
        else if w.getStatus ii = ST_UPPER then isBlocking (-num i) (-den i) epsNum epsDen t
        else false
      else false
    if blocking then do
      let q ← cdiv (num i) (den i)
      ratioTest w num den epsNum epsDen idx (i+1) q (some ii)
    else ratioTest w num den epsNum epsDen idx (i+1) t bc

/-- `for (i = 0; i < nIdx; ++i) v[idx[i]] += tau*d[i];` -/
def addAt (tau : K) (d : Nat → K) : (idx : List Nat) → (i : Nat) → (v : Nat → K) → (Nat → K)
  | [], _, v => v
  | ii :: idx, i, v => addAt tau d idx (i+1) (updA v ii (v ii + tau * d i))

/-- Parts I and II of `performStep`, src/QProblemB.cpp:3228-3294: step length, `BC_idx`, `BC_status`. -/
def stepLength (s : QPB K) (dlb dub : Nat → K) (d : Dir K) : Res (K × Option (Nat × SubjectToStatus)) := do
  let w := s.bounds
  let (t, b) ← ratioTest w (fun i => s.y (w.fx i)) (fun i => -d.yFX i) s.options.epsNum s.options.epsDen w.fixed 0 1 none
  let bc := b.map fun k => (k, ST_INACTIVE)
  let (t, bc) ← if w.noLower = false then do
      let (t, b) ← ratioTest w (fun i => getMax (s.x (w.fr i) - s.lb (w.fr i)) 0) (fun i => dlb (w.fr i) - d.xFR i)
        s.options.epsNum s.options.epsDen w.free 0 t none
      pure (t, match b with | some k => some (k, ST_LOWER) | none => bc)
    else pure (t, bc)
  if w.noUpper = false then do
    let (t, b) ← ratioTest w (fun i => getMax (s.ub (w.fr i) - s.x (w.fr i)) 0) (fun i => d.xFR i - dub (w.fr i))
      s.options.epsNum s.options.epsDen w.free 0 t none
    pure (t, match b with | some k => some (k, ST_UPPER) | none => bc)
  else pure (t, bc)

/-- Part III of `performStep`, src/QProblemB.cpp:3313-3344 -/
def takeStep (s : QPB K) (dg dlb dub : Nat → K) (d : Dir K) (tau : K) : QPB K :=
  let s := { s with tau := tau }
  if tau > ZERO then
    { s with
      x := addAt tau d.xFX s.bounds.fixed 0 (addAt tau d.xFR s.bounds.free 0 s.x)
      y := addAt tau d.yFX s.bounds.fixed 0 s.y
      g := fun i => s.g i + tau * dg i
      lb := fun i => s.lb i + tau * dlb i
      ub := fun i => s.ub i + tau * dub i }
  else s

/-- `performStep`, src/QProblemB.cpp:3209-3348; always returns `SUCCESSFUL_RETURN`. -/
def performStep (s : QPB K) (dg dlb dub : Nat → K) (d : Dir K) : Res (QPB K × Option (Nat × SubjectToStatus)) := do
  let (tau, bc) ← stepLength s dlb dub d
  .ok (takeStep s dg dlb dub d tau, bc)

/-- One of the loops of `getRelativeHomotopyLength`, src/QProblemB.cpp:2121-2153 -/
def relLen (new old : Nat → K) (n : Nat) (len : K) : K :=
  loop (fun i len =>
    let s := if getAbs (new i) < 1 then 1 else getAbs (new i)
    let d := getAbs (new i - old i) / s
    if d > len then d else len) n len

/-- `getRelativeHomotopyLength`, src/QProblemB.cpp:2113-2157 -/
def homotopyLength (s : QPB K) (gNew : Nat → K) (lbNew ubNew : Option (Nat → K)) : K :=
  let len := relLen gNew s.g s.nV 0
  let len := match lbNew with | some l => relLen l s.lb s.nV len | none => len
  match ubNew with | some u => relLen u s.ub s.nV len | none => len

/-- `changeActiveSet`, src/QProblemB.cpp:3354-3400 -/
def changeActiveSet (sq : K → K) (s : QPB K) : Option (Nat × SubjectToStatus) → Res (ReturnValue × QPB K)
  | none => .ok (RET_OPTIMAL_SOLUTION_FOUND, s)
  | some (k, ST_INACTIVE) => do
    let (r, s) ← removeBound sq s k true
    if r ≠ SUCCESSFUL_RETURN then .ok (RET_REMOVE_FROM_ACTIVESET_FAILED, s)
    else .ok (SUCCESSFUL_RETURN, { s with y := updA s.y k 0 })
  | some (k, st) =>
    match addBound sq s k st true with
    | (r, s) => .ok (if r ≠ SUCCESSFUL_RETURN then RET_ADD_TO_ACTIVESET_FAILED else SUCCESSFUL_RETURN, s)

/-- Ramp value for position `i` of `n`, src/QProblemB.cpp:2179-2180 (and 2215-2216): divides by `n-1`. -/
def rampVal (s : QPB K) (i n : Nat) : Res K := do
  let t ← cdiv (((i + s.rampOffset) % n : Nat) : K) (((n : Int) - 1 : Int) : K)
  .ok ((1 - t) * s.ramp0 + t * s.ramp1)

/-- One element of `performRamping`, src/QProblemB.cpp:2169-2187 -/
def rampOne (s : QPB K) (i : Nat) : Res (QPB K) :=
  match s.bounds.type i with
  | ST_EQUALITY => .ok { s with lb := updA s.lb i (s.x i), ub := updA s.ub i (s.x i) }
  | ST_UNBOUNDED => .ok s
  | ST_DISABLED => .ok s
  | _ => do
    let v ← s.rampVal i s.nV
    let st := s.bounds.getStatus i
    let lb := if st ≠ ST_LOWER then updA s.lb i (s.x i - v) else s.lb
    let ub := if st ≠ ST_UPPER then updA s.ub i (s.x i + v) else s.ub
    let lb := if st = ST_LOWER then updA lb i (s.x i) else lb
    let y := if st = ST_LOWER then updA s.y i v else s.y
    let ub := if st = ST_UPPER then updA ub i (s.x i) else ub
    let y := if st = ST_UPPER then updA y i (-v) else y
    let y := if st = ST_INACTIVE then updA y i 0 else y
    .ok { s with lb := lb, ub := ub, y := y }

def rampLoop : (m i : Nat) → QPB K → Res (QPB K)
  | 0, _, s => .ok s
  | m+1, i, s => do
    let s ← rampOne s i
    rampLoop m (i+1) s

/-- `performRamping`, src/QProblemB.cpp:2163-2196 -/
def performRamping (s : QPB K) : Res (QPB K) := do
  let s ← rampLoop s.nV 0 s
  let s ← setupAuxiliaryQPgradient s
  .ok { s with rampOffset := s.rampOffset + 1 }

/-- One element of `performDriftCorrection`, src/QProblemB.cpp:3414-3448: new `(lb, ub, y)` -/
def driftOne (t : SubjectToType) (st : SubjectToStatus) (x lb ub y : K) : K × K × K :=
  match t with
  | ST_BOUNDED =>
    match st with
    | ST_LOWER => (x, getMax ub x, getMax y 0)
    | ST_UPPER => (getMin lb x, x, getMin y 0)
    | ST_INACTIVE => (getMin lb x, getMax ub x, 0)
    | _ => (lb, ub, y)
  | ST_EQUALITY => (x, x, y)
  | _ => (lb, ub, y)

/-- `performDriftCorrection`, src/QProblemB.cpp:3407-3452 -/
def performDriftCorrection (s : QPB K) : Res (QPB K) :=
  let v := fun i => driftOne (s.bounds.type i) (s.bounds.getStatus i) (s.x i) (s.lb i) (s.ub i) (s.y i)
  setupAuxiliaryQPgradient { s with
    lb := fun i => if i < s.nV then (v i).1 else s.lb i
    ub := fun i => if i < s.nV then (v i).2.1 else s.ub i
    y := fun i => if i < s.nV then (v i).2.2 else s.y i }

/-- `isCPUtimeLimitExceeded`, src/QProblemB.cpp:1971-1993; `nWSR` is the number of iterations performed. -/
def isCPUtimeLimitExceeded (s : QPB K) (cputime : Option K) (starttime : K) (nWSR : Int) : Bool × QPB K :=
  match cputime with
  | none => (false, s)
  | some c =>
    if nWSR ≤ 0 then (false, s)
    else
      let p := s.tick
      let elapsedTime := p.1 - starttime
      let timePerIteration := elapsedTime / (nWSR : K)
      (!decide (elapsedTime + timePerIteration * (5/4) ≤ c), p.2)

/-- `if ( cputime != 0 ) *cputime = getCPUtime( ) - starttime;` -/
def stopClock (s : QPB K) (cputime : Option K) (starttime : K) : Option K × QPB K :=
  match cputime with
  | none => (none, s)
  | some _ => let p := s.tick; (some (p.1 - starttime), p.2)

/-- Result of a solver call that stops the clock first. -/
def finish (s : QPB K) (rv : ReturnValue) (nWSR : Int) (cputime : Option K) (starttime : K) : Out K :=
  let p := s.stopClock cputime starttime
  ⟨rv, nWSR, p.1, p.2⟩

/-- Steps 6) to 8) of an iteration of `solveQP`, src/QProblemB.cpp:2571-2619.  `Except` carries a final result. -/
def endIteration (sq : K → K) (s : QPB K) (bc : Option (Nat × SubjectToStatus)) (iter nWSR : Int) (cputime : Option K) (starttime : K) :
    Res (Except (Out K) (QPB K)) := do
  let (r, s) ← changeActiveSet sq s bc
  if r ≠ SUCCESSFUL_RETURN then
    let o := s.finish r iter cputime starttime
    if o.s.infeasible then
      .ok (.error { o with rv := RET_HOTSTART_STOPPED_INFEASIBILITY, s := { o.s with status := QPS_HOMOTOPYQPSOLVED, infeasible := true } })
    else if o.s.unbounded then .ok (.error { o with rv := RET_HOTSTART_STOPPED_UNBOUNDEDNESS })
    else .ok (.error o)
  else do
    let (r, s) ← if s.options.enableCholeskyRefactorisation > 0 ∧ iter % s.options.enableCholeskyRefactorisation = 0 then
        computeCholesky sq s else .ok (SUCCESSFUL_RETURN, s)
    if r ≠ SUCCESSFUL_RETURN then .ok (.error ⟨r, nWSR, cputime, s⟩) else do
    let s ← if s.tau ≤ EPS ∧ s.options.enableRamping = true then performRamping s
      else if s.options.enableDriftCorrection > 0 ∧ (iter + 1) % s.options.enableDriftCorrection = 0 then performDriftCorrection s
      else .ok s
    .ok (.ok { s with status := QPS_HOMOTOPYQPSOLVED })

/-- One iteration of the main loop of `solveQP`, src/QProblemB.cpp:2479-2619 (after the check of the CPU time). -/
def iteration (sq : K → K) (s : QPB K) (gNew : Nat → K) (lbNew ubNew : Option (Nat → K)) (iter nWSR : Int)
    (cputime : Option K) (starttime : K) : Res (Except (Out K) (QPB K)) := do
  let s := { s with status := QPS_PERFORMINGHOMOTOPY }
  let dg : Nat → K := fun i => gNew i - s.g i
  let dlb : Nat → K := fun i => lowerOf lbNew i - s.lb i
  let dub : Nat → K := fun i => upperOf ubNew i - s.ub i
  let o ← determineStepDirection s dg dlb dub (s.deltaIsZero dlb dub)
  match o with
  | none => .ok (.error (s.finish RET_STEPDIRECTION_FAILED_CHOLESKY iter cputime starttime))
  | some d =>
    let (s, bc) ← performStep s dg dlb dub d
    if s.homotopyLength gNew lbNew ubNew ≤ s.options.terminationTolerance then
      .ok (.error (({ s with status := QPS_SOLVED } : QPB K).finish SUCCESSFUL_RETURN iter cputime starttime))
    else endIteration sq s bc iter nWSR cputime starttime

/-- The main loop of `solveQP`, src/QProblemB.cpp:2464-2648: at most `m` iterations left, the next one is `iter`. -/
def solveLoop (sq : K → K) (gNew : Nat → K) (lbNew ubNew : Option (Nat → K)) (nWSR performed : Int)
    (cputime : Option K) (starttime : K) : (m : Nat) → (iter : Int) → QPB K → Res (Out K)
  | 0, _, s => .ok (s.finish RET_MAX_NWSR_REACHED nWSR cputime starttime)
  | m+1, iter, s =>
    match s.isCPUtimeLimitExceeded cputime starttime (iter - performed) with
    | (true, s) =>
      let p := s.stopClock cputime starttime
      .ok (p.2.finish RET_MAX_NWSR_REACHED iter p.1 starttime)
    | (false, s) => do
      let e ← iteration sq s gNew lbNew ubNew iter nWSR cputime starttime
      match e with
      | .error o => .ok o
      | .ok s => solveLoop sq gNew lbNew ubNew nWSR performed cputime starttime m (iter+1) s

/-- `solveQP`, src/QProblemB.cpp:2407-2648 -/
def solveQP (sq : K → K) (s : QPB K) (gNew : Nat → K) (lbNew ubNew : Option (Nat → K)) (nWSR : Int) (cputime : Option K)
    (performed : Int) : Res (Out K) :=
  if s.status = QPS_NOTINITIALISED ∨ s.status = QPS_PREPARINGAUXILIARYQP ∨ s.status = QPS_PERFORMINGHOMOTOPY then
    .ok ⟨RET_HOTSTART_FAILED_AS_QP_NOT_INITIALISED, nWSR, cputime, s⟩
  else
    let p := s.startClock cputime
    let s := p.2.setupSubjectToType lbNew ubNew
    let s := { s with infeasible := false, unbounded := false }
    solveLoop sq gNew lbNew ubNew nWSR performed cputime p.1 (nWSR - performed).toNat performed s

/-- Regularisation steps, src/QProblemB.cpp:2706-2756: `m` steps left; `o` is the result of the previous solve,
`total` the CPU time used so far. -/
def regSteps (sq : K → K) (gNew : Nat → K) (lbNew ubNew : Option (Nat → K)) (nWSRmax : Int) (cputime : Option K) :
    (m : Nat) → (o : Out K) → (total : K) → Res (Out K)
  | 0, o, total => .ok { o with rv := SUCCESSFUL_RETURN, cputime := cputime.map fun _ => total, s := { o.s with g := gNew } }
  | m+1, o, total => do
    let gMod := fun i => gNew i - o.s.regVal * o.s.x i
    let o ← solveQP sq o.s gMod lbNew ubNew nWSRmax (cputime.map fun c => c - total) o.nWSR
    let total := total + o.cputime.getD 0
    if o.rv ≠ SUCCESSFUL_RETURN then .ok { o with cputime := cputime.map fun _ => total }
    else regSteps sq gNew lbNew ubNew nWSRmax cputime m o total

/-- `solveRegularisedQP`, src/QProblemB.cpp:2654-2757.  `numRegularisationSteps` is read once: it does not change
during the loop. -/
def solveRegularisedQP (sq : K → K) (s : QPB K) (gNew : Nat → K) (lbNew ubNew : Option (Nat → K)) (nWSR : Int) (cputime : Option K)
    (performed : Int) : Res (Out K) :=
  if s.usingRegularisation = false then solveQP sq s gNew lbNew ubNew nWSR cputime performed
  else do
    let o ← solveQP sq s gNew lbNew ubNew nWSR cputime performed
    let total := o.cputime.getD 0
    if o.rv ≠ SUCCESSFUL_RETURN then .ok { o with cputime := cputime.map fun _ => total }
    else regSteps sq gNew lbNew ubNew nWSR cputime o.s.options.numRegularisationSteps.toNat o total

/-- `areBoundsConsistent`, src/QProblemB.cpp:1954-1964 -/
def areBoundsConsistent (s : QPB K) (lbNew ubNew : Option (Nat → K)) : Bool :=
  match lbNew, ubNew with
  | some l, some u => (List.range s.nV).all fun i => !decide (l i > u i + EPS)
  | _, _ => true

/-- Ramp factor for far bounds, src/QProblemB.cpp:2211-2216 -/
def farVal (s : QPB K) (cur : K) (nRamp i : Nat) : Res K :=
  if s.options.enableRamping then do
    let v ← s.rampVal i nRamp
    .ok (cur * (1 + v))
  else .ok cur

/-- `updateFarBounds`, src/QProblemB.cpp:2202-2246: elements `i`, …, `i+m-1`. -/
def updateFarBounds (s : QPB K) (cur : K) (nRamp : Nat) (lbNew ubNew : Option (Nat → K)) :
    (m i : Nat) → (lf uf : Nat → K) → Res ((Nat → K) × (Nat → K))
  | 0, _, lf, uf => .ok (lf, uf)
  | m+1, i, lf, uf => do
    let v ← s.farVal cur nRamp i
    updateFarBounds s cur nRamp lbNew ubNew m (i+1)
      (updA lf i (match lbNew with | none => -v | some l => getMax (-v) (l i)))
      (updA uf i (match ubNew with | none => v | some u => getMin v (u i)))

/-- Initial far bound, src/QProblemB.cpp:464, 489-494 -/
def initialFar (s : QPB K) (lbNew ubNew : Option (Nat → K)) : K :=
  let f := s.options.initialFarBounds
  let f := match ubNew with
    | some u => loop (fun i f => if u i < INFTY ∧ u i > f then u i else f) s.nV f
    | none => f
  match lbNew with
    | some l => loop (fun i f => if l i > -INFTY ∧ l i < -f then -(l i) else f) s.nV f
    | none => f

/-- Number of active far bounds, src/QProblemB.cpp:535-542 -/
def nActiveFar (s : QPB K) (lbNew ubNew : Option (Nat → K)) (lf uf : Nat → K) (tol : K) : Nat :=
  (List.range s.nV).countP (fun i =>
      (match lbNew with | none => true | some l => decide (lf i > l i)) && decide (getAbs (lf i - s.x i) < tol)) +
  (List.range s.nV).countP (fun i =>
      (match ubNew with | none => true | some u => decide (uf i < u i)) && decide (getAbs (uf i - s.x i) < tol))

/-- The far bound loop of `hotstart`, src/QProblemB.cpp:500-568, with a bound on the number of passes. -/
def farLoop (sq : K → K) (gNew : Nat → K) (lbNew ubNew : Option (Nat → K)) (nWSRmax : Int) (cputime : Option K) :
    (fuel : Nat) → QPB K → (farbound : K) → (lf uf : Nat → K) → (performed : Int) → (needed remaining : K) →
    Res (Out K × K)
  | 0, _, _, _, _, _, _, _ => .ub .diverge
  | fuel+1, s, farbound, lf, uf, performed, needed, remaining => do
    let remaining := match cputime with | some c => c - needed | none => remaining
    let o ← solveRegularisedQP sq s gNew (some lf) (some uf) nWSRmax (some remaining) performed
    let remaining := o.cputime.getD 0
    let needed := needed + remaining
    let farbound := farbound * o.s.options.growFarBounds
    if o.s.infeasible then
      if farbound ≥ INFTY then .ok ({ o with rv := RET_HOTSTART_STOPPED_INFEASIBILITY }, needed)
      else do
        let (lf, uf) ← updateFarBounds o.s farbound o.s.nV lbNew ubNew o.s.nV 0 lf uf
        farLoop sq gNew lbNew ubNew nWSRmax cputime fuel { o.s with rampOffset := o.s.rampOffset + 1 } farbound lf uf o.nWSR needed remaining
    else if o.s.status = QPS_SOLVED then do
      let q ← cdiv farbound o.s.options.growFarBounds
      let tol := q * o.s.options.boundTolerance
      if o.s.nActiveFar lbNew ubNew lf uf tol = 0 then .ok (o, needed)
      else
        let s := { o.s with status := QPS_HOMOTOPYQPSOLVED }
        if farbound ≥ INFTY then
          .ok ({ o with rv := RET_HOTSTART_STOPPED_UNBOUNDEDNESS, s := { s with unbounded := true } }, needed)
        else do
          let (lf, uf) ← updateFarBounds s farbound s.nV lbNew ubNew s.nV 0 lf uf
          farLoop sq gNew lbNew ubNew nWSRmax cputime fuel { s with rampOffset := s.rampOffset + 1 } farbound lf uf o.nWSR needed remaining
    else .ok (o, needed)

/-- `hotstart` after the working set guess has been processed, src/QProblemB.cpp:449-577. -/
def hotstartMain (sq : K → K) (fuel : Nat) (s : QPB K) (gNew : Nat → K) (lbNew ubNew : Option (Nat → K)) (nWSR : Int)
    (cputime : Option K) (auxTime : K) : Res (Out K) :=
  if s.areBoundsConsistent lbNew ubNew = false then
    .ok ⟨SUCCESSFUL_RETURN, nWSR, cputime, { s with infeasible := true }⟩
  else do
    let s := { s with count := s.count + 1 }
    let (r, s) ← if s.haveCholesky = false then setupInitialCholesky sq s else .ok (SUCCESSFUL_RETURN, s)
    if r ≠ SUCCESSFUL_RETURN then .ok ⟨r, nWSR, cputime, s⟩
    else if s.options.enableFarBounds = false then
      solveRegularisedQP sq s gNew lbNew ubNew nWSR cputime 0
    else do
      let farbound := s.initialFar lbNew ubNew
      let (lf, uf) ← updateFarBounds s farbound s.nV lbNew ubNew s.nV 0 (fun _ => 0) (fun _ => 0)
      let (o, needed) ← farLoop sq gNew lbNew ubNew nWSR cputime fuel s farbound lf uf 0 0 INFTY
      .ok { o with cputime := cputime.map fun _ => needed + auxTime }

/-- The pointer `guessedBounds` of `hotstart`: null, the object's own working set, or another one. -/
inductive Guess where
  | null
  | self
  | other (w : WS)

/-- `hotstart`, src/QProblemB.cpp:414-578 -/
def hotstart (sq : K → K) (fuel : Nat) (s : QPB K) (gNew : Nat → K) (lbNew ubNew : Option (Nat → K)) (nWSR : Int)
    (cputime : Option K) (guess : Guess) : Res (Out K) :=
  if s.nV = 0 then .ok ⟨RET_QPOBJECT_NOT_SETUP, nWSR, cputime, s⟩
  else match guess with
    | .null => hotstartMain sq fuel s gNew lbNew ubNew nWSR cputime 0
    | g => do
      let p := s.startClock cputime
      let (r, s) ← match g with
        | .other w => setupAuxiliaryQP sq p.2 w
        | _ => .ok (SUCCESSFUL_RETURN, p.2)
      if r ≠ SUCCESSFUL_RETURN then .ok ⟨RET_SETUP_AUXILIARYQP_FAILED, nWSR, cputime, s⟩ else
      let s := { s with status := QPS_AUXILIARYQPSOLVED }
      let q := s.stopClock cputime p.1
      let auxTime := q.1.getD 0
      hotstartMain sq fuel q.2 gNew lbNew ubNew nWSR (cputime.map fun c => c - auxTime) auxTime

/-- Copying an external Cholesky factor, src/QProblemB.cpp:2318-2339 (`_R == R` only when reading from files). -/
def takeFactor (s : QPB K) (noGuess : Bool) (R : Option (Nat → K)) : QPB K :=
  match R with
  | none => s
  | some R =>
    if s.options.initialStatusBounds ≠ ST_INACTIVE then s
    else if noGuess then
      { s with R := fun i j => if i ≤ j ∧ j < s.nV then R (i * s.nV + j) else s.R i j, haveCholesky := true }
    else s

/-- Setting up working set and data of the auxiliary QP in `solveInitialQP`, src/QProblemB.cpp:2296-2366.  `Except` carries a
final result. -/
def prepareAuxiliary (sq : K → K) (s : QPB K) (xOpt yOpt : Option (Nat → K)) (guess : Option WS) (R : Option (Nat → K))
    (nWSR : Int) (cputime : Option K) : Res (Except (Out K) (QPB K)) :=
  match obtainAux (s.auxStatus xOpt yOpt guess) s.nV 0 (WS.init s.nV) with
  | none => .ok (.error ⟨RET_INIT_FAILED, nWSR, cputime, s⟩)
  | some aux => do
    let (r, s) ← setupAuxiliaryWorkingSet sq s aux true
    if r ≠ SUCCESSFUL_RETURN then .ok (.error ⟨RET_INIT_FAILED, nWSR, cputime, s⟩) else do
    let (r, s) ← if s.hessianType = HST_ZERO ∨ s.hessianType = HST_SEMIDEF then regulariseHessian sq s
      else .ok (SUCCESSFUL_RETURN, s)
    if r ≠ SUCCESSFUL_RETURN then .ok (.error ⟨RET_INIT_FAILED_REGULARISATION, nWSR, cputime, s⟩) else do
    let s := takeFactor { s with haveCholesky := false } (xOpt.isNone && yOpt.isNone && guess.isNone) R
    let (r, s) ← (do
      let s ← setupAuxiliaryQPgradient s
      Res.ok (setupAuxiliaryQPbounds true s.nV 0 s))
    if r ≠ SUCCESSFUL_RETURN then .ok (.error ⟨RET_INIT_FAILED, nWSR, cputime, s⟩)
    else .ok (.ok { s with status := QPS_AUXILIARYQPSOLVED })

/-- Setting up the auxiliary QP in `solveInitialQP`, src/QProblemB.cpp:2274-2366. -/
def prepareInitialQP (sq : K → K) (s : QPB K) (xOpt yOpt : Option (Nat → K)) (guess : Option WS) (R : Option (Nat → K))
    (nWSR : Int) (cputime : Option K) : Res (Except (Out K) (QPB K)) :=
  let s := { s with status := QPS_NOTINITIALISED }
  let (r, s) := s.determineHessianType
  if r ≠ SUCCESSFUL_RETURN then .ok (.error ⟨RET_INIT_FAILED, nWSR, cputime, s⟩) else
  let s := s.setupSubjectToType (some s.lb) (some s.ub)
  let s := { s with status := QPS_PREPARINGAUXILIARYQP }
  let s := { s with bounds := s.bounds.setupAllFree }
  let s := { s with x := xOpt.getD fun _ => 0, y := yOpt.getD fun _ => 0 }
  prepareAuxiliary sq s xOpt yOpt guess R nWSR cputime

/-- `solveInitialQP`, src/QProblemB.cpp:2259-2401.  `g_original`, `lb_original` and `ub_original` are copied before the
auxiliary data overwrite the members, which nothing before that changes: they are the members at the beginning. -/
def solveInitialQP (sq : K → K) (fuel : Nat) (s : QPB K) (xOpt yOpt : Option (Nat → K)) (guess : Option WS) (R : Option (Nat → K))
    (nWSR : Int) (cputime : Option K) : Res (Out K) := do
  let p := s.startClock cputime
  let starttime := p.1
  let e ← prepareInitialQP sq p.2 xOpt yOpt guess R nWSR cputime
  match e with
  | .error o => .ok o
  | .ok s' =>
  let q := s'.stopClock cputime starttime
  let o ← hotstart sq fuel q.2 s.g (some s.lb) (some s.ub) nWSR (cputime.map fun c => c - q.1.getD 0) .null
  if o.s.infeasible then .ok { o with rv := RET_INIT_FAILED_INFEASIBILITY }
  else if o.s.unbounded then .ok { o with rv := RET_INIT_FAILED_UNBOUNDEDNESS }
  else if o.rv ≠ SUCCESSFUL_RETURN ∧ o.rv ≠ RET_MAX_NWSR_REACHED then .ok { o with rv := RET_INIT_FAILED_HOTSTART }
  else .ok (o.s.finish o.rv o.nWSR o.cputime starttime)

/-- `setH( const real_t* )`, include/qpOASES/QProblemB.ipp:269-302: `H_new[i*nV+j]`. -/
def setH (s : QPB K) (H : Option (Nat → K)) : QPB K :=
  match H with
  | none => if s.hessianType = HST_IDENTITY then s else { s with hessianType := HST_ZERO, H := none }
  | some H => { s with H := some fun i j => H (i * s.nV + j) }

/-- `setupQPdata`, src/QProblemB.cpp:1781-1799, for a nonempty problem. -/
def setupQPdata (s : QPB K) (H g lb ub : Option (Nat → K)) : ReturnValue × QPB K :=
  let s := s.setH H
  match g with
  | none => (RET_INVALID_ARGUMENTS, s)
  | some g => (SUCCESSFUL_RETURN, { s with g := g, lb := lowerOf lb, ub := upperOf ub })

/-- `init( const real_t* H, … )`, src/QProblemB.cpp:302-345 -/
def init (sq : K → K) (fuel : Nat) (s : QPB K) (H g lb ub : Option (Nat → K)) (nWSR : Int) (cputime : Option K)
    (xOpt yOpt : Option (Nat → K)) (guess : Option WS) (R : Option (Nat → K)) : Res (Out K) :=
  if s.nV = 0 then .ok ⟨RET_QPOBJECT_NOT_SETUP, nWSR, cputime, s⟩
  else
    let s := if s.status ≠ QPS_NOTINITIALISED then s.reset else s
    if guess.any fun w => (List.range s.nV).any fun i => w.getStatus i == ST_UNDEFINED then
      .ok ⟨RET_INVALID_ARGUMENTS, nWSR, cputime, s⟩
    else if xOpt.isNone && yOpt.isSome && guess.isSome then .ok ⟨RET_INVALID_ARGUMENTS, nWSR, cputime, s⟩
    else if R.isSome && (xOpt.isSome || yOpt.isSome || guess.isSome) then
      .ok ⟨RET_NO_CHOLESKY_WITH_INITIAL_GUESS, nWSR, cputime, s⟩
    else
      match s.setupQPdata H g lb ub with
      | (r, s) =>
        if r ≠ SUCCESSFUL_RETURN then .ok ⟨RET_INVALID_ARGUMENTS, nWSR, cputime, s⟩
        else solveInitialQP sq fuel s xOpt yOpt guess R nWSR cputime

/-- `getObjVal( x )`, src/QProblemB.cpp:724-768 -/
def getObjValAt (s : QPB K) (x : Nat → K) : Res K :=
  if s.nV = 0 then .ok 0
  else do
    let v := sumTo (fun i => x i * s.g i) s.nV
    let v ← match s.hessianType with
      | HST_ZERO => pure v
      | HST_IDENTITY => pure (v + sumTo (fun i => 1/2 * x i * x i) s.nV)
      | _ => do
        let H ← s.getH
        pure (v + sumTo (fun i => 1/2 * x i * sumTo (fun j => H i j * x j) s.nV) s.nV)
    .ok (if s.usingRegularisation then v + sumTo (fun i => 1/2 * x i * s.regVal * x i) s.nV else v)

/-- Has a solution to report, src/QProblemB.cpp:706-708, 780-782, 808-810 -/
def hasSolution (s : QPB K) : Bool :=
  s.status = QPS_AUXILIARYQPSOLVED ∨ s.status = QPS_HOMOTOPYQPSOLVED ∨ s.status = QPS_SOLVED

/-- `getObjVal( )`, src/QProblemB.cpp:700-718 -/
def getObjVal (s : QPB K) : Res K := if s.hasSolution then s.getObjValAt s.x else .ok INFTY

/-- `getPrimalSolution`, src/QProblemB.cpp:774-793: return value and the caller's array afterwards. -/
def getPrimalSolution (s : QPB K) (xOpt : Nat → K) : ReturnValue × (Nat → K) :=
  if s.hasSolution then (SUCCESSFUL_RETURN, fun i => if i < s.nV then s.x i else xOpt i) else (RET_QP_NOT_SOLVED, xOpt)

/-- `getDualSolution`, src/QProblemB.cpp:799-818 -/
def getDualSolution (s : QPB K) (yOpt : Nat → K) : ReturnValue × (Nat → K) :=
  (if s.hasSolution then SUCCESSFUL_RETURN else RET_QP_NOT_SOLVED, fun i => if i < s.nV then s.y i else yOpt i)

/-- `getWorkingSetBounds`, src/QProblemB.cpp:653-672 -/
def getWorkingSetBounds (s : QPB K) (ws : Option (Nat → K)) : ReturnValue × Option (Nat → K) :=
  match ws with
  | none => (RET_INVALID_ARGUMENTS, none)
  | some ws => (SUCCESSFUL_RETURN, some fun i =>
      if i < s.nV then (match s.bounds.getStatus i with | ST_LOWER => -1 | ST_UPPER => 1 | _ => 0) else ws i)

end
end QPB
end QpOASES
