import Verif.Model.QProblemFactor

/-!
`QProblem`, second part: homotopy steps, set-up of auxiliary problems, `solveQP`, `hotstart`, `init` and the queries.
src/QProblem.cpp, include/qpOASES/QProblem.ipp.

Conventions as in `Verif.Model.QProblemB` and `Verif.Model.QProblemFactor`.  Only the variant of `init` taking plain arrays is
modelled; the one taking matrix objects also marks constraints with an empty row as disabled
(include/qpOASES/QProblem.ipp:136-138).
-/
namespace QpOASES
open SubjectToStatus SubjectToType ReturnValue HessianType QProblemStatus

/-- What a solver call leaves behind: return value, `nWSR`, `*cputime` and the object. -/
structure OutC (K : Type) where
  rv : ReturnValue
  nWSR : Int
  cputime : Option K
  s : QPC K

namespace QPC

section
variable {K : Type} [Field K] [LinearOrder K] [IsStrictOrderedRing K]

/-- `QProblem::QProblem( nV, nC, hessianType )`, src/QProblem.cpp:82-176, with dense matrices.  `T`, `Q`, `Ax`, `Ax_l`, `Ax_u` are
not initialised by the constructor; they are written before they are read. -/
def new (nV nC : Int) (hessianType : HessianType) (clk : Nat → K) : QPC K :=
  let b := QPB.new nV hessianType clk
  let nC := nC.toNat
  { b with
    nC := nC
    cons := WS.init nC
    A := fun _ _ => 0
    lbA := fun _ => 0
    ubA := fun _ => 0
    Ax := fun _ => 0
    Axl := fun _ => 0
    Axu := fun _ => 0
    T := fun _ _ => 0
    Q := fun _ _ => 0
    sizeT := min b.nV nC
    flipC := none }

/-- `reset`, src/QProblem.cpp:219-252 -/
def reset (s : QPC K) : QPC K :=
  { s with
    toQPB := s.toQPB.reset
    cons := WS.init s.nC
    T := fun _ _ => 0
    Q := fun _ _ => 0
    flipC := none }

/-- Type of constraint `i`, part 3) of `setupSubjectToType`, src/QProblem.cpp:1987-2027 -/
def typeOfC (s : QPC K) (lbANew ubANew : Option (Nat → K)) (i : Nat) : SubjectToType :=
  if s.cons.type i = ST_DISABLED then ST_DISABLED
  else match lbANew, ubANew with
    | some l, some u =>
      if l i < -INFTY + s.options.boundTolerance ∧ u i > INFTY - s.options.boundTolerance ∧ s.options.enableFarBounds = false then
        ST_UNBOUNDED
      else if s.options.enableEqualities = true ∧ s.lbA i > s.ubA i - s.options.boundTolerance ∧
          l i > u i - s.options.boundTolerance then ST_EQUALITY
      else ST_BOUNDED
    | none, none => ST_UNBOUNDED
    | _, _ => ST_BOUNDED

/-- `setupSubjectToType( lb,ub,lbA,ubA )`, src/QProblem.cpp:1935-2030; always returns `SUCCESSFUL_RETURN` -/
def setupSubjectToType (s : QPC K) : QPC K :=
  { s with
    toQPB := s.toQPB.setupSubjectToType (some s.lb) (some s.ub)
    cons := { s.cons with
      noLower := (List.range s.nC).all fun i => !decide (s.lbA i > -INFTY)
      noUpper := (List.range s.nC).all fun i => !decide (s.ubA i < INFTY)
      type := fun i => if i < s.nC then s.typeOfC (some s.lbA) (some s.ubA) i else s.cons.type i } }

/-- The matrix `computeProjectedCholesky` factorises, src/QProblem.cpp:2064-2102, and `Q`; `none` is `RET_UNKNOWN_BUG`. -/
def projectedHessian (s : QPC K) : Res (Option ((Nat → Nat → K) × (Nat → Nat → K))) :=
  let nFR := s.nFR
  let nZ := s.nZ
  let proj := fun (M : Nat → Nat → K) (i j : Nat) =>
    if i < nZ ∧ j < nZ then sumTo (fun a => s.Q (s.fr a) i * sumTo (fun b => M (s.fr a) (s.fr b) * s.Q (s.fr b) j) nFR) nFR else 0
  match s.hessianType with
  | HST_ZERO => if s.usingRegularisation then .ok (some (proj fun i j => if i = j then s.regVal else 0, s.Q)) else .ok none
  | HST_IDENTITY => .ok (some (proj fun i j => if i = j then 1 else 0, s.Q))
  | _ => do
    let H ← s.getH
    if s.nAC = 0 then
      .ok (some (fun i j => if i < nFR ∧ j < nFR then H (s.fr i) (s.fr j) else 0,
        fun i j => if j < nZ ∧ i < s.nV then (if i = s.fr j then 1 else 0) else s.Q i j))
    else .ok (some (proj H, s.Q))

/-- `computeProjectedCholesky`, src/QProblem.cpp:2036-2129 -/
def computeProjectedCholesky (sq : K → K) (s : QPC K) : Res (ReturnValue × QPC K) :=
  if s.nFX + s.nAC = 0 then do
    let (r, b) ← QPB.computeCholesky sq s.toQPB
    .ok (r, { s with toQPB := b })
  else
    let s := { s with R := fun _ _ => 0 }
    let nZ := s.nZ
    if nZ = 0 then .ok (SUCCESSFUL_RETURN, s)
    else do
      match ← s.projectedHessian with
      | none => .ok (RET_UNKNOWN_BUG, s)
      | some (R0, Q) =>
        let p := potrf sq nZ (fun q => R0 (q % s.nV) (q / s.nV)) s.nV
        let R1 : Nat → Nat → K := fun i j => p.2 (i + s.nV * j)
        let s := { s with R := R1, Q := Q }
        if p.1 > 0 then
          let s := if R1 0 0 < 0 then
              { s with options := { s.options with
                epsRegularisation := getMin (-(R1 0 0) + s.options.epsRegularisation) (sq (getAbs s.options.epsRegularisation)) } }
            else s
          .ok (RET_HESSIAN_NOT_SPD, { s with hessianType := HST_SEMIDEF })
        else .ok (SUCCESSFUL_RETURN, { s with R := fun i j => if i = j + 1 ∧ j + 1 < nZ then 0 else R1 i j })

/-- `regulariseHessian` of the base class -/
def regulariseHessian (sq : K → K) (s : QPC K) : Res (ReturnValue × QPC K) := do
  let (r, b) ← QPB.regulariseHessian sq s.toQPB
  .ok (r, { s with toQPB := b })

/-- `setupInitialCholesky`, src/QProblem.cpp:2135-2163 -/
def setupInitialCholesky (sq : K → K) (s : QPC K) : Res (ReturnValue × QPC K) := do
  let (r, s) ← if (s.nV : Int) ≠ (s.nFR : Int) - s.bounds.nFV ∧ s.options.enableRegularisation = true then
      regulariseHessian sq s else .ok (SUCCESSFUL_RETURN, s)
  if r ≠ SUCCESSFUL_RETURN then .ok (RET_INIT_FAILED_REGULARISATION, s) else do
  let (r, s) ← computeProjectedCholesky sq s
  if r = RET_HESSIAN_NOT_SPD then do
    let (r, s) ← regulariseHessian sq s
    if r ≠ SUCCESSFUL_RETURN then .ok (RET_INIT_FAILED_REGULARISATION, s) else do
    let (r, s) ← computeProjectedCholesky sq s
    if r ≠ SUCCESSFUL_RETURN then .ok (RET_INIT_FAILED_CHOLESKY, s)
    else .ok (SUCCESSFUL_RETURN, { s with haveCholesky := true })
  else if r ≠ SUCCESSFUL_RETURN then .ok (RET_INIT_FAILED_CHOLESKY, s)
  else .ok (SUCCESSFUL_RETURN, { s with haveCholesky := true })

/-- `setupTQfactorisation`, src/QProblem.cpp:2169-2193; always returns `SUCCESSFUL_RETURN` -/
def setupTQfactorisation (s : QPC K) : QPC K :=
  { s with
    Q := fun i j => if j < s.nFR ∧ i = s.fr j then 1 else 0
    T := fun _ _ => 0 }

/-- Status chosen for constraint `i` by `obtainAuxiliaryWorkingSet`, src/QProblem.cpp:2224-2341 -/
def auxStatusC (s : QPC K) (xOpt yOpt : Option (Nat → K)) (guess : Option WS) (i : Nat) : SubjectToStatus :=
  let none' := if s.cons.type i = ST_EQUALITY then ST_LOWER else ST_INACTIVE
  match guess with
  | some w => if s.cons.type i = ST_EQUALITY then ST_LOWER else w.getStatus i
  | none =>
    match xOpt, yOpt with
    | some _, none =>
      if s.Ax i - s.lbA i ≤ s.options.boundTolerance then ST_LOWER
      else if s.ubA i - s.Axu i ≤ s.options.boundTolerance then ST_UPPER
      else none'
    | _, some y => if y (s.nV + i) > EPS then ST_LOWER else if y (s.nV + i) < -EPS then ST_UPPER else none'
    | none, none => none'

/-- `for( i=0; i<m; ++i )` around calls that may fail; stops at the first failure -/
def seqLoop (f : Nat → QPC K → Res (ReturnValue × QPC K)) : (m i : Nat) → QPC K → Res (ReturnValue × QPC K)
  | 0, _, s => .ok (SUCCESSFUL_RETURN, s)
  | m+1, i, s => do
    let (r, s) ← f i s
    if r ≠ SUCCESSFUL_RETURN then .ok (r, s) else seqLoop f m (i+1) s

/-- `addBound( i,st,updateCholesky )`: `ensureLI` has its default value and matters only if the factor is updated -/
def addBoundAs (sq : K → K) (s : QPC K) (i : Nat) (st : SubjectToStatus) (upd : Bool) : Res (ReturnValue × QPC K) :=
  if upd then addBound sq s i st else addBoundPlain sq s i st false

/-- `addConstraint( i,st,updateCholesky )` -/
def addConstraintAs (sq : K → K) (s : QPC K) (i : Nat) (st : SubjectToStatus) (upd : Bool) : Res (ReturnValue × QPC K) :=
  if upd then addConstraint sq s i st else addConstraintPlain sq s i st false

/-- Status in the working set to be adopted; `none` is the object's own working set. -/
def wantB (s : QPC K) (aux : Option WS) (i : Nat) : SubjectToStatus := (aux.getD s.bounds).getStatus i
def wantC (s : QPC K) (aux : Option WS) (i : Nat) : SubjectToStatus := (aux.getD s.cons).getStatus i

/-- Part II 1) of `setupAuxiliaryWorkingSet`, src/QProblem.cpp:2432-2441, for constraint `i` -/
def auxRemoveC (sq : K → K) (aux : Option WS) (i : Nat) (s : QPC K) : Res (ReturnValue × QPC K) := do
  let (r, s) ← if s.cons.getStatus i = ST_LOWER ∧ s.wantC aux i ≠ ST_LOWER then
      removeConstraint sq s i true false s.options.enableNZCTests else .ok (SUCCESSFUL_RETURN, s)
  if r ≠ SUCCESSFUL_RETURN then .ok (r, s)
  else if s.cons.getStatus i = ST_UPPER ∧ s.wantC aux i ≠ ST_UPPER then removeConstraint sq s i true false s.options.enableNZCTests
  else .ok (SUCCESSFUL_RETURN, s)

/-- Part II 2) of `setupAuxiliaryWorkingSet`, src/QProblem.cpp:2445-2454, for bound `i` -/
def auxRemoveB (sq : K → K) (aux : Option WS) (i : Nat) (s : QPC K) : Res (ReturnValue × QPC K) := do
  let (r, s) ← if s.bounds.getStatus i = ST_LOWER ∧ s.wantB aux i ≠ ST_LOWER then
      removeBound sq s i true false s.options.enableNZCTests else .ok (SUCCESSFUL_RETURN, s)
  if r ≠ SUCCESSFUL_RETURN then .ok (r, s)
  else if s.bounds.getStatus i = ST_UPPER ∧ s.wantB aux i ≠ ST_UPPER then removeBound sq s i true false s.options.enableNZCTests
  else .ok (SUCCESSFUL_RETURN, s)

/-- Adding equality bound `i`, src/QProblem.cpp:2461-2474 -/
def auxEqB (sq : K → K) (upd : Bool) (i : Nat) (s : QPC K) : Res (ReturnValue × QPC K) :=
  if s.bounds.type i = ST_EQUALITY ∧ s.bounds.getStatus i = ST_INACTIVE then addBoundAs sq s i ST_LOWER upd
  else .ok (SUCCESSFUL_RETURN, s)

/-- Adding equality constraint `i`, src/QProblem.cpp:2477-2498 -/
def auxEqC (sq : K → K) (upd : Bool) (i : Nat) (s : QPC K) : Res (ReturnValue × QPC K) := do
  if s.cons.type i = ST_EQUALITY ∧ s.cons.getStatus i = ST_INACTIVE then do
    if ← s.checkLIConstraint i then addConstraintAs sq s i ST_LOWER upd
    else .ok (SUCCESSFUL_RETURN, { s with cons := { s.cons with type := updA s.cons.type i ST_BOUNDED } })
  else .ok (SUCCESSFUL_RETURN, s)

/-- Part III 3) of `setupAuxiliaryWorkingSet`, src/QProblem.cpp:2503-2514, for bound `i` -/
def auxAddB (sq : K → K) (aux : Option WS) (upd : Bool) (i : Nat) (s : QPC K) : Res (ReturnValue × QPC K) := do
  if s.bounds.type i ≠ ST_EQUALITY ∧ s.bounds.getStatus i = ST_INACTIVE ∧ s.wantB aux i ≠ ST_INACTIVE then do
    if ← s.checkLIBound i then addBoundAs sq s i (s.wantB aux i) upd else .ok (SUCCESSFUL_RETURN, s)
  else .ok (SUCCESSFUL_RETURN, s)

/-- Part III 4) of `setupAuxiliaryWorkingSet`, src/QProblem.cpp:2518-2533, for constraint `i` -/
def auxAddC (sq : K → K) (aux : Option WS) (upd : Bool) (i : Nat) (s : QPC K) : Res (ReturnValue × QPC K) := do
  if s.cons.type i ≠ ST_EQUALITY ∧ s.wantC aux i ≠ ST_INACTIVE ∧ s.cons.getStatus i = ST_INACTIVE then do
    if ← s.checkLIConstraint i then addConstraintAs sq s i (s.wantC aux i) upd else .ok (SUCCESSFUL_RETURN, s)
  else .ok (SUCCESSFUL_RETURN, s)

/-- The short cut of `setupAuxiliaryWorkingSet`, src/QProblem.cpp:2384-2399 -/
def isTrivial (s : QPC K) (auxB auxC : Option WS) : Bool :=
  ((List.range s.nV).all fun i => s.wantB auxB i != ST_INACTIVE) &&
  ((List.range s.nC).all fun i => !(s.cons.type i == ST_EQUALITY || s.wantC auxC i != ST_INACTIVE))

/-- Fixing all free variables, src/QProblem.cpp:2403-2405; the statuses are not `ST_INACTIVE`.  With `none` there is nothing to do. -/
def fixAll (aux : Option WS) (s : QPC K) : QPC K :=
  match aux with
  | none => s
  | some w => { s with bounds := loop (fun i b => if b.getStatus i = ST_INACTIVE then b.moveFreeToFixed i (w.getStatus i) else b) s.nV s.bounds }

/-- The loops of `setupAuxiliaryWorkingSet`, src/QProblem.cpp:2428-2533 -/
def auxLoops (sq : K → K) (s : QPC K) (auxB auxC : Option WS) (setupAfresh : Bool) : Res (ReturnValue × QPC K) := do
  let upd := !setupAfresh
  let (r, s) ← if setupAfresh then .ok (SUCCESSFUL_RETURN, s) else do
    let (r, s) ← seqLoop (auxRemoveC sq auxC) s.nC 0 s
    if r ≠ SUCCESSFUL_RETURN then .ok (r, s) else seqLoop (auxRemoveB sq auxB) s.nV 0 s
  if r ≠ SUCCESSFUL_RETURN then .ok (r, s) else do
  let (r, s) ← seqLoop (auxEqB sq upd) s.nV 0 s
  if r ≠ SUCCESSFUL_RETURN then .ok (r, s) else do
  let (r, s) ← seqLoop (auxEqC sq upd) s.nC 0 s
  if r ≠ SUCCESSFUL_RETURN then .ok (r, s) else do
  let (r, s) ← seqLoop (auxAddB sq auxB upd) s.nV 0 s
  if r ≠ SUCCESSFUL_RETURN then .ok (r, s) else seqLoop (auxAddC sq auxC upd) s.nC 0 s

/-- `setupAuxiliaryWorkingSet`, src/QProblem.cpp:2351-2539.  `none` stands for a pointer to the object's own working set.
`enableFullLITests` is restored only if all loops succeed. -/
def setupAuxiliaryWorkingSet (sq : K → K) (s : QPC K) (auxB auxC : Option WS) (setupAfresh : Bool) : Res (ReturnValue × QPC K) :=
  if (List.range s.nV).any fun i => s.bounds.getStatus i == ST_UNDEFINED || s.wantB auxB i == ST_UNDEFINED then .ok (RET_UNKNOWN_BUG, s)
  else if (List.range s.nC).any fun i => s.cons.getStatus i == ST_UNDEFINED || s.wantC auxC i == ST_UNDEFINED then .ok (RET_UNKNOWN_BUG, s)
  else if s.isTrivial auxB auxC then .ok (SUCCESSFUL_RETURN, s.fixAll auxB)
  else do
    let full := s.options.enableFullLITests
    let eps := s.options.epsLITests
    let (r, s) ← auxLoops sq { s with options := { s.options with enableFullLITests := false } } auxB auxC setupAfresh
    if r ≠ SUCCESSFUL_RETURN then .ok (RET_SETUP_WORKINGSET_FAILED, s)
    else .ok (SUCCESSFUL_RETURN, { s with options := { s.options with enableFullLITests := full, epsLITests := eps } })

/-- `setupAuxiliaryQPsolution`, src/QProblem.cpp:2545-2596; always returns `SUCCESSFUL_RETURN` -/
def setupAuxiliaryQPsolution (s : QPC K) (xOpt yOpt : Option (Nat → K)) : QPC K :=
  let Ax : Nat → K := match xOpt with | some x => s.prodA x | none => fun _ => 0
  { s with x := xOpt.getD fun _ => 0, y := yOpt.getD fun _ => 0, Ax := Ax, Axl := Ax, Axu := Ax }

/-- `setupAuxiliaryQPgradient`, src/QProblem.cpp:2602-2641: `g = yB - H*x + A'*yC` -/
def setupAuxiliaryQPgradient (s : QPC K) : Res (QPC K) := do
  let b ← QPB.setupAuxiliaryQPgradient s.toQPB
  .ok { s with toQPB := { b with g := fun i => b.g i + sumTo (fun k => s.A k i * s.y (s.nV + k)) s.nC } }

/-- One element of `setupAuxiliaryQPbounds`, src/QProblem.cpp:2681-2741, 2747-2807: new limits; `none` is the default case.
`want`: status in the auxiliary working set when relaxation is used; `vl`, `vu`: current value. -/
def auxLimits (o : Options K) (want : Option SubjectToStatus) (t : SubjectToType) (st : SubjectToStatus) (vl vu l u : K) : Option (K × K) :=
  match st with
  | ST_INACTIVE =>
    some (match want with
      | none => (l, u)
      | some w =>
        if t = ST_EQUALITY then (vl, vu)
        else (if w = ST_LOWER then vl else vl - o.boundRelaxation, if w = ST_UPPER then vu else vu + o.boundRelaxation))
  | ST_LOWER => some (vl, if t = ST_EQUALITY then vl else if want.isSome then vl + o.boundRelaxation else u)
  | ST_UPPER => some (if t = ST_EQUALITY then vu else if want.isSome then vu - o.boundRelaxation else l, vu)
  | ST_INFEASIBLE_LOWER => some (l, u)
  | ST_INFEASIBLE_UPPER => some (l, u)
  | ST_UNDEFINED => none

/-- The loop over the bounds, src/QProblem.cpp:2679-2742 -/
def auxBoundsB (aux : Option WS) : (m i : Nat) → QPC K → ReturnValue × QPC K
  | 0, _, s => (SUCCESSFUL_RETURN, s)
  | m+1, i, s =>
    match auxLimits s.options (aux.map fun w => w.getStatus i) (s.bounds.type i) (s.bounds.getStatus i) (s.x i) (s.x i) (s.lb i) (s.ub i) with
    | none => (RET_UNKNOWN_BUG, s)
    | some (l, u) => auxBoundsB aux m (i+1) { s with lb := updA s.lb i l, ub := updA s.ub i u }

/-- The loop over the constraints, src/QProblem.cpp:2745-2810 -/
def auxBoundsC (aux : Option WS) : (m i : Nat) → QPC K → ReturnValue × QPC K
  | 0, _, s => (SUCCESSFUL_RETURN, s)
  | m+1, i, s =>
    match auxLimits s.options (aux.map fun w => w.getStatus i) (s.cons.type i) (s.cons.getStatus i) (s.Axl i) (s.Axu i) (s.lbA i) (s.ubA i) with
    | none => (RET_UNKNOWN_BUG, s)
    | some (l, u) => auxBoundsC aux m (i+1) { s with
        lbA := updA s.lbA i l
        ubA := updA s.ubA i u
        Axl := updA s.Axl i (s.Axl i - l)
        Axu := updA s.Axu i (u - s.Axu i) }

/-- `setupAuxiliaryQPbounds`, src/QProblem.cpp:2668-2813; `aux` are the auxiliary working sets when relaxation is used
(they are null pointers otherwise). -/
def setupAuxiliaryQPbounds (s : QPC K) (aux : Option (WS × WS)) : ReturnValue × QPC K :=
  match auxBoundsB (aux.map (·.1)) s.nV 0 s with
  | (r, s) => if r ≠ SUCCESSFUL_RETURN then (r, s) else auxBoundsC (aux.map (·.2)) s.nC 0 s

/-- `shallRefactorise`, src/QProblem.cpp:5747-5780 -/
def shallRefactorise (s : QPC K) (gB gC : WS) : Bool :=
  if s.hessianType = HST_SEMIDEF ∨ s.hessianType = HST_INDEF then true
  else decide (2 * ((List.range s.nV).countP (fun i => gB.getStatus i ≠ s.bounds.getStatus i) +
    (List.range s.nC).countP (fun i => gC.getStatus i ≠ s.cons.getStatus i)) > gC.nFX + gB.nFX)

/-- Part II of `setupAuxiliaryQP`, src/QProblem.cpp:5716-5737 -/
def setupAuxiliaryQPdata (s : QPC K) : Res (QPC K) := do
  let s := { s with y := fun i =>
    if i < s.nV then (if s.bounds.getStatus i = ST_INACTIVE then 0 else s.y i)
    else if i - s.nV < s.nC ∧ s.cons.getStatus (i - s.nV) = ST_INACTIVE then 0 else s.y i }
  let s ← setupAuxiliaryQPgradient s
  let s := { s with Ax := s.prodA s.x, Axl := s.prodA s.x, Axu := s.prodA s.x }
  .ok (setupAuxiliaryQPbounds s none).2

/-- `setupAuxiliaryQP`, src/QProblem.cpp:5658-5740; `none` stands for a pointer to the object's own working set.  The result of
`setupAuxiliaryWorkingSet` is ignored. -/
def setupAuxiliaryQP (sq : K → K) (s : QPC K) (gB gC : Option WS) : Res (ReturnValue × QPC K) := do
  if gB.isNone && gC.isNone then .ok (SUCCESSFUL_RETURN, s) else do
  let s := { s with status := QPS_PREPARINGAUXILIARYQP }
  if s.shallRefactorise (gB.getD s.bounds) (gC.getD s.cons) then do
    let s := { s with bounds := WS.init s.nV, cons := WS.init s.nC }
    let s := s.setupSubjectToType
    let s := { s with bounds := s.bounds.setupAllFree, cons := s.cons.setupAllFree }
    let s := s.setupTQfactorisation
    let (_, s) ← setupAuxiliaryWorkingSet sq s gB gC true
    let (r, s) ← computeProjectedCholesky sq s
    if r ≠ SUCCESSFUL_RETURN then .ok (RET_SETUP_AUXILIARYQP_FAILED, s) else do
    let s ← setupAuxiliaryQPdata s
    .ok (SUCCESSFUL_RETURN, s)
  else do
    let (_, s) ← setupAuxiliaryWorkingSet sq s gB gC false
    let s ← setupAuxiliaryQPdata s
    .ok (SUCCESSFUL_RETURN, s)

/-- Data of a homotopy step: shifts of gradient and limits -/
structure Shift (K : Type) where
  g : Nat → K
  lb : Nat → K
  ub : Nat → K
  lbA : Nat → K
  ubA : Nat → K

/-- `determineDataShift`, src/QProblem.cpp:4571-4631 -/
def dataShift (s : QPC K) (gNew : Nat → K) (lbNew ubNew lbANew ubANew : Option (Nat → K)) : Shift K :=
  { g := fun i => gNew i - s.g i
    lb := fun i => QPB.lowerOf lbNew i - s.lb i
    ub := fun i => QPB.upperOf ubNew i - s.ub i
    lbA := fun i => QPB.lowerOf lbANew i - s.lbA i
    ubA := fun i => QPB.upperOf ubANew i - s.ubA i }

/-- `Delta_bC_isZero`, src/QProblem.cpp:4617-4628 -/
def deltaIsZeroC (s : QPC K) (d : Shift K) : Bool :=
  s.cons.fixed.all fun ii => !(decide (getAbs (d.lbA ii) > EPS) || decide (getAbs (d.ubA ii) > EPS))

/-- One ratio test of `performStep`: a blocking member replaces those found before. -/
def blockTest (p : K × Option Change) (w : WS) (isBound : Bool) (st : SubjectToStatus) (num den : Nat → K) (epsNum epsDen : K)
    (idx : List Nat) : Res (K × Option Change) := do
  let (t, b) ← QPB.ratioTest w num den epsNum epsDen idx 0 p.1 none
  .ok (t, match b with | some k => some ⟨isBound, k, st⟩ | none => p.2)

/-- `delta_x`, src/QProblem.cpp:5021-5031 -/
def dirX (s : QPC K) (d : Dir K) (i : Nat) : K :=
  if s.bounds.free.contains i then d.xFR (s.bounds.free.idxOf i) else if s.bounds.fixed.contains i then d.xFX (s.bounds.fixed.idxOf i) else 0

/-- `delta_Ax` -/
def dirAx (s : QPC K) (d : Dir K) (i : Nat) : K := s.prodA (s.dirX d) i

/-- Parts I and II of `performStep`, src/QProblem.cpp:5008-5192: step length and blocking member. -/
def stepLength (s : QPC K) (h : Shift K) (d : Dir K) : Res (K × Option Change) := do
  let eN := s.options.epsNum
  let eD := s.options.epsDen
  let p ← blockTest (1, none) s.cons false ST_INACTIVE (fun i => s.y (s.nV + s.ac i)) (fun i => -d.yAC i) eN eD s.cons.fixed
  let p ← blockTest p s.bounds true ST_INACTIVE (fun i => s.y (s.fx i)) (fun i => -d.yFX i) eN eD s.bounds.fixed
  let p ← if s.cons.noLower = false then
      blockTest p s.cons false ST_LOWER (fun i => getMax (s.Axl (s.iac i)) 0) (fun i => h.lbA (s.iac i) - s.dirAx d (s.iac i)) eN eD s.cons.free
    else .ok p
  let p ← if s.cons.noUpper = false then
      blockTest p s.cons false ST_UPPER (fun i => getMax (s.Axu (s.iac i)) 0) (fun i => s.dirAx d (s.iac i) - h.ubA (s.iac i)) eN eD s.cons.free
    else .ok p
  let p ← if s.bounds.noLower = false then
      blockTest p s.bounds true ST_LOWER (fun i => getMax (s.x (s.fr i) - s.lb (s.fr i)) 0) (fun i => h.lb (s.fr i) - d.xFR i) eN eD s.bounds.free
    else .ok p
  if s.bounds.noUpper = false then
    blockTest p s.bounds true ST_UPPER (fun i => getMax (s.ub (s.fr i) - s.x (s.fr i)) 0) (fun i => d.xFR i - h.ub (s.fr i)) eN eD s.bounds.free
  else .ok p

/-- Part III of `performStep`, src/QProblem.cpp:5212-5264.  A constraint that is in neither index list keeps its values. -/
def takeStep (s : QPC K) (h : Shift K) (d : Dir K) (tau : K) : QPC K :=
  if tau > ZERO then
    let x := addAt tau d.xFX s.bounds.fixed (addAt tau d.xFR s.bounds.free s.x)
    let lbA : Nat → K := fun i => s.lbA i + tau * h.lbA i
    let ubA : Nat → K := fun i => s.ubA i + tau * h.ubA i
    let act := fun i => s.cons.fixed.contains i
    let ina := fun i => s.cons.free.contains i && s.cons.type i != ST_UNBOUNDED
    { s with
      tau := tau
      x := x
      y := addAt tau d.yAC (s.cons.fixed.map (s.nV + ·)) (addAt tau d.yFX s.bounds.fixed s.y)
      g := fun i => s.g i + tau * h.g i
      lb := fun i => s.lb i + tau * h.lb i
      ub := fun i => s.ub i + tau * h.ub i
      lbA := lbA
      ubA := ubA
      Ax := fun i => if act i then s.prodA x i else if ina i then s.Ax i + tau * s.dirAx d i else s.Ax i
      Axl := fun i => if act i then s.prodA x i - lbA i else if ina i then s.Axl i + tau * (s.dirAx d i - h.lbA i) else s.Axl i
      Axu := fun i => if act i then ubA i - s.prodA x i else if ina i then s.Axu i + tau * (h.ubA i - s.dirAx d i) else s.Axu i }
  else { s with tau := tau }

/-- `performStep`, src/QProblem.cpp:4981-5278; always returns `SUCCESSFUL_RETURN`. -/
def performStep (s : QPC K) (h : Shift K) (d : Dir K) : Res (QPC K × Option Change) := do
  let (tau, bc) ← stepLength s h d
  .ok (takeStep s h d tau, bc)

/-- `changeActiveSet`, src/QProblem.cpp:5284-5365 -/
def changeActiveSet (sq : K → K) (s : QPC K) : Option Change → Res (ReturnValue × QPC K)
  | none => .ok (SUCCESSFUL_RETURN, s)
  | some ⟨true, k, ST_INACTIVE⟩ => do
    let (r, s) ← removeBound sq s k true true s.options.enableNZCTests
    if r ≠ SUCCESSFUL_RETURN then .ok (RET_REMOVE_FROM_ACTIVESET_FAILED, s)
    else .ok (SUCCESSFUL_RETURN, { s with y := updA s.y k 0 })
  | some ⟨false, k, ST_INACTIVE⟩ => do
    let (r, s) ← removeConstraint sq s k true true s.options.enableNZCTests
    if r ≠ SUCCESSFUL_RETURN then .ok (RET_REMOVE_FROM_ACTIVESET_FAILED, s)
    else .ok (SUCCESSFUL_RETURN, { s with y := updA s.y (s.nV + k) 0 })
  | some ⟨true, k, st⟩ => do
    let (r, s) ← addBound sq s k st
    if r = RET_ADDBOUND_FAILED_INFEASIBILITY then .ok (r, s)
    else .ok (if r ≠ SUCCESSFUL_RETURN then RET_ADD_TO_ACTIVESET_FAILED else SUCCESSFUL_RETURN, s)
  | some ⟨false, k, st⟩ => do
    let (r, s) ← addConstraint sq s k st
    if r = RET_ADDCONSTRAINT_FAILED_INFEASIBILITY then .ok (r, s)
    else .ok (if r ≠ SUCCESSFUL_RETURN then RET_ADD_TO_ACTIVESET_FAILED else SUCCESSFUL_RETURN, s)

/-- `getRelativeHomotopyLength`, src/QProblem.cpp:5372-5410 -/
def homotopyLength (s : QPC K) (gNew : Nat → K) (lbNew ubNew lbANew ubANew : Option (Nat → K)) : K :=
  let len := s.toQPB.homotopyLength gNew lbNew ubNew
  let len := match lbANew with | some l => QPB.relLen l s.lbA s.nC len | none => len
  match ubANew with | some u => QPB.relLen u s.ubA s.nC len | none => len

/-- One element of `performRamping`, src/QProblem.cpp:5427-5450, 5456-5483: new limits and multiplier.  `v`: value, `rP`, `rD`: ramp
values. -/
def rampOne (st : SubjectToStatus) (v l u y rP rD : K) : K × K × K :=
  let sca := getMax (getAbs v) 1
  (if st = ST_LOWER then v else v - sca * rP,
   if st = ST_UPPER then v else v + sca * rP,
   if st = ST_LOWER then rD else if st = ST_UPPER then -rD else if st = ST_INACTIVE then 0 else y)

/-- The loop over the bounds, src/QProblem.cpp:5425-5451 -/
def rampB : (m i : Nat) → QPC K → Res (QPC K)
  | 0, _, s => .ok s
  | m+1, i, s => do
    let n := 2 * s.nV + 2 * s.nC
    match s.bounds.type i with
    | ST_EQUALITY => rampB m (i+1) { s with lb := updA s.lb i (s.x i), ub := updA s.ub i (s.x i) }
    | ST_BOUNDED => do
      let rP ← s.toQPB.rampVal i n
      let rD ← s.toQPB.rampVal (s.nV + s.nC + s.nC + i) n
      let v := rampOne (s.bounds.getStatus i) (s.x i) (s.lb i) (s.ub i) (s.y i) rP rD
      rampB m (i+1) { s with lb := updA s.lb i v.1, ub := updA s.ub i v.2.1, y := updA s.y i v.2.2 }
    | _ => rampB m (i+1) s

/-- The loop over the constraints, src/QProblem.cpp:5454-5484 -/
def rampC : (m i : Nat) → QPC K → Res (QPC K)
  | 0, _, s => .ok s
  | m+1, i, s => do
    let n := 2 * s.nV + 2 * s.nC
    match s.cons.type i with
    | ST_EQUALITY => rampC m (i+1) { s with lbA := updA s.lbA i (s.Ax i), ubA := updA s.ubA i (s.Ax i) }
    | ST_BOUNDED => do
      let rP ← s.toQPB.rampVal (s.nV + i) n
      let rD ← s.toQPB.rampVal (s.nV + s.nC + i) n
      let v := rampOne (s.cons.getStatus i) (s.Ax i) (s.lbA i) (s.ubA i) (s.y (s.nV + i)) rP rD
      rampC m (i+1) { s with
        lbA := updA s.lbA i v.1
        ubA := updA s.ubA i v.2.1
        y := updA s.y (s.nV + i) v.2.2
        Axl := updA s.Axl i (s.Ax i - v.1)
        Axu := updA s.Axu i (v.2.1 - s.Ax i) }
    | _ => rampC m (i+1) s

/-- `performRamping`, src/QProblem.cpp:5416-5492 -/
def performRamping (s : QPC K) : Res (QPC K) := do
  let s ← rampB s.nV 0 s
  let s ← rampC s.nC 0 s
  let s ← setupAuxiliaryQPgradient s
  .ok { s with rampOffset := s.rampOffset + 1 }

/-- `Ax_l[i]`, `Ax_u[i]` after `performDriftCorrection`, src/QProblem.cpp:5606-5648; `l`, `u` are the new limits. -/
def driftAxl (t : SubjectToType) (st : SubjectToStatus) (v l old : K) : K :=
  match t with
  | ST_BOUNDED => match st with | ST_LOWER => 0 | ST_UPPER => v - l | ST_INACTIVE => v - l | _ => old
  | ST_EQUALITY => 0
  | _ => old
def driftAxu (t : SubjectToType) (st : SubjectToStatus) (v u old : K) : K :=
  match t with
  | ST_BOUNDED => match st with | ST_LOWER => u - v | ST_UPPER => 0 | ST_INACTIVE => u - v | _ => old
  | ST_EQUALITY => 0
  | _ => old

/-- `performDriftCorrection`, src/QProblem.cpp:5559-5652 -/
def performDriftCorrection (s : QPC K) : Res (QPC K) :=
  let v := fun i => QPB.driftOne (s.bounds.type i) (s.bounds.getStatus i) (s.x i) (s.lb i) (s.ub i) (s.y i)
  let w := fun i => QPB.driftOne (s.cons.type i) (s.cons.getStatus i) (s.Ax i) (s.lbA i) (s.ubA i) (s.y (s.nV + i))
  setupAuxiliaryQPgradient { s with
    lb := fun i => if i < s.nV then (v i).1 else s.lb i
    ub := fun i => if i < s.nV then (v i).2.1 else s.ub i
    y := fun i => if i < s.nV then (v i).2.2 else if i - s.nV < s.nC then (w (i - s.nV)).2.2 else s.y i
    lbA := fun i => if i < s.nC then (w i).1 else s.lbA i
    ubA := fun i => if i < s.nC then (w i).2.1 else s.ubA i
    Axl := fun i => if i < s.nC then driftAxl (s.cons.type i) (s.cons.getStatus i) (s.Ax i) (w i).1 (s.Axl i) else s.Axl i
    Axu := fun i => if i < s.nC then driftAxu (s.cons.type i) (s.cons.getStatus i) (s.Ax i) (w i).2.1 (s.Axu i) else s.Axu i }

/-- Result of a solver call that stops the clock first. -/
def finish (s : QPC K) (rv : ReturnValue) (nWSR : Int) (cputime : Option K) (starttime : K) : OutC K :=
  let p := s.toQPB.stopClock cputime starttime
  ⟨rv, nWSR, p.1, { s with toQPB := p.2 }⟩

/-- Steps 6) to 8) of an iteration of `solveQP`, src/QProblem.cpp:1661-1721.  `Except` carries a final result. -/
def endIteration (sq : K → K) (s : QPC K) (bc : Option Change) (iter nWSR : Int) (cputime : Option K) (starttime : K) :
    Res (Except (OutC K) (QPC K)) := do
  let (r, s) ← changeActiveSet sq s bc
  if r ≠ SUCCESSFUL_RETURN then
    let o := s.finish r iter cputime starttime
    if o.s.infeasible then
      .ok (.error { o with rv := RET_HOTSTART_STOPPED_INFEASIBILITY, s := { o.s with status := QPS_HOMOTOPYQPSOLVED, infeasible := true } })
    else if o.s.unbounded then .ok (.error { o with rv := RET_HOTSTART_STOPPED_UNBOUNDEDNESS })
    else .ok (.error o)
  else do
    let (r, s) ← if s.options.enableCholeskyRefactorisation > 0 ∧ iter % s.options.enableCholeskyRefactorisation = 0 then
        computeProjectedCholesky sq s else .ok (SUCCESSFUL_RETURN, s)
    if r ≠ SUCCESSFUL_RETURN then .ok (.error ⟨r, nWSR, cputime, s⟩) else do
    let s := { s with status := QPS_HOMOTOPYQPSOLVED }
    let s ← if bc.isSome = true ∧ s.tau ≤ EPS ∧ s.options.enableRamping = true then performRamping s
      else if s.options.enableDriftCorrection > 0 ∧ (iter + 1) % s.options.enableDriftCorrection = 0 then performDriftCorrection s
      else .ok s
    .ok (.ok s)

/-- One iteration of the main loop of `solveQP`, src/QProblem.cpp:1568-1721 (after the check of the CPU time). -/
def iteration (sq : K → K) (s : QPC K) (gNew : Nat → K) (lbNew ubNew lbANew ubANew : Option (Nat → K)) (iter nWSR : Int)
    (cputime : Option K) (starttime : K) : Res (Except (OutC K) (QPC K)) := do
  let s := { s with status := QPS_PERFORMINGHOMOTOPY }
  let h := s.dataShift gNew lbNew ubNew lbANew ubANew
  match ← determineStepDirection s h.g h.lbA h.ubA h.lb h.ub (s.deltaIsZeroC h) (s.toQPB.deltaIsZero h.lb h.ub) with
  | .error r => .ok (.error (s.finish r iter cputime starttime))
  | .ok d =>
    let (s, bc) ← performStep s h d
    if s.homotopyLength gNew lbNew ubNew lbANew ubANew ≤ s.options.terminationTolerance then
      .ok (.error (({ s with status := QPS_SOLVED } : QPC K).finish SUCCESSFUL_RETURN iter cputime starttime))
    else endIteration sq s bc iter nWSR cputime starttime

/-- The main loop of `solveQP`, src/QProblem.cpp:1555-1747: at most `m` iterations left, the next one is `iter`. -/
def solveLoop (sq : K → K) (gNew : Nat → K) (lbNew ubNew lbANew ubANew : Option (Nat → K)) (nWSR performed : Int)
    (cputime : Option K) (starttime : K) : (m : Nat) → (iter : Int) → QPC K → Res (OutC K)
  | 0, _, s => .ok (s.finish RET_MAX_NWSR_REACHED nWSR cputime starttime)
  | m+1, iter, s =>
    match s.toQPB.isCPUtimeLimitExceeded cputime starttime (iter - performed) with
    | (true, b) => .ok (({ s with toQPB := b } : QPC K).finish RET_MAX_NWSR_REACHED iter cputime starttime)
    | (false, b) => do
      let e ← iteration sq { s with toQPB := b } gNew lbNew ubNew lbANew ubANew iter nWSR cputime starttime
      match e with
      | .error o => .ok o
      | .ok s => solveLoop sq gNew lbNew ubNew lbANew ubANew nWSR performed cputime starttime m (iter+1) s

/-- Removing bound `i` because its limit has become infinite, src/QProblem.cpp:1875-1890 -/
def dropInfinite (sq : K → K) (c : Prop) [Decidable c] (i : Nat) (s : QPC K) : Res (ReturnValue × QPC K) := do
  if c then do
    let (r, s) ← removeBound sq s i true false s.options.enableNZCTests
    if r ≠ SUCCESSFUL_RETURN then .ok (r, s)
    else .ok (SUCCESSFUL_RETURN, { s with g := updA s.g i (s.g i - s.y i), y := updA s.y i 0 })
  else .ok (SUCCESSFUL_RETURN, s)

/-- First loop of `updateActivitiesForHotstart`, src/QProblem.cpp:1873-1901, for bound `i` -/
def updateLimit (sq : K → K) (l u : Nat → K) (i : Nat) (s : QPC K) : Res (ReturnValue × QPC K) := do
  let (r, s) ← dropInfinite sq (l i ≤ -INFTY ∧ s.bounds.getStatus i = ST_LOWER) i s
  if r ≠ SUCCESSFUL_RETURN then .ok (r, s) else do
  let (r, s) ← dropInfinite sq (u i ≥ INFTY ∧ s.bounds.getStatus i = ST_UPPER) i s
  if r ≠ SUCCESSFUL_RETURN then .ok (r, s) else
  let s := if l i > -INFTY ∧ s.lb i ≤ -INFTY then { s with lb := updA s.lb i (s.x i - s.options.boundRelaxation) } else s
  let s := if u i < INFTY ∧ s.ub i ≥ INFTY then { s with ub := updA s.ub i (s.x i + s.options.boundRelaxation) } else s
  .ok (SUCCESSFUL_RETURN, s)

/-- Second loop of `updateActivitiesForHotstart`, src/QProblem.cpp:1903-1924, for bound `i` -/
def updateEquality (sq : K → K) (i : Nat) (s : QPC K) : Res (ReturnValue × QPC K) := do
  if s.bounds.type i = ST_EQUALITY then
    let s := { s with lb := updA s.lb i (s.x i), ub := updA s.ub i (s.x i) }
    if s.bounds.getStatus i = ST_INACTIVE then do
      if ← s.checkLIBound i then addBound sq s i ST_LOWER else .ok (SUCCESSFUL_RETURN, s)
    else .ok (SUCCESSFUL_RETURN, s)
  else .ok (SUCCESSFUL_RETURN, s)

/-- `updateActivitiesForHotstart`, src/QProblem.cpp:1861-1929: dereferences `lb_new` and `ub_new`; there is at least one variable. -/
def updateActivitiesForHotstart (sq : K → K) (s : QPC K) (lbNew ubNew : Option (Nat → K)) : Res (ReturnValue × QPC K) :=
  let s := { s with toQPB := s.toQPB.setupSubjectToType lbNew ubNew }
  match lbNew, ubNew with
  | some l, some u => do
    let (r, s) ← seqLoop (updateLimit sq l u) s.nV 0 s
    if r ≠ SUCCESSFUL_RETURN then .ok (r, s) else seqLoop (updateEquality sq) s.nV 0 s
  | _, _ => .ub .nullDeref

/-- `solveQP`, src/QProblem.cpp:1477-1747 -/
def solveQP (sq : K → K) (s : QPC K) (gNew : Nat → K) (lbNew ubNew lbANew ubANew : Option (Nat → K)) (nWSR : Int)
    (cputime : Option K) (performed : Int) : Res (OutC K) :=
  if s.status = QPS_NOTINITIALISED ∨ s.status = QPS_PREPARINGAUXILIARYQP ∨ s.status = QPS_PERFORMINGHOMOTOPY then
    .ok ⟨RET_HOTSTART_FAILED_AS_QP_NOT_INITIALISED, nWSR, cputime, s⟩
  else do
    let p := s.toQPB.startClock cputime
    let s := { s with toQPB := { p.2 with status := QPS_PERFORMINGHOMOTOPY } }
    let (r, s) ← updateActivitiesForHotstart sq s lbNew ubNew
    if r ≠ SUCCESSFUL_RETURN then .ok ⟨r, nWSR, cputime, s⟩ else
    let s := { s with infeasible := false, unbounded := false }
    solveLoop sq gNew lbNew ubNew lbANew ubANew nWSR performed cputime p.1 (nWSR - performed).toNat performed s

/-- Regularisation steps, src/QProblem.cpp:1805-1856: `m` steps left; `o` is the result of the previous solve, `total` the CPU time
used so far. -/
def regSteps (sq : K → K) (gNew : Nat → K) (lbNew ubNew lbANew ubANew : Option (Nat → K)) (nWSRmax : Int) (cputime : Option K) :
    (m : Nat) → (o : OutC K) → (total : K) → Res (OutC K)
  | 0, o, total => .ok { o with rv := SUCCESSFUL_RETURN, cputime := cputime.map fun _ => total, s := { o.s with g := gNew } }
  | m+1, o, total => do
    let gMod := fun i => gNew i - o.s.regVal * o.s.x i
    let o ← solveQP sq o.s gMod lbNew ubNew lbANew ubANew nWSRmax (cputime.map fun c => c - total) o.nWSR
    let total := total + o.cputime.getD 0
    if o.rv ≠ SUCCESSFUL_RETURN then .ok { o with cputime := cputime.map fun _ => total }
    else regSteps sq gNew lbNew ubNew lbANew ubANew nWSRmax cputime m o total

/-- `solveRegularisedQP`, src/QProblem.cpp:1753-1856 -/
def solveRegularisedQP (sq : K → K) (s : QPC K) (gNew : Nat → K) (lbNew ubNew lbANew ubANew : Option (Nat → K)) (nWSR : Int)
    (cputime : Option K) (performed : Int) : Res (OutC K) :=
  if s.usingRegularisation = false then solveQP sq s gNew lbNew ubNew lbANew ubANew nWSR cputime performed
  else do
    let o ← solveQP sq s gNew lbNew ubNew lbANew ubANew nWSR cputime performed
    let total := o.cputime.getD 0
    if o.rv ≠ SUCCESSFUL_RETURN then .ok { o with cputime := cputime.map fun _ => total }
    else regSteps sq gNew lbNew ubNew lbANew ubANew nWSR cputime o.s.options.numRegularisationSteps.toNat o total

/-- `areBoundsConsistent`, src/QProblem.cpp:2647-2662 -/
def areBoundsConsistent (s : QPC K) (lbNew ubNew lbANew ubANew : Option (Nat → K)) : Bool :=
  s.toQPB.areBoundsConsistent lbNew ubNew &&
  match lbANew, ubANew with
  | some l, some u => (List.range s.nC).all fun i => !decide (l i > u i + EPS)
  | _, _ => true

/-- Far limits in place of the new ones -/
structure Far (K : Type) where
  lb : Nat → K
  ub : Nat → K
  lbA : Nat → K
  ubA : Nat → K

/-- The loops over the constraints in `updateFarBounds`, src/QProblem.cpp:5517-5549: elements `i`, …, `i+m-1`. -/
def farC (s : QPC K) (cur : K) (lbANew ubANew : Option (Nat → K)) : (m i : Nat) → (lf uf : Nat → K) → Res ((Nat → K) × (Nat → K))
  | 0, _, lf, uf => .ok (lf, uf)
  | m+1, i, lf, uf => do
    let v ← s.toQPB.farVal cur (s.nV + s.nC) (s.nV + i)
    farC s cur lbANew ubANew m (i+1)
      (updA lf i (match lbANew with | none => -v | some l => getMax (-v) (l i)))
      (updA uf i (match ubANew with | none => v | some u => getMin v (u i)))

/-- `updateFarBounds`, src/QProblem.cpp:5498-5552, with `nRamp = nV+nC` -/
def updateFarBounds (s : QPC K) (cur : K) (lbNew ubNew lbANew ubANew : Option (Nat → K)) (f : Far K) : Res (Far K) := do
  let (lb, ub) ← QPB.updateFarBounds s.toQPB cur (s.nV + s.nC) lbNew ubNew s.nV 0 f.lb f.ub
  let (lbA, ubA) ← farC s cur lbANew ubANew s.nC 0 f.lbA f.ubA
  .ok ⟨lb, ub, lbA, ubA⟩

/-- Initial far bound, src/QProblem.cpp:499, 529-540 -/
def initialFar (s : QPC K) (lbNew ubNew lbANew ubANew : Option (Nat → K)) : K :=
  let f := s.toQPB.initialFar lbNew ubNew
  let f := match ubANew with
    | some u => loop (fun i f => if u i < INFTY ∧ u i > f then u i else f) s.nC f
    | none => f
  match lbANew with
    | some l => loop (fun i f => if l i > -INFTY ∧ l i < -f then -(l i) else f) s.nC f
    | none => f

/-- Number of active far limits, src/QProblem.cpp:589-602 -/
def nActiveFar (s : QPC K) (lbNew ubNew lbANew ubANew : Option (Nat → K)) (f : Far K) (tol : K) : Nat :=
  s.toQPB.nActiveFar lbNew ubNew f.lb f.ub tol +
  (List.range s.nC).countP (fun i =>
      (match lbANew with | none => true | some l => decide (f.lbA i > l i)) && decide (getAbs (f.lbA i - s.Ax i) < tol)) +
  (List.range s.nC).countP (fun i =>
      (match ubANew with | none => true | some u => decide (f.ubA i < u i)) && decide (getAbs (f.ubA i - s.Ax i) < tol))

/-- The far bound loop of `hotstart`, src/QProblem.cpp:547-629, with a bound on the number of passes. -/
def farLoop (sq : K → K) (gNew : Nat → K) (lbNew ubNew lbANew ubANew : Option (Nat → K)) (nWSRmax : Int) (cputime : Option K) :
    (fuel : Nat) → QPC K → (farbound : K) → Far K → (performed : Int) → (needed remaining : K) → Res (OutC K × K)
  | 0, _, _, _, _, _, _ => .ub .diverge
  | fuel+1, s, farbound, f, performed, needed, remaining => do
    let o ← solveRegularisedQP sq s gNew (some f.lb) (some f.ub) (some f.lbA) (some f.ubA) nWSRmax (cputime.map fun c => c - needed) performed
    let remaining := o.cputime.getD remaining
    let needed := needed + remaining
    let farbound := farbound * o.s.options.growFarBounds
    if o.s.infeasible then
      if farbound ≥ INFTY then .ok ({ o with rv := RET_HOTSTART_STOPPED_INFEASIBILITY }, needed)
      else do
        let f ← updateFarBounds o.s farbound lbNew ubNew lbANew ubANew f
        farLoop sq gNew lbNew ubNew lbANew ubANew nWSRmax cputime fuel { o.s with rampOffset := o.s.rampOffset + 1 } farbound f o.nWSR
          needed remaining
    else if o.s.status = QPS_SOLVED then do
      let q ← cdiv farbound o.s.options.growFarBounds
      let tol := q * o.s.options.boundTolerance
      if o.s.nActiveFar lbNew ubNew lbANew ubANew f tol = 0 then .ok (o, needed)
      else
        let s := { o.s with status := QPS_HOMOTOPYQPSOLVED }
        if farbound ≥ INFTY then
          .ok ({ o with rv := RET_HOTSTART_STOPPED_UNBOUNDEDNESS, s := { s with unbounded := true } }, needed)
        else do
          let f ← updateFarBounds s farbound lbNew ubNew lbANew ubANew f
          farLoop sq gNew lbNew ubNew lbANew ubANew nWSRmax cputime fuel { s with rampOffset := s.rampOffset + 1 } farbound f o.nWSR
            needed remaining
    else .ok (o, needed)

/-- `hotstart` after the working set guess has been processed, src/QProblem.cpp:485-640. -/
def hotstartMain (sq : K → K) (fuel : Nat) (s : QPC K) (gNew : Nat → K) (lbNew ubNew lbANew ubANew : Option (Nat → K)) (nWSR : Int)
    (cputime : Option K) (auxTime : K) : Res (OutC K) :=
  if s.areBoundsConsistent lbNew ubNew lbANew ubANew = false then
    .ok ⟨SUCCESSFUL_RETURN, nWSR, cputime, { s with infeasible := true }⟩
  else do
    let s := { s with count := s.count + 1 }
    let (r, s) ← if s.haveCholesky = false then setupInitialCholesky sq s else .ok (SUCCESSFUL_RETURN, s)
    if r ≠ SUCCESSFUL_RETURN then .ok ⟨r, nWSR, cputime, s⟩
    else if s.options.enableFarBounds = false then
      solveRegularisedQP sq s gNew lbNew ubNew lbANew ubANew nWSR cputime 0
    else do
      let farbound := s.initialFar lbNew ubNew lbANew ubANew
      let f ← updateFarBounds s farbound lbNew ubNew lbANew ubANew ⟨fun _ => 0, fun _ => 0, fun _ => 0, fun _ => 0⟩
      let (o, needed) ← farLoop sq gNew lbNew ubNew lbANew ubANew nWSR cputime fuel s farbound f 0 0 INFTY
      .ok { o with cputime := cputime.map fun _ => needed + auxTime }

/-- The pointer passed on to `setupAuxiliaryQP`; `none` is the object's own working set, src/QProblem.cpp:469-470 -/
def _root_.QpOASES.QPB.Guess.toOption : QPB.Guess → Option WS
  | .null => none
  | .self => none
  | .other w => some w

/-- `hotstart`, src/QProblem.cpp:446-640 -/
def hotstart (sq : K → K) (fuel : Nat) (s : QPC K) (gNew : Nat → K) (lbNew ubNew lbANew ubANew : Option (Nat → K)) (nWSR : Int)
    (cputime : Option K) (gB gC : QPB.Guess) : Res (OutC K) :=
  if s.nV = 0 then .ok ⟨RET_QPOBJECT_NOT_SETUP, nWSR, cputime, s⟩
  else match gB, gC with
    | .null, .null => hotstartMain sq fuel s gNew lbNew ubNew lbANew ubANew nWSR cputime 0
    | gB, gC => do
      let p := s.toQPB.startClock cputime
      let (r, s) ← setupAuxiliaryQP sq { s with toQPB := p.2 } gB.toOption gC.toOption
      if r ≠ SUCCESSFUL_RETURN then .ok ⟨RET_SETUP_AUXILIARYQP_FAILED, nWSR, cputime, s⟩ else
      let s := { s with status := QPS_AUXILIARYQPSOLVED }
      let q := s.toQPB.stopClock cputime p.1
      let auxTime := q.1.getD 0
      hotstartMain sq fuel { s with toQPB := q.2 } gNew lbNew ubNew lbANew ubANew nWSR (cputime.map fun c => c - auxTime) auxTime

/-- Setting up working set and data of the auxiliary QP in `solveInitialQP`, src/QProblem.cpp:1347-1438.  `Except` carries a
final result. -/
def prepareAuxiliary (sq : K → K) (s : QPC K) (xOpt yOpt : Option (Nat → K)) (gB gC : Option WS) (R : Option (Nat → K))
    (nWSR : Int) (cputime : Option K) : Res (Except (OutC K) (QPC K)) :=
  match QPB.obtainAux (s.toQPB.auxStatus xOpt yOpt gB) s.nV 0 (WS.init s.nV), QPB.obtainAux (s.auxStatusC xOpt yOpt gC) s.nC 0 (WS.init s.nC) with
  | some auxB, some auxC => do
    let (r, s) ← if s.hessianType = HST_ZERO ∨ s.hessianType = HST_SEMIDEF then regulariseHessian sq s
      else .ok (SUCCESSFUL_RETURN, s)
    if r ≠ SUCCESSFUL_RETURN then .ok (.error ⟨RET_INIT_FAILED_REGULARISATION, nWSR, cputime, s⟩) else do
    let s := s.setupTQfactorisation
    let (r, s) ← setupAuxiliaryWorkingSet sq s (some auxB) (some auxC) true
    if r ≠ SUCCESSFUL_RETURN then .ok (.error ⟨RET_INIT_FAILED, nWSR, cputime, s⟩) else do
    let s := { s with toQPB := QPB.takeFactor { s.toQPB with haveCholesky := false } (xOpt.isNone && yOpt.isNone && gB.isNone && gC.isNone) R }
    let s ← setupAuxiliaryQPgradient s
    match setupAuxiliaryQPbounds s (some (auxB, auxC)) with
    | (r, s) =>
      if r ≠ SUCCESSFUL_RETURN then .ok (.error ⟨RET_INIT_FAILED, nWSR, cputime, s⟩) else
      let s := { s with status := QPS_AUXILIARYQPSOLVED }
      if s.options.enableRamping then do
        let s ← performRamping s
        .ok (.ok s)
      else .ok (.ok s)
  | _, _ => .ok (.error ⟨RET_INIT_FAILED, nWSR, cputime, s⟩)

/-- Setting up the auxiliary QP in `solveInitialQP`, src/QProblem.cpp:1320-1438. -/
def prepareInitialQP (sq : K → K) (s : QPC K) (xOpt yOpt : Option (Nat → K)) (gB gC : Option WS) (R : Option (Nat → K))
    (nWSR : Int) (cputime : Option K) : Res (Except (OutC K) (QPC K)) :=
  let p := ({ s.toQPB with status := QPS_NOTINITIALISED } : QPB K).determineHessianType
  let s := { s with toQPB := p.2 }
  if p.1 ≠ SUCCESSFUL_RETURN then .ok (.error ⟨RET_INIT_FAILED, nWSR, cputime, s⟩) else
  let s := s.setupSubjectToType
  let s := { s with status := QPS_PREPARINGAUXILIARYQP, bounds := s.bounds.setupAllFree, cons := s.cons.setupAllFree }
  prepareAuxiliary sq (s.setupAuxiliaryQPsolution xOpt yOpt) xOpt yOpt gB gC R nWSR cputime

/-- `solveInitialQP`, src/QProblem.cpp:1301-1471.  `g_original`, `lb_original`, … are copied before the auxiliary data overwrite the
members, which nothing before that changes: they are the members at the beginning. -/
def solveInitialQP (sq : K → K) (fuel : Nat) (s : QPC K) (xOpt yOpt : Option (Nat → K)) (gB gC : Option WS) (R : Option (Nat → K))
    (nWSR : Int) (cputime : Option K) : Res (OutC K) := do
  let p := s.toQPB.startClock cputime
  let starttime := p.1
  let e ← prepareInitialQP sq { s with toQPB := p.2 } xOpt yOpt gB gC R nWSR cputime
  match e with
  | .error o => .ok o
  | .ok s' =>
  let q := s'.toQPB.stopClock cputime starttime
  let o ← hotstart sq fuel { s' with toQPB := q.2 } s.g (some s.lb) (some s.ub) (some s.lbA) (some s.ubA) nWSR
    (cputime.map fun c => c - q.1.getD 0) .null .null
  if o.s.infeasible then .ok { o with rv := RET_INIT_FAILED_INFEASIBILITY }
  else if o.s.unbounded then .ok { o with rv := RET_INIT_FAILED_UNBOUNDEDNESS }
  else if o.rv ≠ SUCCESSFUL_RETURN ∧ o.rv ≠ RET_MAX_NWSR_REACHED then .ok { o with rv := RET_INIT_FAILED_HOTSTART }
  else .ok (o.s.finish o.rv o.nWSR o.cputime starttime)

/-- `setupQPdata`, src/QProblem.cpp:5854-5879, `setLBA`, `setUBA`, `setA`, include/qpOASES/QProblem.ipp:149-255 -/
def setupQPdata (s : QPC K) (H g A lb ub lbA ubA : Option (Nat → K)) : ReturnValue × QPC K :=
  match s.toQPB.setupQPdata H g lb ub with
  | (r, b) =>
    let s := { s with toQPB := b }
    if r ≠ SUCCESSFUL_RETURN then (RET_INVALID_ARGUMENTS, s)
    else if s.nC = 0 then (SUCCESSFUL_RETURN, s)
    else match A with
      | none => (RET_INVALID_ARGUMENTS, s)
      | some A =>
        let s := { s with lbA := QPB.lowerOf lbA, ubA := QPB.upperOf ubA, A := fun i j => A (i * s.nV + j) }
        let Ax := s.prodA s.x
        (SUCCESSFUL_RETURN, { s with Ax := Ax, Axu := fun i => s.ubA i - Ax i, Axl := fun i => Ax i - s.lbA i })

/-- `init( const real_t* H, … )`, src/QProblem.cpp:316-368 -/
def init (sq : K → K) (fuel : Nat) (s : QPC K) (H g A lb ub lbA ubA : Option (Nat → K)) (nWSR : Int) (cputime : Option K)
    (xOpt yOpt : Option (Nat → K)) (gB gC : Option WS) (R : Option (Nat → K)) : Res (OutC K) :=
  if s.nV = 0 then .ok ⟨RET_QPOBJECT_NOT_SETUP, nWSR, cputime, s⟩
  else
    let s := if s.status ≠ QPS_NOTINITIALISED then s.reset else s
    if gB.any fun w => (List.range s.nV).any fun i => w.getStatus i == ST_UNDEFINED then .ok ⟨RET_INVALID_ARGUMENTS, nWSR, cputime, s⟩
    else if gC.any fun w => (List.range s.nC).any fun i => w.getStatus i == ST_UNDEFINED then
      .ok ⟨RET_INVALID_ARGUMENTS, nWSR, cputime, s⟩
    else if xOpt.isNone && yOpt.isSome && (gB.isSome || gC.isSome) then .ok ⟨RET_INVALID_ARGUMENTS, nWSR, cputime, s⟩
    else if R.isSome && (xOpt.isSome || yOpt.isSome || gB.isSome || gC.isSome) then
      .ok ⟨RET_NO_CHOLESKY_WITH_INITIAL_GUESS, nWSR, cputime, s⟩
    else
      match s.setupQPdata H g A lb ub lbA ubA with
      | (r, s) =>
        if r ≠ SUCCESSFUL_RETURN then .ok ⟨RET_INVALID_ARGUMENTS, nWSR, cputime, s⟩
        else solveInitialQP sq fuel s xOpt yOpt gB gC R nWSR cputime

/-- `getDualSolution`, src/QProblem.cpp:859-877: return value and the caller's array afterwards. -/
def getDualSolution (s : QPC K) (yOpt : Nat → K) : ReturnValue × (Nat → K) :=
  (if s.hasSolution then SUCCESSFUL_RETURN else RET_QP_NOT_SOLVED, fun i => if i < s.nV + s.nC then s.y i else yOpt i)

/-- `getWorkingSetConstraints`, src/QProblem.cpp:823-842 -/
def getWorkingSetConstraints (s : QPC K) (ws : Option (Nat → K)) : ReturnValue × Option (Nat → K) :=
  match ws with
  | none => (RET_INVALID_ARGUMENTS, none)
  | some ws => (SUCCESSFUL_RETURN, some fun i =>
      if i < s.nC then (match s.cons.getStatus i with | ST_LOWER => -1 | ST_UPPER => 1 | _ => 0) else ws i)

/-- `getWorkingSet`, src/QProblem.cpp:794-808: bounds first, then constraints. -/
def getWorkingSet (s : QPC K) (ws : Option (Nat → K)) : ReturnValue × Option (Nat → K) :=
  match ws with
  | none => (RET_INVALID_ARGUMENTS, none)
  | some ws => (SUCCESSFUL_RETURN, some fun i =>
      if i < s.nV then (match s.bounds.getStatus i with | ST_LOWER => -1 | ST_UPPER => 1 | _ => 0)
      else if i - s.nV < s.nC then (match s.cons.getStatus (i - s.nV) with | ST_LOWER => -1 | ST_UPPER => 1 | _ => 0)
      else ws i)

end
end QPC
end QpOASES
