import Verif.Model.QProblem

/-!
`SQProblem`: hotstarts with new matrices.  src/SQProblem.cpp.

The class has no data members of its own.  Modelled are the variants taking plain arrays, which hand over to the ones taking matrix
objects; who owns the matrices is not modelled.
-/
namespace QpOASES
open SubjectToStatus SubjectToType ReturnValue HessianType QProblemStatus

namespace QPC

section
variable {K : Type} [Field K] [LinearOrder K] [IsStrictOrderedRing K]

/-- `setupSubjectToType( lb_new,ub_new,lbA_new,ubA_new )`, src/QProblem.cpp:1935-2030 -/
def setupTypesFor (s : QPC K) (lbNew ubNew lbANew ubANew : Option (Nat → K)) : QPC K :=
  { s with
    toQPB := s.toQPB.setupSubjectToType lbNew ubNew
    cons := { s.cons with
      noLower := match lbANew with
        | some l => (List.range s.nC).all fun i => !decide (l i > -INFTY)
        | none => true
      noUpper := match ubANew with
        | some u => (List.range s.nC).all fun i => !decide (u i < INFTY)
        | none => true
      type := fun i => if i < s.nC then s.typeOfC lbANew ubANew i else s.cons.type i } }

/-- `setA( Matrix* )`, include/qpOASES/QProblem.ipp:107-145, for a dense matrix: constraints with an empty row are disabled. -/
def setNewA (sq : K → K) (s : QPC K) (A : Nat → K) : QPC K :=
  let s := { s with A := fun i j => A (i * s.nV + j) }
  let Ax := s.prodA s.x
  { s with
    Ax := Ax
    Axu := fun i => s.ubA i - Ax i
    Axl := fun i => Ax i - s.lbA i
    cons := { s.cons with
      type := fun i => if i < s.nC ∧ isZero (sq (sumTo (fun j => s.A i j * s.A i j) s.nV)) then ST_DISABLED else s.cons.type i } }

/-- Part I.1 of `setupNewAuxiliaryQP`, src/SQProblem.cpp:361-389: the limits are shifted by `(A_new-A)*x`. -/
def shiftLimits (sq : K → K) (s : QPC K) (A : Nat → K) : QPC K :=
  let s := { s with lbA := fun i => -s.Axl i, ubA := s.Axu }
  let s := setNewA sq s A
  let s := { s with lbA := fun i => s.lbA i + s.Ax i, ubA := fun i => s.ubA i + s.Ax i }
  { s with Axu := fun i => s.ubA i - s.Ax i, Axl := fun i => s.Ax i - s.lbA i }

/-- Part I.1 is skipped without constraints. -/
def changeMatrix (sq : K → K) (s : QPC K) (A : Option (Nat → K)) : QPC K :=
  match A with
  | some A => if s.nC > 0 then shiftLimits sq s A else s
  | none => s

/-- Part I.2 of `setupNewAuxiliaryQP`, src/SQProblem.cpp:391-419 -/
def changeHessian (sq : K → K) (s : QPC K) (H : Option (Nat → K)) : Res (ReturnValue × QPC K) :=
  match H with
  | none => .ok (if s.H.isSome then RET_NO_HESSIAN_SPECIFIED else SUCCESSFUL_RETURN, s)
  | some H =>
    let p := ({ s.toQPB with H := some fun i j => H (i * s.nV + j), hessianType := HST_UNKNOWN } : QPB K).determineHessianType
    let s := { s with toQPB := p.2 }
    if p.1 ≠ SUCCESSFUL_RETURN then .ok (RET_SETUP_AUXILIARYQP_FAILED, s)
    else if s.hessianType = HST_ZERO ∨ s.hessianType = HST_SEMIDEF ∨ s.usingRegularisation = true then do
      let (r, s) ← regulariseHessian sq { s with regVal := 0 }
      .ok (if r ≠ SUCCESSFUL_RETURN then RET_SETUP_AUXILIARYQP_FAILED else SUCCESSFUL_RETURN, s)
    else .ok (SUCCESSFUL_RETURN, s)

/-- Former equalities that have become ordinary members change sides if the sign of their multiplier requires it,
src/SQProblem.cpp:464-484: `old` is the former working set, `w` the one with the new types. -/
def switchSides (old w : WS) (y : Nat → K) (n : Nat) : WS :=
  { old with status := fun i =>
      if i < n ∧ old.type i = ST_EQUALITY ∧ w.type i = ST_BOUNDED then
        (if old.status i = ST_LOWER ∧ y i < 0 then ST_UPPER else if old.status i = ST_UPPER ∧ y i > 0 then ST_LOWER else old.status i)
      else old.status i }

/-- The body of the loop of `setupNewAuxiliaryQP`, src/SQProblem.cpp:446-497: `none` if the working set could not be set up, else the
result of the factorisation; the object and the former working sets. -/
def tryWorkingSet (sq : K → K) (s : QPC K) (lbNew ubNew lbANew ubANew : Option (Nat → K)) (oldB oldC : WS) :
    Res (Option ReturnValue × QPC K × WS × WS) := do
  let s := { s with bounds := WS.init s.nV, cons := WS.init s.nC }
  let s := s.setupTypesFor lbNew ubNew lbANew ubANew
  let s := { s with bounds := s.bounds.setupAllFree, cons := s.cons.setupAllFree }
  let s := s.setupTQfactorisation
  let oldC := switchSides oldC s.cons (fun i => s.y (s.nV + i)) s.nC
  let oldB := switchSides oldB s.bounds s.y s.nV
  let (r, s) ← setupAuxiliaryWorkingSet sq s (some oldB) (some oldC) true
  if r ≠ SUCCESSFUL_RETURN then .ok (none, s, oldB, oldC) else do
  let (r, s) ← computeProjectedCholesky sq s
  .ok (some r, s, oldB, oldC)

/-- All inactive variables take the status given, src/SQProblem.cpp:437-443. -/
def moveInactive (w : WS) (st : SubjectToStatus) (n : Nat) : WS :=
  { w with status := fun i => if i < n ∧ w.status i = ST_INACTIVE then st else w.status i }

/-- Part II of `setupNewAuxiliaryQP`, src/SQProblem.cpp:421-514.  The result of the second factorisation is not looked at, nor is that
of `setupAuxiliaryQPbounds`. -/
def newFactors (sq : K → K) (s : QPC K) (lbNew ubNew lbANew ubANew : Option (Nat → K)) : Res (ReturnValue × QPC K) := do
  let (r, s, oldB, oldC) ← tryWorkingSet sq s lbNew ubNew lbANew ubANew s.bounds s.cons
  match r with
  | none => .ok (RET_SETUP_AUXILIARYQP_FAILED, s)
  | some SUCCESSFUL_RETURN => .ok (SUCCESSFUL_RETURN, { s with status := QPS_AUXILIARYQPSOLVED })
  | some _ => do
    let (r, s, _, _) ← tryWorkingSet sq s lbNew ubNew lbANew ubANew (moveInactive oldB s.options.initialStatusBounds s.nV) oldC
    match r with
    | none => .ok (RET_SETUP_AUXILIARYQP_FAILED, s)
    | some _ =>
      let s := (setupAuxiliaryQPbounds { s with Axl := s.Ax, Axu := s.Ax } none).2
      .ok (SUCCESSFUL_RETURN, { s with status := QPS_AUXILIARYQPSOLVED })

/-- `setupNewAuxiliaryQP( const real_t* H_new, … )`, src/SQProblem.cpp:521-552, with the part common to all variants, 339-518. -/
def setupNewAuxiliaryQP (sq : K → K) (s : QPC K) (H A lbNew ubNew lbANew ubANew : Option (Nat → K)) : Res (ReturnValue × QPC K) :=
  if A.isNone ∧ s.nC > 0 then .ok (RET_INVALID_ARGUMENTS, s)
  else if s.status = QPS_NOTINITIALISED ∨ s.status = QPS_PREPARINGAUXILIARYQP ∨ s.status = QPS_PERFORMINGHOMOTOPY then
    .ok (RET_UPDATEMATRICES_FAILED_AS_QP_NOT_SOLVED, s)
  else do
    let s := { s with status := QPS_PREPARINGAUXILIARYQP }
    let (r, s) ← changeHessian sq (changeMatrix sq s A) H
    if r ≠ SUCCESSFUL_RETURN then .ok (r, s) else do
    let s ← setupAuxiliaryQPgradient s
    newFactors sq s lbNew ubNew lbANew ubANew

/-- `hotstart( const real_t* H_new, … )`, src/SQProblem.cpp:146-192 -/
def hotstartNew (sq : K → K) (fuel : Nat) (s : QPC K) (H : Option (Nat → K)) (gNew : Nat → K) (A lbNew ubNew lbANew ubANew : Option (Nat → K))
    (nWSR : Int) (cputime : Option K) (gB gC : QPB.Guess) : Res (OutC K) :=
  if s.status = QPS_NOTINITIALISED ∨ s.status = QPS_PREPARINGAUXILIARYQP ∨ s.status = QPS_PERFORMINGHOMOTOPY then
    .ok ⟨RET_HOTSTART_FAILED_AS_QP_NOT_INITIALISED, nWSR, cputime, s⟩
  else do
    let p := s.toQPB.startClock cputime
    let (r, s) ← setupNewAuxiliaryQP sq { s with toQPB := p.2 } H A lbNew ubNew lbANew ubANew
    if r ≠ SUCCESSFUL_RETURN then .ok ⟨RET_SETUP_AUXILIARYQP_FAILED, nWSR, cputime, s⟩ else do
    let q := s.toQPB.stopClock cputime p.1
    let o ← hotstart sq fuel { s with toQPB := q.2 } gNew lbNew ubNew lbANew ubANew nWSR (cputime.map fun c => c - q.1.getD 0) gB gC
    let q := o.s.toQPB.stopClock cputime p.1
    .ok { o with cputime := q.1, s := { o.s with toQPB := q.2 } }

end
end QPC
end QpOASES
