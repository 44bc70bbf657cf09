import Verif.Proofs.QPBFar
import Verif.Proofs.QPCOutcome
import Verif.Proofs.QPCFar

/-!
Termination of the calls of `QProblem`: no part of a call but the far bound loop can fail to terminate, and the options that
decide about that loop stay as they are.
-/
namespace QpOASES
namespace QPC
open ReturnValue SubjectToStatus SubjectToType HessianType QProblemStatus

set_option linter.unusedSectionVars false

variable {K : Type} [Field K] [LinearOrder K] [IsStrictOrderedRing K]

/-- The execution terminates, and its result satisfies `P`. -/
structure Ends' {α : Type} (P : α → Prop) (r : Res α) : Prop where
  noDiv : QPB.NoDiv r
  post : ∀ a, r = .ok a → P a

theorem Ends'.ok {α : Type} {P : α → Prop} {a : α} (h : P a) : Ends' P (Res.ok a) := ⟨.ok _, fun _ e => by cases e; exact h⟩

theorem Ends'.pure {α : Type} {P : α → Prop} {a : α} (h : P a) : Ends' P (Pure.pure a : Res α) := .ok h

theorem Ends'.ub {α : Type} {P : α → Prop} {e : UB} (h : e ≠ .diverge) : Ends' P (Res.ub e : Res α) :=
  ⟨fun he => h (by cases he; rfl), fun _ he => by cases he⟩

theorem Ends'.bind {α β : Type} {P : α → Prop} {Q : β → Prop} {r : Res α} {f : α → Res β} (h : Ends' P r) (h' : ∀ a, P a → Ends' Q (f a)) :
    Ends' Q (r >>= f) := by
  cases r with
  | ok a => exact h' a (h.post a rfl)
  | ub e => exact ⟨fun he => by rw [Res.bind_ub] at he; cases he; exact h.noDiv rfl, fun b hb => by rw [Res.bind_ub] at hb; cases hb⟩

theorem Ends'.of {α : Type} {P : α → Prop} {r : Res α} (h : QPB.NoDiv r) (h' : ∀ a, r = .ok a → P a) : Ends' P r := ⟨h, h'⟩

theorem Ends'.mono {α : Type} {P Q : α → Prop} {r : Res α} (h : Ends' P r) (h' : ∀ a, P a → Q a) : Ends' Q r :=
  ⟨h.noDiv, fun a e => h' a (h.post a e)⟩

/-- Nothing about the result. -/
abbrev Any {α : Type} (_ : α) : Prop := True

/-- One step of a proof that an execution terminates; extended below by the functions treated. -/
syntax "ends1" : tactic
macro_rules | `(tactic| ends1) => `(tactic| split)
macro_rules | `(tactic| ends1) => `(tactic| (refine Ends'.bind (P := Any) ?_ (fun _ _ => ?_)))
macro_rules | `(tactic| ends1) => `(tactic| exact Ends'.ub (by decide))
macro_rules | `(tactic| ends1) => `(tactic| exact Ends'.pure trivial)
macro_rules | `(tactic| ends1) => `(tactic| exact Ends'.ok trivial)
macro_rules | `(tactic| ends1) => `(tactic| assumption)
syntax "ends" : tactic
macro_rules | `(tactic| ends) => `(tactic| repeat' (first | ends1 | dsimp only))

theorem any_of {α : Type} {r : Res α} (h : QPB.NoDiv r) : Ends' Any r := ⟨h, fun _ _ => trivial⟩

macro_rules | `(tactic| ends1) => `(tactic| with_reducible exact any_of (QPB.backsolveR_noDiv _ _ _ _ _))
macro_rules | `(tactic| ends1) => `(tactic| with_reducible exact any_of (QPB.NoDiv.cdiv _ _))
macro_rules | `(tactic| ends1) => `(tactic| with_reducible exact any_of (QPB.NoDiv.getH _))
macro_rules | `(tactic| ends1) => `(tactic| with_reducible exact any_of (QPB.ratioTest_noDiv _ _ _ _ _ _ _ _ _))

theorem stepZ_ends (s : QPC K) (rg : Nat → K) : Ends' Any (s.stepZ rg) := by
  unfold stepZ
  ends
macro_rules | `(tactic| ends1) => `(tactic| with_reducible exact stepZ_ends _ _)

theorem pass_ends (s : QPC K) (H : Nat → Nat → K) (bC bB f : Bool) (dx rg rb : Nat → K) : Ends' Any (s.pass H bC bB f dx rg rb) := by
  unfold pass
  ends
macro_rules | `(tactic| ends1) => `(tactic| with_reducible exact pass_ends _ _ _ _ _ _ _ _)

theorem refine_ends (s : QPC K) (H : Nat → Nat → K) (bC bB : Bool) (dg b dx : Nat → K) : ∀ (m : Nat) (f : Bool) (rg rb d dy : Nat → K),
    Ends' Any (s.refine H bC bB dg b dx m f rg rb d dy) := by
  intro m
  induction m with
  | zero => intro f rg rb d dy; exact .ok trivial
  | succ m ih =>
    intro f rg rb d dy
    unfold refine
    repeat' (first | exact ih _ _ _ _ _ | ends1 | dsimp only)
macro_rules | `(tactic| ends1) => `(tactic| with_reducible exact refine_ends _ _ _ _ _ _ _ _ _ _ _ _ _)

theorem getHess_ends (s : QPC K) : Ends' Any s.getHess := by
  unfold getHess
  ends
macro_rules | `(tactic| ends1) => `(tactic| with_reducible exact getHess_ends _)

theorem determineStepDirection_ends (s : QPC K) (dg a b c d : Nat → K) (bC bB : Bool) :
    Ends' Any (s.determineStepDirection dg a b c d bC bB) := by
  unfold determineStepDirection
  ends
macro_rules | `(tactic| ends1) => `(tactic| with_reducible exact determineStepDirection_ends _ _ _ _ _ _ _ _)

theorem plainRatioTest_ends (num den : Nat → K) (eN eD : K) : ∀ (idx : List Nat) (i : Nat) (t : K) (bc : Option Nat),
    Ends' Any (plainRatioTest num den eN eD idx i t bc) := by
  intro idx
  induction idx with
  | nil => intro i t bc; exact .ok trivial
  | cons a idx ih =>
    intro i t bc
    unfold plainRatioTest
    repeat' (first | exact ih _ _ _ | ends1 | dsimp only)
macro_rules | `(tactic| ends1) => `(tactic| with_reducible exact plainRatioTest_ends _ _ _ _ _ _ _ _)

theorem curvatureTests_ends (s : QPC K) (b : Bool) (k : Nat) (d : Dir K) : Ends' Any (s.curvatureTests b k d) := by
  unfold curvatureTests
  ends
macro_rules | `(tactic| ends1) => `(tactic| with_reducible exact curvatureTests_ends _ _ _ _)

theorem ensureNonzeroCurvature_ends (s : QPC K) (b : Bool) (k : Nat) : Ends' Any (s.ensureNonzeroCurvature b k) := by
  unfold ensureNonzeroCurvature
  ends
macro_rules | `(tactic| ends1) => `(tactic| with_reducible exact ensureNonzeroCurvature_ends _ _ _)

theorem addConstraintUpdate_ends (sq : K → K) (s : QPC K) (k : Nat) (st : SubjectToStatus) (u : Bool) :
    Ends' Any (addConstraintUpdate sq s k st u) := by
  unfold addConstraintUpdate
  ends
macro_rules | `(tactic| ends1) => `(tactic| with_reducible exact addConstraintUpdate_ends _ _ _ _ _)

theorem addBoundUpdate_ends (sq : K → K) (s : QPC K) (k : Nat) (st : SubjectToStatus) (u : Bool) :
    Ends' Any (addBoundUpdate sq s k st u) := by
  unfold addBoundUpdate
  ends
macro_rules | `(tactic| ends1) => `(tactic| with_reducible exact addBoundUpdate_ends _ _ _ _ _)

theorem addConstraintPlain_ends (sq : K → K) (s : QPC K) (k : Nat) (st : SubjectToStatus) (u : Bool) :
    Ends' Any (addConstraintPlain sq s k st u) := by
  unfold addConstraintPlain
  ends
macro_rules | `(tactic| ends1) => `(tactic| with_reducible exact addConstraintPlain_ends _ _ _ _ _)

theorem addBoundPlain_ends (sq : K → K) (s : QPC K) (k : Nat) (st : SubjectToStatus) (u : Bool) :
    Ends' Any (addBoundPlain sq s k st u) := by
  unfold addBoundPlain
  ends
macro_rules | `(tactic| ends1) => `(tactic| with_reducible exact addBoundPlain_ends _ _ _ _ _)

theorem exchange_ends (sq : K → K) (s : QPC K) (c : Change) : Ends' Any (exchange sq s c) := by
  unfold exchange
  ends
macro_rules | `(tactic| ends1) => `(tactic| with_reducible exact exchange_ends _ _ _)

theorem newColumnC_ends (s : QPC K) : Ends' Any s.newColumnC := by
  unfold newColumnC
  ends
macro_rules | `(tactic| ends1) => `(tactic| with_reducible exact newColumnC_ends _)

theorem newColumnB_ends (s : QPC K) (a b c : Nat) : Ends' Any (s.newColumnB a b c) := by
  unfold newColumnB
  ends
macro_rules | `(tactic| ends1) => `(tactic| with_reducible exact newColumnB_ends _ _ _ _)

theorem removeConstraintUpdate_ends (sq : K → K) (s : QPC K) (k : Nat) (u f : Bool) (c : Option Change) :
    Ends' Any (removeConstraintUpdate sq s k u f c) := by
  unfold removeConstraintUpdate
  ends
macro_rules | `(tactic| ends1) => `(tactic| with_reducible exact removeConstraintUpdate_ends _ _ _ _ _ _)

theorem removeConstraint_ends (sq : K → K) (s : QPC K) (k : Nat) (u f n : Bool) : Ends' Any (removeConstraint sq s k u f n) := by
  unfold removeConstraint
  ends
macro_rules | `(tactic| ends1) => `(tactic| with_reducible exact removeConstraint_ends _ _ _ _ _ _)

theorem removeBoundUpdate_ends (sq : K → K) (s : QPC K) (k : Nat) (u f : Bool) (c : Option Change) :
    Ends' Any (removeBoundUpdate sq s k u f c) := by
  unfold removeBoundUpdate
  ends
macro_rules | `(tactic| ends1) => `(tactic| with_reducible exact removeBoundUpdate_ends _ _ _ _ _ _)

theorem removeBound_ends (sq : K → K) (s : QPC K) (k : Nat) (u f n : Bool) : Ends' Any (removeBound sq s k u f n) := by
  unfold removeBound
  ends
macro_rules | `(tactic| ends1) => `(tactic| with_reducible exact removeBound_ends _ _ _ _ _ _)

theorem fullLITest_ends (s : QPC K) (a : Nat → K) : Ends' Any (s.fullLITest a) := by
  unfold fullLITest
  ends
macro_rules | `(tactic| ends1) => `(tactic| with_reducible exact fullLITest_ends _ _)

theorem checkLIConstraint_ends (s : QPC K) (k : Nat) : Ends' Any (s.checkLIConstraint k) := by
  unfold checkLIConstraint
  ends
macro_rules | `(tactic| ends1) => `(tactic| with_reducible exact checkLIConstraint_ends _ _)

theorem checkLIBound_ends (s : QPC K) (k : Nat) : Ends' Any (s.checkLIBound k) := by
  unfold checkLIBound
  ends
macro_rules | `(tactic| ends1) => `(tactic| with_reducible exact checkLIBound_ends _ _)

theorem dropInfeasibles_ends (sq : K → K) (s : QPC K) (k : Nat) (st : SubjectToStatus) (b : Bool) (xiB xiC : Nat → K) :
    Ends' Any (dropInfeasibles sq s k st b xiB xiC) := by
  unfold dropInfeasibles
  ends
macro_rules | `(tactic| ends1) => `(tactic| with_reducible exact dropInfeasibles_ends _ _ _ _ _ _ _)

theorem resolveLI_ends (sq : K → K) (s : QPC K) (k : Nat) (st : SubjectToStatus) (b : Bool) (xiC xiB : Nat → K) :
    Ends' Any (resolveLI sq s k st b xiC xiB) := by
  unfold resolveLI
  ends
macro_rules | `(tactic| ends1) => `(tactic| with_reducible exact resolveLI_ends _ _ _ _ _ _ _)

theorem ensureLIConstraint_ends (sq : K → K) (s : QPC K) (k : Nat) (st : SubjectToStatus) : Ends' Any (ensureLIConstraint sq s k st) := by
  unfold ensureLIConstraint
  ends
macro_rules | `(tactic| ends1) => `(tactic| with_reducible exact ensureLIConstraint_ends _ _ _ _)

theorem ensureLIBound_ends (sq : K → K) (s : QPC K) (k : Nat) (st : SubjectToStatus) : Ends' Any (ensureLIBound sq s k st) := by
  unfold ensureLIBound
  ends
macro_rules | `(tactic| ends1) => `(tactic| with_reducible exact ensureLIBound_ends _ _ _ _)

theorem addConstraint_ends (sq : K → K) (s : QPC K) (k : Nat) (st : SubjectToStatus) : Ends' Any (addConstraint sq s k st) := by
  unfold addConstraint
  ends
macro_rules | `(tactic| ends1) => `(tactic| with_reducible exact addConstraint_ends _ _ _ _)

theorem addBound_ends (sq : K → K) (s : QPC K) (k : Nat) (st : SubjectToStatus) : Ends' Any (addBound sq s k st) := by
  unfold addBound
  ends
macro_rules | `(tactic| ends1) => `(tactic| with_reducible exact addBound_ends _ _ _ _)

theorem changeActiveSet_ends (sq : K → K) (s : QPC K) (c : Option Change) : Ends' Any (changeActiveSet sq s c) := by
  unfold changeActiveSet
  ends
macro_rules | `(tactic| ends1) => `(tactic| with_reducible exact changeActiveSet_ends _ _ _)

theorem blockTest_ends (p : K × Option Change) (w : WS) (b : Bool) (st : SubjectToStatus) (num den : Nat → K) (eN eD : K) (idx : List Nat) :
    Ends' Any (blockTest p w b st num den eN eD idx) := by
  unfold blockTest
  ends
macro_rules | `(tactic| ends1) => `(tactic| with_reducible exact blockTest_ends _ _ _ _ _ _ _ _ _)

theorem stepLength_ends (s : QPC K) (h : Shift K) (d : Dir K) : Ends' Any (stepLength s h d) := by
  unfold stepLength
  ends
macro_rules | `(tactic| ends1) => `(tactic| with_reducible exact stepLength_ends _ _ _)

theorem performStep_ends (s : QPC K) (h : Shift K) (d : Dir K) : Ends' Any (performStep s h d) := by
  unfold performStep
  ends
macro_rules | `(tactic| ends1) => `(tactic| with_reducible exact performStep_ends _ _ _)

macro_rules | `(tactic| ends1) => `(tactic| with_reducible exact any_of (QPB.computeCholesky_noDiv _ _))
macro_rules | `(tactic| ends1) => `(tactic| with_reducible exact any_of (QPB.regulariseHessian_noDiv _ _))
macro_rules | `(tactic| ends1) => `(tactic| with_reducible exact any_of (QPB.setupAuxiliaryQPgradient_noDiv _))
macro_rules | `(tactic| ends1) => `(tactic| with_reducible exact any_of (QPB.rampVal_noDiv _ _ _))

theorem projectedHessian_ends (s : QPC K) : Ends' Any s.projectedHessian := by
  unfold projectedHessian
  ends
macro_rules | `(tactic| ends1) => `(tactic| with_reducible exact projectedHessian_ends _)

theorem computeProjectedCholesky_ends (sq : K → K) (s : QPC K) : Ends' Any (computeProjectedCholesky sq s) := by
  unfold computeProjectedCholesky
  ends
macro_rules | `(tactic| ends1) => `(tactic| with_reducible exact computeProjectedCholesky_ends _ _)

theorem regulariseHessian_ends (sq : K → K) (s : QPC K) : Ends' Any (regulariseHessian sq s) := by
  unfold regulariseHessian
  ends
macro_rules | `(tactic| ends1) => `(tactic| with_reducible exact regulariseHessian_ends _ _)

theorem setupInitialCholesky_ends (sq : K → K) (s : QPC K) : Ends' Any (setupInitialCholesky sq s) := by
  unfold setupInitialCholesky
  ends
macro_rules | `(tactic| ends1) => `(tactic| with_reducible exact setupInitialCholesky_ends _ _)

theorem setupAuxiliaryQPgradient_ends (s : QPC K) : Ends' Any (setupAuxiliaryQPgradient s) := by
  unfold setupAuxiliaryQPgradient
  ends
macro_rules | `(tactic| ends1) => `(tactic| with_reducible exact setupAuxiliaryQPgradient_ends _)

theorem rampB_ends : ∀ (m i : Nat) (s : QPC K), Ends' Any (rampB m i s) := by
  intro m
  induction m with
  | zero => intro i s; exact .ok trivial
  | succ m ih =>
    intro i s
    unfold rampB
    repeat' (first | exact ih _ _ | ends1 | dsimp only)
macro_rules | `(tactic| ends1) => `(tactic| with_reducible exact rampB_ends _ _ _)

theorem rampC_ends : ∀ (m i : Nat) (s : QPC K), Ends' Any (rampC m i s) := by
  intro m
  induction m with
  | zero => intro i s; exact .ok trivial
  | succ m ih =>
    intro i s
    unfold rampC
    repeat' (first | exact ih _ _ | ends1 | dsimp only)
macro_rules | `(tactic| ends1) => `(tactic| with_reducible exact rampC_ends _ _ _)

theorem performRamping_ends (s : QPC K) : Ends' Any (performRamping s) := by
  unfold performRamping
  ends
macro_rules | `(tactic| ends1) => `(tactic| with_reducible exact performRamping_ends _)

theorem performDriftCorrection_ends (s : QPC K) : Ends' Any (performDriftCorrection s) := by
  unfold performDriftCorrection
  ends
macro_rules | `(tactic| ends1) => `(tactic| with_reducible exact performDriftCorrection_ends _)

theorem endIteration_ends (sq : K → K) (s : QPC K) (bc : Option Change) (i n : Int) (c : Option K) (t : K) :
    Ends' Any (endIteration sq s bc i n c t) := by
  unfold endIteration
  ends
macro_rules | `(tactic| ends1) => `(tactic| with_reducible exact endIteration_ends _ _ _ _ _ _ _)

theorem iteration_ends (sq : K → K) (s : QPC K) (g : Nat → K) (l u lA uA : Option (Nat → K)) (i n : Int) (c : Option K) (t : K) :
    Ends' Any (iteration sq s g l u lA uA i n c t) := by
  unfold iteration
  ends
macro_rules | `(tactic| ends1) => `(tactic| with_reducible exact iteration_ends _ _ _ _ _ _ _ _ _ _ _)

theorem solveLoop_ends (sq : K → K) (g : Nat → K) (l u lA uA : Option (Nat → K)) (n p : Int) (c : Option K) (t : K) :
    ∀ (m : Nat) (i : Int) (s : QPC K), Ends' Any (solveLoop sq g l u lA uA n p c t m i s) := by
  intro m
  induction m with
  | zero => intro i s; exact .ok trivial
  | succ m ih =>
    intro i s
    unfold solveLoop
    repeat' (first | exact ih _ _ | ends1 | dsimp only)
macro_rules | `(tactic| ends1) => `(tactic| with_reducible exact solveLoop_ends _ _ _ _ _ _ _ _ _ _ _ _ _)

theorem seqLoop_ends {f : Nat → QPC K → Res (ReturnValue × QPC K)} (h : ∀ i s, Ends' Any (f i s)) :
    ∀ (m i : Nat) (s : QPC K), Ends' Any (seqLoop f m i s) := by
  intro m
  induction m with
  | zero => intro i s; exact .ok trivial
  | succ m ih =>
    intro i s
    unfold seqLoop
    repeat' (first | exact ih _ _ | exact h _ _ | ends1 | dsimp only)
macro_rules | `(tactic| ends1) => `(tactic| with_reducible (refine seqLoop_ends (fun _ _ => ?_) _ _ _))

theorem dropInfinite_ends (sq : K → K) (c : Prop) [Decidable c] (i : Nat) (s : QPC K) : Ends' Any (dropInfinite sq c i s) := by
  unfold dropInfinite
  ends
macro_rules | `(tactic| ends1) => `(tactic| with_reducible exact dropInfinite_ends _ _ _ _)

theorem updateLimit_ends (sq : K → K) (l u : Nat → K) (i : Nat) (s : QPC K) : Ends' Any (updateLimit sq l u i s) := by
  unfold updateLimit
  ends
macro_rules | `(tactic| ends1) => `(tactic| with_reducible exact updateLimit_ends _ _ _ _ _)

theorem updateEquality_ends (sq : K → K) (i : Nat) (s : QPC K) : Ends' Any (updateEquality sq i s) := by
  unfold updateEquality
  ends
macro_rules | `(tactic| ends1) => `(tactic| with_reducible exact updateEquality_ends _ _ _)

theorem updateActivities_ends (sq : K → K) (s : QPC K) (l u : Option (Nat → K)) : Ends' Any (updateActivitiesForHotstart sq s l u) := by
  unfold updateActivitiesForHotstart
  ends
macro_rules | `(tactic| ends1) => `(tactic| with_reducible exact updateActivities_ends _ _ _ _)

theorem solveQP_ends (sq : K → K) (s : QPC K) (g : Nat → K) (l u lA uA : Option (Nat → K)) (n : Int) (c : Option K) (p : Int) :
    Ends' Any (solveQP sq s g l u lA uA n c p) := by
  unfold solveQP
  ends
macro_rules | `(tactic| ends1) => `(tactic| with_reducible exact solveQP_ends _ _ _ _ _ _ _ _ _ _)

theorem regSteps_ends (sq : K → K) (g : Nat → K) (l u lA uA : Option (Nat → K)) (n : Int) (c : Option K) :
    ∀ (m : Nat) (o : OutC K) (t : K), Ends' Any (regSteps sq g l u lA uA n c m o t) := by
  intro m
  induction m with
  | zero => intro o t; exact .ok trivial
  | succ m ih =>
    intro o t
    unfold regSteps
    repeat' (first | exact ih _ _ | ends1 | dsimp only)
macro_rules | `(tactic| ends1) => `(tactic| with_reducible exact regSteps_ends _ _ _ _ _ _ _ _ _ _ _)

theorem solveRegularisedQP_ends (sq : K → K) (s : QPC K) (g : Nat → K) (l u lA uA : Option (Nat → K)) (n : Int) (c : Option K) (p : Int) :
    Ends' Any (solveRegularisedQP sq s g l u lA uA n c p) := by
  unfold solveRegularisedQP
  ends
macro_rules | `(tactic| ends1) => `(tactic| with_reducible exact solveRegularisedQP_ends _ _ _ _ _ _ _ _ _ _)

/-! ### Setting up a working set -/

theorem addBoundAs_ends (sq : K → K) (s : QPC K) (k : Nat) (st : SubjectToStatus) (u : Bool) : Ends' Any (addBoundAs sq s k st u) := by
  unfold addBoundAs
  ends
macro_rules | `(tactic| ends1) => `(tactic| with_reducible exact addBoundAs_ends _ _ _ _ _)

theorem addConstraintAs_ends (sq : K → K) (s : QPC K) (k : Nat) (st : SubjectToStatus) (u : Bool) :
    Ends' Any (addConstraintAs sq s k st u) := by
  unfold addConstraintAs
  ends
macro_rules | `(tactic| ends1) => `(tactic| with_reducible exact addConstraintAs_ends _ _ _ _ _)

theorem auxRemoveC_ends (sq : K → K) (w : Option WS) (i : Nat) (s : QPC K) : Ends' Any (auxRemoveC sq w i s) := by
  unfold auxRemoveC
  ends
macro_rules | `(tactic| ends1) => `(tactic| with_reducible exact auxRemoveC_ends _ _ _ _)

theorem auxRemoveB_ends (sq : K → K) (w : Option WS) (i : Nat) (s : QPC K) : Ends' Any (auxRemoveB sq w i s) := by
  unfold auxRemoveB
  ends
macro_rules | `(tactic| ends1) => `(tactic| with_reducible exact auxRemoveB_ends _ _ _ _)

theorem auxEqB_ends (sq : K → K) (u : Bool) (i : Nat) (s : QPC K) : Ends' Any (auxEqB sq u i s) := by
  unfold auxEqB
  ends
macro_rules | `(tactic| ends1) => `(tactic| with_reducible exact auxEqB_ends _ _ _ _)

theorem auxEqC_ends (sq : K → K) (u : Bool) (i : Nat) (s : QPC K) : Ends' Any (auxEqC sq u i s) := by
  unfold auxEqC
  ends
macro_rules | `(tactic| ends1) => `(tactic| with_reducible exact auxEqC_ends _ _ _ _)

theorem auxAddB_ends (sq : K → K) (w : Option WS) (u : Bool) (i : Nat) (s : QPC K) : Ends' Any (auxAddB sq w u i s) := by
  unfold auxAddB
  ends
macro_rules | `(tactic| ends1) => `(tactic| with_reducible exact auxAddB_ends _ _ _ _ _)

theorem auxAddC_ends (sq : K → K) (w : Option WS) (u : Bool) (i : Nat) (s : QPC K) : Ends' Any (auxAddC sq w u i s) := by
  unfold auxAddC
  ends
macro_rules | `(tactic| ends1) => `(tactic| with_reducible exact auxAddC_ends _ _ _ _ _)

theorem auxLoops_ends (sq : K → K) (s : QPC K) (wB wC : Option WS) (b : Bool) : Ends' Any (auxLoops sq s wB wC b) := by
  unfold auxLoops
  ends
macro_rules | `(tactic| ends1) => `(tactic| with_reducible exact auxLoops_ends _ _ _ _ _)

theorem setupAuxiliaryWorkingSet_ends (sq : K → K) (s : QPC K) (wB wC : Option WS) (b : Bool) :
    Ends' Any (setupAuxiliaryWorkingSet sq s wB wC b) := by
  unfold setupAuxiliaryWorkingSet
  ends
macro_rules | `(tactic| ends1) => `(tactic| with_reducible exact setupAuxiliaryWorkingSet_ends _ _ _ _ _)

theorem setupAuxiliaryQPdata_ends (s : QPC K) : Ends' Any (setupAuxiliaryQPdata s) := by
  unfold setupAuxiliaryQPdata
  ends
macro_rules | `(tactic| ends1) => `(tactic| with_reducible exact setupAuxiliaryQPdata_ends _)

theorem setupAuxiliaryQP_ends (sq : K → K) (s : QPC K) (gB gC : Option WS) : Ends' Any (setupAuxiliaryQP sq s gB gC) := by
  unfold setupAuxiliaryQP
  ends
macro_rules | `(tactic| ends1) => `(tactic| with_reducible exact setupAuxiliaryQP_ends _ _ _ _)

theorem prepareAuxiliary_ends (sq : K → K) (s : QPC K) (x y : Option (Nat → K)) (gB gC : Option WS) (R : Option (Nat → K)) (n : Int)
    (c : Option K) : Ends' Any (prepareAuxiliary sq s x y gB gC R n c) := by
  unfold prepareAuxiliary
  ends
macro_rules | `(tactic| ends1) => `(tactic| with_reducible exact prepareAuxiliary_ends _ _ _ _ _ _ _ _ _)

theorem prepareInitialQP_ends (sq : K → K) (s : QPC K) (x y : Option (Nat → K)) (gB gC : Option WS) (R : Option (Nat → K)) (n : Int)
    (c : Option K) : Ends' Any (prepareInitialQP sq s x y gB gC R n c) := by
  unfold prepareInitialQP
  ends
macro_rules | `(tactic| ends1) => `(tactic| with_reducible exact prepareInitialQP_ends _ _ _ _ _ _ _ _ _)

/-! ### The far bound loop -/

theorem farVal_ends (s : QPB K) (cur : K) (n i : Nat) : Ends' Any (s.farVal cur n i) := by
  unfold QPB.farVal
  ends
macro_rules | `(tactic| ends1) => `(tactic| with_reducible exact farVal_ends _ _ _ _)
macro_rules | `(tactic| ends1) => `(tactic| with_reducible exact any_of (QPB.updateFarBounds_noDiv _ _ _ _ _ _ _ _ _))

theorem farC_ends (s : QPC K) (cur : K) (l u : Option (Nat → K)) : ∀ (m i : Nat) (lf uf : Nat → K), Ends' Any (farC s cur l u m i lf uf) := by
  intro m
  induction m with
  | zero => intro i lf uf; exact .ok trivial
  | succ m ih =>
    intro i lf uf
    unfold farC
    repeat' (first | exact ih _ _ _ | ends1 | dsimp only)
macro_rules | `(tactic| ends1) => `(tactic| with_reducible exact farC_ends _ _ _ _ _ _ _ _)

theorem updateFarBounds_ends (s : QPC K) (cur : K) (l u lA uA : Option (Nat → K)) (f : Far K) :
    Ends' Any (updateFarBounds s cur l u lA uA f) := by
  unfold updateFarBounds
  ends
macro_rules | `(tactic| ends1) => `(tactic| with_reducible exact updateFarBounds_ends _ _ _ _ _ _ _)

end QPC
end QpOASES
