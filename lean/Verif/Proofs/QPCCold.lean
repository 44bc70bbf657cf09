import Verif.Proofs.QPCInit

/-!
Cold starts of the general solver.
-/
namespace QpOASES
open Finset Props SubjectToStatus SubjectToType ReturnValue HessianType QProblemStatus
open QPB (Proper)

set_option linter.unusedSectionVars false

variable {K : Type} [Field K] [LinearOrder K] [IsStrictOrderedRing K]

theorem QPB.computeCholesky_bounds {sq : K → K} {s s' : QPB K} {r : ReturnValue} (h : computeCholesky sq s = .ok (r, s')) :
    s'.bounds = s.bounds := by
  unfold computeCholesky at h
  dsimp only at h
  split at h
  · split at h <;> cases h <;> rfl
  · cases h; rfl
  · split at h
    · obtain ⟨p, -, h2⟩ := Res.bind_eq_ok.1 h
      split at h2
      · cases h2; split <;> rfl
      · cases h2; rfl
    · cases h; rfl

namespace QPC

/-- The matrix to be factorised in the general case -/
theorem projectedHessian_general {s : QPC K} (h : s.general = true) : s.projectedHessian = (do
    let H ← s.getH
    .ok (some (s.cholInput H, if s.nAC = 0 then fun i j => if j < s.nZ ∧ i < s.nV then (if i = s.fr j then 1 else 0) else s.Q i j else s.Q))) := by
  have hg := general_iff.1 h
  unfold projectedHessian cholInput
  dsimp only
  have hz : s.hessianType ≠ HST_ZERO := fun e => hg (Or.inl e)
  have hi : s.hessianType ≠ HST_IDENTITY := fun e => hg (Or.inr e)
  split
  · exact absurd ‹_› hz
  · exact absurd ‹_› hi
  · split
    · rfl
    · rfl

theorem computeProjectedCholesky_again {sq : K → K} {s s1 s2 : QPC K} {r : ReturnValue} (hg : s.general = true)
    (h1 : computeProjectedCholesky sq s = .ok (RET_HESSIAN_NOT_SPD, s1)) (h2 : computeProjectedCholesky sq s1 = .ok (r, s2)) :
    r = RET_HESSIAN_NOT_SPD := by
  unfold computeProjectedCholesky at h1
  split at h1
  · next h0 =>
    rw [Res.bind_eq_ok] at h1
    obtain ⟨⟨r1, b⟩, e1, h1⟩ := h1
    simp only [Res.ok.injEq, Prod.mk.injEq] at h1
    obtain ⟨rfl, rfl⟩ := h1
    have hb := QPB.computeCholesky_bounds e1
    unfold computeProjectedCholesky at h2
    have hn : ({ s with toQPB := b } : QPC K).nFX + ({ s with toQPB := b } : QPC K).nAC = 0 := by
      show b.bounds.nFX + s.nAC = 0
      rw [hb]; exact h0
    rw [if_pos hn] at h2
    obtain ⟨s'', e2⟩ := QPB.computeCholesky_again e1
    have e2' : QPB.computeCholesky sq ({ s with toQPB := b } : QPC K).toQPB = .ok (RET_HESSIAN_NOT_SPD, s'') := e2
    rw [e2', Res.bind_ok] at h2
    simp only [Res.ok.injEq, Prod.mk.injEq] at h2
    exact h2.1.symm
  · next h0 =>
    dsimp only at h1
    split at h1
    · simp only [Res.ok.injEq, Prod.mk.injEq] at h1; exact absurd h1.1 (by decide)
    next hz =>
    rw [projectedHessian_general (s := { s with R := fun _ _ => 0 }) hg, Res.bind_eq_ok] at h1
    obtain ⟨o, eo, h1⟩ := h1
    rw [Res.bind_eq_ok] at eo
    obtain ⟨H, hH, eo⟩ := eo
    simp only [Res.ok.injEq] at eo
    subst eo
    dsimp only at h1
    split at h1
    · next hp =>
      simp only [Res.ok.injEq, Prod.mk.injEq, true_and] at h1
      have key : ∀ (R Q : Nat → Nat → K) (o : Options K), (s.nAC = 0 ∨ Q = s.Q) →
          s1 = { s with R := R, Q := Q, options := o, hessianType := HST_SEMIDEF } → r = RET_HESSIAN_NOT_SPD := by
        intro R Q o hQ e1
        subst e1
        unfold computeProjectedCholesky at h2
        rw [if_neg (show ¬ ({ s with R := R, Q := Q, options := o, hessianType := HST_SEMIDEF } : QPC K).nFX + ({ s with R := R, Q := Q, options := o, hessianType := HST_SEMIDEF } : QPC K).nAC = 0 from h0)] at h2
        dsimp only at h2
        rw [if_neg (show ¬ ({ s with R := fun _ _ => 0, Q := Q, options := o, hessianType := HST_SEMIDEF } : QPC K).nZ = 0 from hz)] at h2
        rw [projectedHessian_general (s := { s with R := fun _ _ => 0, Q := Q, options := o, hessianType := HST_SEMIDEF }) rfl, Res.bind_eq_ok] at h2
        obtain ⟨o', eo, h2⟩ := h2
        rw [Res.bind_eq_ok] at eo
        obtain ⟨H', hH', eo⟩ := eo
        simp only [Res.ok.injEq] at eo
        subst eo
        have hHH : Res.ok H' = Res.ok H := hH'.symm.trans hH
        simp only [Res.ok.injEq] at hHH
        subst hHH
        have ein : cholInput { s with R := fun _ _ => 0, Q := Q, options := o, hessianType := HST_SEMIDEF } H' = cholInput { s with R := fun _ _ => 0 } H' := by
          unfold cholInput
          rcases hQ with h | h
          · rw [if_pos (show ({ s with R := fun _ _ => 0, Q := Q, options := o, hessianType := HST_SEMIDEF } : QPC K).nAC = 0 from h),
              if_pos (show ({ s with R := fun _ _ => 0 } : QPC K).nAC = 0 from h)]
            rfl
          · subst h
            rfl
        rw [ein] at h2
        dsimp only at h2
        have hp' : (potrf sq ({ s with R := fun _ _ => 0, Q := Q, options := o, hessianType := HST_SEMIDEF } : QPC K).nZ (fun q => cholInput { s with R := fun _ _ => 0 } H' (q % s.nV) (q / s.nV)) s.nV).1 > 0 := hp
        rw [if_pos hp'] at h2
        simp only [Res.ok.injEq, Prod.mk.injEq] at h2
        exact h2.1.symm
      have hQ : s.nAC = 0 ∨ (if ({ s with R := fun _ _ => 0 } : QPC K).nAC = 0 then fun i j => if j < ({ s with R := fun _ _ => 0 } : QPC K).nZ ∧ i < ({ s with R := fun _ _ => 0 } : QPC K).nV then (if i = ({ s with R := fun _ _ => 0 } : QPC K).fr j then 1 else 0) else ({ s with R := fun _ _ => 0 } : QPC K).Q i j else ({ s with R := fun _ _ => 0 } : QPC K).Q) = s.Q := by
        by_cases h : s.nAC = 0
        · exact Or.inl h
        · exact Or.inr (if_neg h)
      split at h1
      · exact key _ _ _ hQ h1.symm
      · exact key _ _ _ hQ h1.symm
    · simp only [Res.ok.injEq, Prod.mk.injEq] at h1; exact absurd h1.1 (by decide)

theorem computeProjectedCholesky_options {sq : K → K} {s s' : QPC K} {r : ReturnValue} (h : computeProjectedCholesky sq s = .ok (r, s')) :
    s'.options.enableRegularisation = s.options.enableRegularisation := by
  unfold computeProjectedCholesky at h
  split at h
  · rw [Res.bind_eq_ok] at h
    obtain ⟨⟨r1, b⟩, e1, h⟩ := h
    simp only [Res.ok.injEq, Prod.mk.injEq] at h
    rw [← h.2]
    exact QPB.computeCholesky_options e1
  · dsimp only at h
    split at h
    · simp only [Res.ok.injEq, Prod.mk.injEq] at h; rw [← h.2]
    · rw [Res.bind_eq_ok] at h
      obtain ⟨o, eo, h⟩ := h
      cases o with
      | none => simp only [Res.ok.injEq, Prod.mk.injEq] at h; rw [← h.2]
      | some p =>
        dsimp only at h
        split at h
        · simp only [Res.ok.injEq, Prod.mk.injEq] at h
          rw [← h.2]
          split <;> rfl
        · simp only [Res.ok.injEq, Prod.mk.injEq] at h; rw [← h.2]

theorem _root_.QpOASES.QPB.computeCholesky_kind {sq : K → K} {s s' : QPB K} {r : ReturnValue} (h : QPB.computeCholesky sq s = .ok (r, s')) :
    s'.regVal = s.regVal ∧ (s'.hessianType = s.hessianType ∨ s'.hessianType = HST_SEMIDEF) := by
  unfold QPB.computeCholesky at h
  dsimp only at h
  split at h
  · split at h <;> cases h <;> exact ⟨rfl, Or.inl rfl⟩
  · cases h; exact ⟨rfl, Or.inl rfl⟩
  · split at h
    · obtain ⟨p, -, h2⟩ := Res.bind_eq_ok.1 h
      split at h2
      · cases h2; split <;> exact ⟨rfl, Or.inr rfl⟩
      · cases h2; exact ⟨rfl, Or.inl rfl⟩
    · cases h; exact ⟨rfl, Or.inl rfl⟩

theorem computeProjectedCholesky_idle {sq : K → K} {s s' : QPC K} {r : ReturnValue} (hi : s.toQPB.Idle) (h : computeProjectedCholesky sq s = .ok (r, s')) :
    s'.toQPB.Idle := by
  have ho := computeProjectedCholesky_options h
  have key : s'.regVal = s.regVal ∧ (s'.hessianType = s.hessianType ∨ s'.hessianType = HST_SEMIDEF) := by
    unfold computeProjectedCholesky at h
    split at h
    · rw [Res.bind_eq_ok] at h
      obtain ⟨⟨r1, b⟩, e1, h⟩ := h
      simp only [Res.ok.injEq, Prod.mk.injEq] at h
      rw [← h.2]
      exact QPB.computeCholesky_kind e1
    · dsimp only at h
      split at h
      · simp only [Res.ok.injEq, Prod.mk.injEq] at h; rw [← h.2]; exact ⟨rfl, Or.inl rfl⟩
      · rw [Res.bind_eq_ok] at h
        obtain ⟨o, eo, h⟩ := h
        cases o with
        | none => simp only [Res.ok.injEq, Prod.mk.injEq] at h; rw [← h.2]; exact ⟨rfl, Or.inl rfl⟩
        | some p =>
          dsimp only at h
          split at h
          · simp only [Res.ok.injEq, Prod.mk.injEq] at h
            rw [← h.2]
            split <;> exact ⟨rfl, Or.inr rfl⟩
          · simp only [Res.ok.injEq, Prod.mk.injEq] at h; rw [← h.2]; exact ⟨rfl, Or.inl rfl⟩
  rcases hi with hi | ⟨h1, h2⟩
  · exact Or.inl (ho.trans hi)
  · refine Or.inr ⟨?_, ?_⟩
    · unfold QPB.usingRegularisation at h1 ⊢
      rw [key.1]; exact h1
    · rcases key.2 with k | k
      · rw [k]; exact h2
      · rw [k]; decide

/-- The first factorisation is exact; that of a multiple of the identity does not fail.  The Hessian is not regularised at this point:
that would have no effect, or nothing is active and the factorisation does not fail. -/
structure FirstChol (sq : K → K) (s : QPC K) : Prop where
  pivots : s.general = true → ∀ H, s.H = some H → PivotsOK sq s.nZ s.nV s.nZ 0 (fun q => s.cholInput H (q % s.nV) (q / s.nV))
  ident : s.general = false → ∀ s', computeProjectedCholesky sq s ≠ .ok (RET_HESSIAN_NOT_SPD, s')
  calm : s.toQPB.Idle ∨ (s.nV : Int) = (s.nFR : Int) - s.bounds.nFV ∧ ∀ s', computeProjectedCholesky sq s ≠ .ok (RET_HESSIAN_NOT_SPD, s')

theorem setupInitialCholesky_spec {sq : K → K} {s s' : QPC K} (h : s.Base)
    (hpl : s.nFX + s.nAC = 0 → ∀ j < s.nFR, ∀ i ∈ s.F, s.Q i j = if i = s.fr j then 1 else 0) (hc : FirstChol sq s)
    (hHn : ¬ s.scalarH → s.H ≠ none) {r : ReturnValue}
    (e : setupInitialCholesky sq s = .ok (r, s')) :
    r ≠ RET_MAX_NWSR_REACHED ∧ (r = SUCCESSFUL_RETURN → (∃ R Q, s' = { s with R := R, Q := Q, haveCholesky := true }) ∧ s'.Facs) := by
  unfold setupInitialCholesky at e
  have hskip : ∀ {β : Type} (k : ReturnValue × QPC K → Res β), (if (s.nV : Int) ≠ (s.nFR : Int) - s.bounds.nFV ∧ s.options.enableRegularisation = true then
      regulariseHessian sq s >>= k else Res.ok (SUCCESSFUL_RETURN, s) >>= k) = k (SUCCESSFUL_RETURN, s) := by
    intro β k
    rcases hc.calm with h | h
    · rw [regulariseHessian_idle h, Res.bind_ok, ite_self]
    · rw [if_neg fun hh => hh.1 h.1, Res.bind_ok]
  rw [hskip] at e
  dsimp only at e
  rw [if_neg (by simp), Res.bind_eq_ok] at e
  obtain ⟨⟨r1, s1⟩, e1, e⟩ := e
  dsimp only at e
  split at e
  · next hr =>
    subst hr
    have hg : s.general = true := by
      by_contra hn
      exact hc.ident (by simpa using hn) s1 e1
    have hreg : s.toQPB.Idle := by
      rcases hc.calm with h | h
      · exact h
      · exact absurd e1 (h.2 s1)
    rw [regulariseHessian_idle (computeProjectedCholesky_idle hreg e1), Res.bind_ok] at e
    dsimp only at e
    rw [if_neg (by simp), Res.bind_eq_ok] at e
    obtain ⟨⟨r2, s2⟩, e2, e⟩ := e
    have := computeProjectedCholesky_again hg e1 e2
    subst this
    dsimp only at e
    rw [if_pos (by decide)] at e
    simp only [Res.ok.injEq, Prod.mk.injEq] at e
    rw [← e.1]
    exact ⟨by decide, fun h => by cases h⟩
  · next hr =>
    split at e
    · simp only [Res.ok.injEq, Prod.mk.injEq] at e
      rw [← e.1]
      exact ⟨by decide, fun h => by cases h⟩
    · next hr2 =>
      rw [not_not] at hr2
      subst hr2
      simp only [Res.ok.injEq, Prod.mk.injEq] at e
      obtain ⟨rfl, rfl⟩ := e
      refine ⟨by decide, fun _ => ?_⟩
      obtain ⟨⟨R, Q, eR⟩, hF⟩ := computeProjectedCholesky_spec h.shape h.tq h.sym ⟨fun _ => hpl, hc.pivots⟩ (fun hg => by
        have := hHn (general_iff.1 hg)
        cases hH : s.H with
        | none => exact absurd hH this
        | some H => exact ⟨H, rfl⟩) e1
      subst eR
      exact ⟨⟨R, Q, rfl⟩, hF.congr rfl rfl rfl rfl rfl rfl rfl rfl rfl rfl id⟩

/-! ### `solveInitialQP` -/

/-- The state with which `solveInitialQP` sets up the working set -/
def coldStart (s : QPC K) (xOpt yOpt : Option (Nat → K)) : QPC K :=
  let s := { s with toQPB := (({ s.toQPB with status := QPS_NOTINITIALISED } : QPB K).determineHessianType).2 }
  let s := s.setupSubjectToType
  let s := { s with status := QPS_PREPARINGAUXILIARYQP, bounds := s.bounds.setupAllFree, cons := s.cons.setupAllFree }
  s.setupAuxiliaryQPsolution xOpt yOpt

/-- What a cold start needs. -/
structure ColdOK (s : QPC K) : Prop where
  freeB : s.bounds.free = []
  fixedB : s.bounds.fixed = []
  nB : s.bounds.n = s.nV
  freeC : s.cons.free = []
  fixedC : s.cons.fixed = []
  nC : s.cons.n = s.nC
  size : s.sizeT = min s.nV s.nC
  nV : s.nV ≠ 0
  params : s.Params
  relax : 0 ≤ s.options.boundRelaxation
  idle : (s.toQPB.determineHessianType).2.hessianType = HST_ZERO ∨ (s.toQPB.determineHessianType).2.hessianType = HST_SEMIDEF →
    (s.toQPB.determineHessianType).2.Idle
  box : ∀ i < s.nV, s.lb i ≤ s.ub i
  eq : s.options.enableEqualities = true → ∀ i < s.nV, s.lb i > s.ub i - s.options.boundTolerance → s.lb i = s.ub i
  boxA : ∀ i < s.nC, s.lbA i ≤ s.ubA i
  eqA : s.options.enableEqualities = true → ∀ i < s.nC, s.lbA i > s.ubA i - s.options.boundTolerance → s.lbA i = s.ubA i
  type : (s.toQPB.determineHessianType).2.hessianType = HST_ZERO → s.options.enableRegularisation = true
  sym : s.SymH

theorem _root_.QpOASES.QPB.determineHessianType_enabled {s : QPB K} (h : s.options.enableRegularisation = true) :
    (s.determineHessianType).2.options = s.options := by
  unfold QPB.determineHessianType QPB.ensureRegularisation
  dsimp only
  repeat' split
  all_goals first | rfl | simp_all

theorem determineHessianType_status (s : QPB K) : (({ s with status := QPS_NOTINITIALISED } : QPB K).determineHessianType) =
      ((s.determineHessianType).1, { (s.determineHessianType).2 with status := QPS_NOTINITIALISED }) := by
  unfold QPB.determineHessianType QPB.ensureRegularisation
  dsimp only
  repeat' split
  all_goals first | rfl | simp_all

/-- The state with which the working set is set up, in terms of the state before -/
theorem coldStart_eq {s : QPC K} (h : s.ColdOK) (xOpt yOpt : Option (Nat → K)) :
    ∃ t wB wC, (s.toQPB.determineHessianType).2 = { s.toQPB with hessianType := t } ∧ (t ≠ HST_ZERO → t ≠ HST_IDENTITY → s.H ≠ none) ∧
      s.coldStart xOpt yOpt = ({ s with hessianType := t, status := QPS_PREPARINGAUXILIARYQP, bounds := wB, cons := wC } : QPC K).setupAuxiliaryQPsolution xOpt yOpt ∧
      wB.OK ∧ wC.OK ∧ wB.n = s.nV ∧ wC.n = s.nC ∧ wC.fixed = [] ∧
      (∀ i < s.nV, wB.type i = s.toQPB.typeOf (some s.lb) (some s.ub) i) ∧ (∀ i < s.nC, wC.type i = s.typeOfC (some s.lbA) (some s.ubA) i) ∧
      (∀ i < s.nC, wC.status i = ST_INACTIVE) ∧
      wB.noLower = (s.setupSubjectToType).bounds.noLower ∧ wB.noUpper = (s.setupSubjectToType).bounds.noUpper ∧
      wC.noLower = (s.setupSubjectToType).cons.noLower ∧ wC.noUpper = (s.setupSubjectToType).cons.noUpper := by
  obtain ⟨t, o, e1, e2⟩ := QPB.determineHessianType_frame s.toQPB
  have eo : o = s.options := by
    by_cases ht : t = HST_ZERO
    · have := h.type (by rw [e1]; exact ht)
      have h2 := QPB.determineHessianType_enabled this
      rw [e1] at h2
      exact h2
    · exact (e2 ht).1
  subst eo
  refine ⟨t, (s.setupSubjectToType).bounds.setupAllFree, (s.setupSubjectToType).cons.setupAllFree, e1, fun ht => (e2 ht).2, ?_, WS.setupAllFree_ok h.freeB h.fixedB,
    WS.setupAllFree_ok h.freeC h.fixedC, h.nB, h.nC, h.fixedC, fun i hi => if_pos hi, fun i hi => if_pos hi, fun i _ => rfl, rfl, rfl, rfl, rfl⟩
  unfold coldStart
  dsimp only
  rw [determineHessianType_status, e1]
  rfl

/-- The state at the end of a cold start for the QP of `s0` -/
structure ForProblem (s s0 : QPC K) : Prop where
  nV : s.nV = s0.nV
  nC : s.nC = s0.nC
  A : s.A = s0.A
  H : s.H = s0.H
  hess : s.Heff = (s0.toQPB.determineHessianType).2.Heff
  options : s.options = s0.options
  chol : s.haveCholesky = true
  reg : s.regVal = s0.regVal
  ramps : s.ramp0 = s0.ramp0 ∧ s.ramp1 = s0.ramp1
  typeB : ∀ i < s0.nV, s.bounds.type i = s0.toQPB.typeOf (some s0.lb) (some s0.ub) i
  noLowerB : s.bounds.noLower = (s0.setupSubjectToType).bounds.noLower
  noUpperB : s.bounds.noUpper = (s0.setupSubjectToType).bounds.noUpper
  typeC : ∀ i < s0.nC, s.cons.type i = s0.typeOfC (some s0.lbA) (some s0.ubA) i ∨
    (s0.typeOfC (some s0.lbA) (some s0.ubA) i = ST_EQUALITY ∧ s.cons.type i = ST_BOUNDED)
  noLowerC : s.cons.noLower = (s0.setupSubjectToType).cons.noLower
  noUpperC : s.cons.noUpper = (s0.setupSubjectToType).cons.noUpper

/-- Setting the types of the bounds for the problem again changes nothing. -/
theorem ForProblem.retyped {s' s0 : QPC K} (h : ForProblem s' s0) (hopt : s'.Opt)
    (hc : s0.options.enableEqualities = true → ∀ i < s0.nV, s0.lb i > s0.ub i - s0.options.boundTolerance → s0.lb i = s0.ub i) :
    s'.retyped (some s0.lb) (some s0.ub) = s' := by
  have hn : s'.nV = s0.nV := h.nV
  have e : s'.toQPB.setupSubjectToType (some s0.lb) (some s0.ub) = s'.toQPB := by
    refine QPB.retype ?_ ?_ fun i hi => ?_
    · rw [h.noLowerB]
      show _ = (List.range s'.nV).all _
      rw [hn]; rfl
    · rw [h.noUpperB]
      show _ = (List.range s'.nV).all _
      rw [hn]; rfl
    · have hi : i < s'.nV := hi
      have hi0 : i < s0.nV := hn ▸ hi
      have heq := hopt.bounds.eq i hi
      rw [h.typeB i hi0] at heq ⊢
      unfold QPB.typeOf at heq ⊢
      dsimp only at heq ⊢
      rw [h.options]
      by_cases hinf : s0.lb i < -INFTY + s0.options.boundTolerance ∧ s0.ub i > INFTY - s0.options.boundTolerance ∧ s0.options.enableFarBounds = false
      · rw [if_pos hinf, if_pos hinf]
      · rw [if_neg hinf] at heq ⊢
        rw [if_neg hinf]
        by_cases hq : s0.options.enableEqualities = true ∧ s0.lb i > s0.ub i - s0.options.boundTolerance ∧
          s0.lb i > s0.ub i - s0.options.boundTolerance
        · rw [if_pos hq] at heq ⊢
          obtain ⟨_, hlu⟩ := heq rfl
          rw [if_pos]
          refine ⟨hq.1, ?_, hq.2.2⟩
          rw [hlu]
          have := hq.2.1
          rw [hc hq.1 i hi0 hq.2.1] at this
          linarith
        · rw [if_neg hq, if_neg fun hh => hq ⟨hh.1, hh.2.2, hh.2.2⟩]
  unfold QPC.retyped
  rw [e]

/-- Nothing in the run of a cold start falls strictly between zero and a tolerance, and the multipliers given agree with the working set. -/
structure ColdClean (sq : K → K) (s : QPC K) (xOpt yOpt : Option (Nat → K)) (gB gC : Option WS) (nWSR : Int) (cputime : Option K) : Prop where
  aux : AuxClean sq (coldStart { s with toQPB := (s.toQPB.startClock cputime).2 } xOpt yOpt) xOpt yOpt gB gC
  run : ∀ s', prepareInitialQP sq { s with toQPB := (s.toQPB.startClock cputime).2 } xOpt yOpt gB gC none nWSR cputime = .ok (.ok s') →
    let q := s'.toQPB.stopClock cputime (s.toQPB.startClock cputime).1
    let s1 : QPC K := { s' with toQPB := { q.2 with count := q.2.count + 1 } }
    FirstChol sq s1 ∧ ∀ s2, setupInitialCholesky sq s1 = .ok (SUCCESSFUL_RETURN, s2) →
      RunClean sq s2 s.g (some s.lb) (some s.ub) (some s.lbA) (some s.ubA) nWSR (cputime.map fun c => c - q.1.getD 0) 0

theorem Solved.frame {s : QPC K} {gNew : Nat → K} {lbNew ubNew lbANew ubANew : Option (Nat → K)} (h : Solved s gNew lbNew ubNew lbANew ubANew) (k : Nat) :
    Solved { s with now := k } gNew lbNew ubNew lbANew ubANew :=
  ⟨h.good.frame s.tau s.infeasible s.unbounded s.status s.count s.rampOffset k s.haveCholesky rfl, h.status, h.length, h.full⟩

theorem prodA_zero (s : QPC K) (i : Nat) : s.prodA (fun _ => 0) i = 0 := by
  unfold prodA
  rw [sumTo_eq]
  exact Finset.sum_eq_zero fun j _ => mul_zero _

theorem typeOfC_eq {s : QPC K} {l u : Nat → K} {i : Nat} (h : s.typeOfC (some l) (some u) i = ST_EQUALITY) :
    s.options.enableEqualities = true ∧ l i > u i - s.options.boundTolerance := by
  unfold typeOfC at h
  split at h
  · cases h
  · dsimp only at h
    split at h
    · cases h
    · split at h
      · rename_i hc; exact ⟨hc.1, hc.2.2⟩
      · cases h

theorem typeOf_eq' {s : QPB K} {l u : Nat → K} {i : Nat} (h : s.typeOf (some l) (some u) i = ST_EQUALITY) :
    s.options.enableEqualities = true ∧ l i > u i - s.options.boundTolerance := by
  unfold QPB.typeOf at h
  dsimp only at h
  split at h
  · cases h
  · split at h
    · rename_i hc; exact ⟨hc.1, hc.2.2⟩
    · cases h

/-- The auxiliary QP set up for the QP of `s0` -/
structure Prepared (s' s0 : QPC K) : Prop where
  base : s'.Base
  opt : s'.Opt
  ax : s'.AxOK
  noChol : s'.haveCholesky = false
  hasH : ¬ s'.scalarH → s'.H ≠ none
  types : s'.retyped (some s0.lb) (some s0.ub) = s'
  plain : s'.nFX + s'.nAC = 0 → ∀ j < s'.nFR, ∀ i ∈ s'.F, s'.Q i j = if i = s'.fr j then 1 else 0
  target : Target s' s0.lb s0.ub s0.lbA s0.ubA
  problem : ForProblem { s' with haveCholesky := true } s0
  status : s'.status = QPS_AUXILIARYQPSOLVED

theorem prepareInitialQP_spec {sq : K → K} {s : QPC K} (h : s.ColdOK) {xOpt yOpt : Option (Nat → K)} {gB gC : Option WS} {nWSR : Int}
    {cputime : Option K} (hc : AuxClean sq (s.coldStart xOpt yOpt) xOpt yOpt gB gC) {e : Except (OutC K) (QPC K)}
    (he : prepareInitialQP sq s xOpt yOpt gB gC none nWSR cputime = .ok e) :
    (∀ o, e = .error o → o.rv = RET_INIT_FAILED) ∧ ∀ s', e = .ok s' → Prepared s' s ∧ s'.x = xOpt.getD (fun _ => 0) ∧ (s.options.enableRamping = false → s'.y = yOpt.getD (fun _ => 0)) := by
  unfold prepareInitialQP at he
  dsimp only at he
  split at he
  · simp only [Res.ok.injEq] at he
    subst he
    exact ⟨fun o ho => (by cases ho; rfl), fun s' hs' => (by cases hs')⟩
  change prepareAuxiliary sq (s.coldStart xOpt yOpt) xOpt yOpt gB gC none nWSR cputime = _ at he
  obtain ⟨t, wB, wC, e1, hH, ec, hB, hC, hBn, hCn, hCx, hBt, hCt, hCs, hBl, hBu, hCl, hCu⟩ := coldStart_eq h xOpt yOpt
  rw [ec] at he hc
  have hprod : ∀ i, ((match xOpt with | some x => s.prodA x | none => fun _ => 0 : Nat → K)) i = s.prodA (xOpt.getD fun _ => 0) i := by
    intro i
    cases xOpt with
    | none => exact (prodA_zero s i).symm
    | some x => rfl
  have hidle : t = HST_ZERO ∨ t = HST_SEMIDEF →
      (({ s with hessianType := t, status := QPS_PREPARINGAUXILIARYQP, bounds := wB, cons := wC } : QPC K).setupAuxiliaryQPsolution xOpt yOpt).toQPB.Idle := by
    have := h.idle
    rw [e1] at this
    exact this
  obtain ⟨k1, k2⟩ := prepareAuxiliary_spec (s := ({ s with hessianType := t, status := QPS_PREPARINGAUXILIARYQP, bounds := wB, cons := wC } : QPC K).setupAuxiliaryQPsolution xOpt yOpt)
    ⟨hB, hC, hBn, hCn, h.size⟩ h.sym (by show wC.fixed.length = 0; rw [hCx]; rfl) hCs (fun hn => hH (fun e => hn (Or.inl e)) fun e => hn (Or.inr e)) hidle h.relax
    h.params.ramp (fun i _ => ⟨hprod i, hprod i, hprod i⟩) hc he
  refine ⟨k1, fun s' hs' => ?_⟩
  have hA := k2 s' hs'
  have hty : ∀ i < s.nC, s'.cons.type i = s.typeOfC (some s.lbA) (some s.ubA) i ∨
      (s.typeOfC (some s.lbA) (some s.ubA) i = ST_EQUALITY ∧ s'.cons.type i = ST_BOUNDED) := by
    intro i hi
    have := hA.typeC i
    rw [show (({ s with hessianType := t, status := QPS_PREPARINGAUXILIARYQP, bounds := wB, cons := wC } : QPC K).setupAuxiliaryQPsolution xOpt yOpt).cons.type i = _ from hCt i hi] at this
    exact this
  have hbt : ∀ i < s.nV, s'.bounds.type i = s.toQPB.typeOf (some s.lb) (some s.ub) i := fun i hi => (congrFun hA.typeB i).trans (hBt i hi)
  have hprob : ForProblem { s' with haveCholesky := true } s := by
    refine ⟨hA.nV, hA.nC, hA.A, hA.H, ?_, hA.options, rfl, hA.reg, hA.ramps, hbt,
      hA.noLowerB.trans hBl, hA.noUpperB.trans hBu, hty, hA.noLowerC.trans hCl, hA.noUpperC.trans hCu⟩
    rw [e1]
    show s'.toQPB.Heff = _
    have h1 : s'.hessianType = t := hA.htype
    have h2 : s'.H = s.H := hA.H
    have h3 : s'.regVal = s.regVal := hA.reg
    funext i j
    unfold QPB.Heff QPB.usingRegularisation
    rw [h1, h2, h3]
  have htypes : s'.retyped (some s.lb) (some s.ub) = s' :=
    congrArg (fun t : QPC K => { t with haveCholesky := s'.haveCholesky }) (hprob.retyped ⟨hA.opt.stat, hA.opt.bounds, hA.opt.cons⟩ h.eq)
  refine ⟨⟨hA.base, hA.opt, hA.ax, hA.noChol, ?_, htypes, hA.plain, ⟨?_, ?_, ?_, ?_⟩, hprob, hA.status⟩, hA.x, hA.y⟩
  · intro hn
    rw [hA.H]
    refine hH (fun e => hn (Or.inl ?_)) fun e => hn (Or.inr ?_)
    · rw [hA.htype]; exact e
    · rw [hA.htype]; exact e
  · intro i hi; exact h.box i (by rw [← show s'.nV = s.nV from hA.nV]; exact hi)
  · intro i hi hq
    have hi : i < s.nV := by rw [← show s'.nV = s.nV from hA.nV]; exact hi
    rw [hbt i hi] at hq
    exact h.eq (typeOf_eq' hq).1 i hi (typeOf_eq' hq).2
  · intro i hi; exact h.boxA i (by rw [← show s'.nC = s.nC from hA.nC]; exact hi)
  · intro i hi hq
    have hi : i < s.nC := by rw [← show s'.nC = s.nC from hA.nC]; exact hi
    rcases hty i hi with h1 | ⟨-, h2⟩
    · rw [h1] at hq
      exact h.eqA (typeOfC_eq hq).1 i hi (typeOfC_eq hq).2
    · rw [h2] at hq; cases hq

theorem ForProblem.same {s' s s0 : QPC K} (h : ForProblem s s0) (hs : Same s' s) : ForProblem s' s0 := by
  have hf := hs.frame
  simp only [Prod.mk.injEq] at hf
  exact ⟨hs.nV.trans h.nV, hs.nC.trans h.nC, hs.A.trans h.A, hs.H.trans h.H, hs.hess.trans h.hess, hs.options.trans h.options, hf.2.2.trans h.chol,
    hs.reg.trans h.reg, ⟨hf.1.trans h.ramps.1, hf.2.1.trans h.ramps.2⟩, fun i hi => (congrFun hs.typeB i).trans (h.typeB i hi), hs.noLowerB.trans h.noLowerB,
    hs.noUpperB.trans h.noUpperB, fun i hi => (by rw [hs.typeC]; exact h.typeC i hi), hs.noLowerC.trans h.noLowerC, hs.noUpperC.trans h.noUpperC⟩

theorem startClock_frame (s : QPB K) (c : Option K) : ∃ k, (s.startClock c).2 = { s with now := k } := by
  unfold QPB.startClock
  cases c with
  | none => exact ⟨s.now, rfl⟩
  | some c => exact ⟨s.now + 1, rfl⟩

/-- What `hotstart` does once the factorisation of the Hessian is set up. -/
def runOn (sq : K → K) (fuel : Nat) (s : QPC K) (gNew : Nat → K) (lbNew ubNew lbANew ubANew : Option (Nat → K)) (nWSR : Int)
    (cputime : Option K) (auxTime : K) : Res (OutC K) :=
  if s.options.enableFarBounds = false then solveRegularisedQP sq s gNew lbNew ubNew lbANew ubANew nWSR cputime 0
  else do
    let farbound := s.initialFar lbNew ubNew lbANew ubANew
    let f ← updateFarBounds s farbound lbNew ubNew lbANew ubANew ⟨fun _ => 0, fun _ => 0, fun _ => 0, fun _ => 0⟩
    let (o, needed) ← farLoop sq gNew lbNew ubNew lbANew ubANew nWSR cputime fuel s farbound f 0 0 INFTY
    .ok { o with cputime := cputime.map fun _ => needed + auxTime }

theorem hotstart_cold {sq : K → K} {fuel : Nat} {s : QPC K} {gNew : Nat → K} {lbNew ubNew lbANew ubANew : Option (Nat → K)} {nWSR : Int}
    {cputime : Option K} (hn : s.nV ≠ 0) (hb : s.areBoundsConsistent lbNew ubNew lbANew ubANew = true) (hch : s.haveCholesky = false) {o : OutC K}
    (e : hotstart sq fuel s gNew lbNew ubNew lbANew ubANew nWSR cputime .null .null = .ok o) :
    ∃ r s1, setupInitialCholesky sq { s with count := s.count + 1 } = .ok (r, s1) ∧
      (r ≠ SUCCESSFUL_RETURN → o.rv = r) ∧
      (r = SUCCESSFUL_RETURN → runOn sq fuel s1 gNew lbNew ubNew lbANew ubANew nWSR cputime 0 = .ok o) := by
  unfold hotstart at e
  rw [if_neg hn] at e
  dsimp only at e
  unfold hotstartMain at e
  rw [if_neg (by rw [hb]; decide)] at e
  dsimp only at e
  rw [if_pos hch, Res.bind_eq_ok] at e
  obtain ⟨⟨r, s1⟩, e1, e⟩ := e
  refine ⟨r, s1, e1, fun hr => ?_, fun hr => ?_⟩
  · dsimp only at e
    rw [if_pos hr] at e
    simp only [Res.ok.injEq] at e
    rw [← e]
  · dsimp only at e
    rw [if_neg (by rw [hr]; simp)] at e
    exact e

/-- The state in which a cold start begins to move: the factors belong to the working set, and the point is optimal for the auxiliary QP. -/
structure Launched (s2 s : QPC K) : Prop where
  good : s2.Good
  types : s2.retyped (some s.lb) (some s.ub) = s2
  target : Target s2 s.lb s.ub s.lbA s.ubA
  problem : ForProblem s2 s

/-- Where the auxiliary QP of a cold start and its factors come from -/
def StartsAt (sq : K → K) (s : QPC K) (xOpt yOpt : Option (Nat → K)) (gB gC : Option WS) (nWSR : Int) (cputime : Option K) (s2 : QPC K) (c : Option K) : Prop :=
  ∃ s', prepareInitialQP sq { s with toQPB := (s.toQPB.startClock cputime).2 } xOpt yOpt gB gC none nWSR cputime = .ok (.ok s') ∧
    let q := s'.toQPB.stopClock cputime (s.toQPB.startClock cputime).1
    setupInitialCholesky sq { s' with toQPB := { q.2 with count := q.2.count + 1 } } = .ok (SUCCESSFUL_RETURN, s2) ∧
    c = cputime.map fun c => c - q.1.getD 0

/-- Nothing in setting up the auxiliary QP of a cold start and its factors falls strictly between zero and a tolerance. -/
structure StartClean (sq : K → K) (s : QPC K) (xOpt yOpt : Option (Nat → K)) (gB gC : Option WS) (nWSR : Int) (cputime : Option K) : Prop where
  aux : AuxClean sq (coldStart { s with toQPB := (s.toQPB.startClock cputime).2 } xOpt yOpt) xOpt yOpt gB gC
  chol : ∀ s', prepareInitialQP sq { s with toQPB := (s.toQPB.startClock cputime).2 } xOpt yOpt gB gC none nWSR cputime = .ok (.ok s') →
    let q := s'.toQPB.stopClock cputime (s.toQPB.startClock cputime).1
    FirstChol sq { s' with toQPB := { q.2 with count := q.2.count + 1 } }

theorem ColdClean.start {sq : K → K} {s : QPC K} {xOpt yOpt : Option (Nat → K)} {gB gC : Option WS} {nWSR : Int} {cputime : Option K}
    (h : ColdClean sq s xOpt yOpt gB gC nWSR cputime) : StartClean sq s xOpt yOpt gB gC nWSR cputime :=
  ⟨h.aux, fun s' e => (h.run s' e).1⟩

theorem solveInitialQP_cases {sq : K → K} (fuel : Nat) {s : QPC K} (h : s.ColdOK) {xOpt yOpt : Option (Nat → K)} {gB gC : Option WS} {nWSR : Int}
    {cputime : Option K} (hc : StartClean sq s xOpt yOpt gB gC nWSR cputime) {o : OutC K}
    (e : solveInitialQP sq fuel s xOpt yOpt gB gC none nWSR cputime = .ok o) (hrv : o.rv = SUCCESSFUL_RETURN ∨ o.rv = RET_MAX_NWSR_REACHED) :
    ∃ s2 c o1 k, StartsAt sq s xOpt yOpt gB gC nWSR cputime s2 c ∧ Launched s2 s ∧
      runOn sq fuel s2 s.g (some s.lb) (some s.ub) (some s.lbA) (some s.ubA) nWSR c 0 = .ok o1 ∧ o.rv = o1.rv ∧ o.s = { o1.s with now := k } := by
  obtain ⟨k, ek⟩ := startClock_frame s.toQPB cputime
  have hdh : ({ s.toQPB with now := k } : QPB K).determineHessianType = ((s.toQPB.determineHessianType).1, { (s.toQPB.determineHessianType).2 with now := k }) := by
    unfold QPB.determineHessianType QPB.ensureRegularisation
    dsimp only
    repeat' split
    all_goals rfl
  have hcold : ColdOK ({ s with now := k } : QPC K) :=
    ⟨h.freeB, h.fixedB, h.nB, h.freeC, h.fixedC, h.nC, h.size, h.nV, ⟨h.params.options, h.params.ramp⟩, h.relax,
      (by rw [show ({ s with now := k } : QPC K).toQPB = { s.toQPB with now := k } from rfl, hdh]; exact h.idle), h.box, h.eq, h.boxA, h.eqA,
      (by rw [show ({ s with now := k } : QPC K).toQPB = { s.toQPB with now := k } from rfl, hdh]; exact h.type), h.sym⟩
  obtain ⟨hca, hcr⟩ := hc
  unfold solveInitialQP at e
  dsimp only at e
  rw [Res.bind_eq_ok] at e
  obtain ⟨p, e1, e⟩ := e
  have e0 := e1
  unfold StartsAt
  generalize hst : (s.toQPB.startClock cputime).1 = st at *
  rw [ek] at hca hcr e1
  obtain ⟨k1, k2⟩ := prepareInitialQP_spec hcold hca e1
  cases p with
  | error o' =>
    simp only [Res.ok.injEq] at e
    subst e
    have := k1 o' rfl
    rw [this] at hrv
    rcases hrv with h | h <;> cases h
  | ok s' =>
    dsimp only at e
    have hA := (k2 s' rfl).1
    have hcf := hcr s' e1
    dsimp only at hcf
    rw [Res.bind_eq_ok] at e
    obtain ⟨o1, eo, e⟩ := e
    have hrv1 : o1.rv = SUCCESSFUL_RETURN ∨ o1.rv = RET_MAX_NWSR_REACHED := by
      split at e
      · simp only [Res.ok.injEq] at e
        subst e
        simp at hrv
      split at e
      · simp only [Res.ok.injEq] at e
        subst e
        simp at hrv
      split at e
      · simp only [Res.ok.injEq] at e
        subst e
        simp at hrv
      simp only [Res.ok.injEq] at e
      rw [← e, finish_rv] at hrv
      exact hrv
    have hfin : ∃ k4, o.rv = o1.rv ∧ o.s = { o1.s with now := k4 } := by
      split at e
      · simp only [Res.ok.injEq] at e
        subst e
        simp at hrv
      split at e
      · simp only [Res.ok.injEq] at e
        subst e
        simp at hrv
      split at e
      · simp only [Res.ok.injEq] at e
        subst e
        simp at hrv
      simp only [Res.ok.injEq] at e
      obtain ⟨k4, ek4⟩ := finish_frame o1.s o1.rv o1.nWSR o1.cputime st
      rw [← e, finish_rv, ek4]
      exact ⟨k4, rfl, rfl⟩
    obtain ⟨k4, hrv', hs4⟩ := hfin
    have hP := hA.problem
    have hnV : s'.nV = s.nV := hP.nV
    have hopt : s'.options = s.options := hP.options
    obtain ⟨k3, ek3⟩ := QPB.stopClock_frame s'.toQPB cputime st
    obtain ⟨r, s1, f1, f2, f3⟩ := hotstart_cold (s := { s' with toQPB := (s'.toQPB.stopClock cputime st).2 })
      (by rw [ek3, show ({ s' with now := k3 } : QPC K).nV = s.nV from hnV]; exact h.nV)
      (consistent_of_target (lbNew := some s.lb) (ubNew := some s.ub) (lbANew := some s.lbA) (ubANew := some s.ubA)
        (by rw [ek3]; exact hA.target.box) (by rw [ek3]; exact hA.target.boxA)) (by rw [ek3]; exact hA.noChol) eo
    have f1' := f1
    rw [ek3] at f1 hcf
    obtain ⟨g1, g2⟩ := setupInitialCholesky_spec (s := { s' with now := k3, count := s'.count + 1 }) ⟨⟨hA.base.shape.okB, hA.base.shape.okC, hA.base.shape.nB, hA.base.shape.nC, hA.base.shape.size⟩, ⟨hA.base.tq.le, hA.base.tq.tq⟩, hA.base.sym⟩ hA.plain hcf hA.hasH f1
    by_cases hr : r = SUCCESSFUL_RETURN
    · subst hr
      obtain ⟨⟨R, Q, eR⟩, hF⟩ := g2 rfl
      have hgo := f3 rfl
      refine ⟨s1, _, o1, k4, ⟨s', e0, f1', rfl⟩, ?_, hgo, hrv', hs4⟩
      subst eR
      have hty : ({ s' with now := k3, count := s'.count + 1, R := R, Q := Q, haveCholesky := true } : QPC K).retyped (some s.lb) (some s.ub) =
          { s' with now := k3, count := s'.count + 1, R := R, Q := Q, haveCholesky := true } := by
        have h0 : ({ s' with now := k3, count := s'.count + 1, R := R, Q := Q, haveCholesky := true } : QPC K).retyped (some s.lb) (some s.ub) =
          { s'.retyped (some s.lb) (some s.ub) with now := k3, count := s'.count + 1, R := R, Q := Q, haveCholesky := true } := rfl
        rw [h0, show s'.retyped (some s.lb) (some s.ub) = s' from hA.types]
      refine ⟨⟨hF, ⟨hA.opt.stat, hA.opt.bounds, hA.opt.cons⟩, hA.ax⟩, hty, ⟨hA.target.box, hA.target.eq, hA.target.boxA, hA.target.eqA⟩, ?_⟩
      refine ⟨hP.nV, hP.nC, hP.A, hP.H, hP.hess.trans ?_, hP.options, rfl, hP.reg, hP.ramps, hP.typeB, hP.noLowerB, hP.noUpperB, hP.typeC, hP.noLowerC, hP.noUpperC⟩
      rw [show ({ s with now := k } : QPC K).toQPB = { s.toQPB with now := k } from rfl, hdh]
      rfl
    · have := f2 hr
      rw [this] at hrv1
      exact absurd hrv1 (by simp [hr, g1])

theorem solveInitialQP_spec {sq : K → K} (fuel : Nat) {s : QPC K} (h : s.ColdOK) (hreg : s.usingRegularisation = false)
    (hfar : s.options.enableFarBounds = false)
    {xOpt yOpt : Option (Nat → K)} {gB gC : Option WS} {nWSR : Int}
    {cputime : Option K} (hc : ColdClean sq s xOpt yOpt gB gC nWSR cputime) {o : OutC K}
    (e : solveInitialQP sq fuel s xOpt yOpt gB gC none nWSR cputime = .ok o) :
    (o.rv = SUCCESSFUL_RETURN → Solved o.s s.g (some s.lb) (some s.ub) (some s.lbA) (some s.ubA) ∧ ForProblem o.s s) ∧
    (o.rv = RET_MAX_NWSR_REACHED → o.s.Good ∧ ForProblem o.s s) := by
  have key : o.rv = SUCCESSFUL_RETURN ∨ o.rv = RET_MAX_NWSR_REACHED → 
    (o.rv = SUCCESSFUL_RETURN → Solved o.s s.g (some s.lb) (some s.ub) (some s.lbA) (some s.ubA) ∧ ForProblem o.s s) ∧
    (o.rv = RET_MAX_NWSR_REACHED → o.s.Good ∧ ForProblem o.s s) := by
    intro hrv
    obtain ⟨s2, c, o1, k4, ⟨s', e1, e2, rfl⟩, hR, hrun, er, es⟩ := solveInitialQP_cases fuel h hc.start e hrv
    have hP := hR.problem
    have hopt : s2.options = s.options := hP.options
    have hcr := (hc.run s' e1).2 s2 e2
    unfold runOn at hrun
    rw [if_pos (by rw [hopt]; exact hfar)] at hrun
    unfold solveRegularisedQP at hrun
    rw [if_pos (show s2.toQPB.usingRegularisation = false by unfold QPB.usingRegularisation; rw [hP.reg]; exact hreg)] at hrun
    obtain ⟨j1, j2⟩ := solveQP_spec (by rw [hR.types]; exact hR.good)
      ⟨by rw [hopt]; exact h.params.options, fun hh => (by rw [hopt] at hh; rw [hP.ramps.1, hP.ramps.2]; exact h.params.ramp hh)⟩
      (by rw [hopt]; exact h.relax) (by rw [hR.types]; exact hR.target) hcr hrun
    rw [hR.types] at j1 j2
    rw [er, es]
    exact ⟨fun hr => ⟨(j1 hr).1.frame k4, (hP.same (j1 hr).2).same ⟨rfl, rfl, rfl, rfl, rfl, rfl, rfl, rfl, rfl, rfl, rfl, rfl, rfl, rfl, rfl⟩⟩,
      fun hr => ⟨(j2 hr).1.frame o1.s.tau o1.s.infeasible o1.s.unbounded o1.s.status o1.s.count o1.s.rampOffset k4 o1.s.haveCholesky rfl,
        (hP.same (j2 hr).2).same ⟨rfl, rfl, rfl, rfl, rfl, rfl, rfl, rfl, rfl, rfl, rfl, rfl, rfl, rfl, rfl⟩⟩⟩
  exact ⟨fun hr => (key (Or.inl hr)).1 hr, fun hr => (key (Or.inr hr)).2 hr⟩

end QPC
end QpOASES
