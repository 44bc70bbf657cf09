import Verif.Proofs.QPBStart

/-!
Complete calls of the bound-constrained solver: `solveQP`, `hotstart` and `init` without far bounds and regularisation.
-/
namespace QpOASES
open Finset Props SubjectToStatus SubjectToType ReturnValue HessianType QProblemStatus

variable {K : Type} [Field K] [LinearOrder K] [IsStrictOrderedRing K]

namespace QPB

/-- State and starting time with which the main loop begins. -/
def loopStart (s : QPB K) (lbNew ubNew : Option (Nat → K)) (cputime : Option K) : K × QPB K :=
  let p := s.startClock cputime
  (p.1, { p.2.setupSubjectToType lbNew ubNew with infeasible := false, unbounded := false })

/-- No number in the run falls strictly between zero and a tolerance. -/
def RunClean (sq : K → K) (s : QPB K) (gNew : Nat → K) (lbNew ubNew : Option (Nat → K)) (nWSR : Int) (cputime : Option K)
    (performed : Int) : Prop :=
  LoopClean sq gNew lbNew ubNew nWSR performed cputime (s.loopStart lbNew ubNew cputime).1 (nWSR - performed).toNat performed
    (s.loopStart lbNew ubNew cputime).2

theorem loopStart_frame (s : QPB K) (lbNew ubNew : Option (Nat → K)) (cputime : Option K) :
    ∃ k, (s.loopStart lbNew ubNew cputime).2 = { s.setupSubjectToType lbNew ubNew with infeasible := false, unbounded := false, now := k } := by
  unfold loopStart
  cases cputime with
  | none => exact ⟨s.now, rfl⟩
  | some c => exact ⟨s.now + 1, rfl⟩

theorem solveQP_spec {sq : K → K} {s : QPB K} (hsq : s.SqrtFor sq) {gNew : Nat → K} {lbNew ubNew : Option (Nat → K)} (nWSR : Int)
    (cputime : Option K) (performed : Int)
    (hst : s.status = QPS_AUXILIARYQPSOLVED ∨ s.status = QPS_HOMOTOPYQPSOLVED ∨ s.status = QPS_SOLVED)
    (hI : (s.setupSubjectToType lbNew ubNew).Inv) (hT : Target (s.setupSubjectToType lbNew ubNew) (lowerOf lbNew) (upperOf ubNew))
    (hc : RunClean sq s gNew lbNew ubNew nWSR cputime performed) :
    ∃ o, solveQP sq s gNew lbNew ubNew nWSR cputime performed = .ok o ∧
      (o.rv = SUCCESSFUL_RETURN → Solved o.s gNew lbNew ubNew ∧ SameProblem o.s (s.setupSubjectToType lbNew ubNew)) ∧
      (o.rv = RET_MAX_NWSR_REACHED → o.s.Inv ∧ SameProblem o.s (s.setupSubjectToType lbNew ubNew) ∧
        (o.s.status = s.status ∨ o.s.status = QPS_HOMOTOPYQPSOLVED)) := by
  have hns : ¬ (s.status = QPS_NOTINITIALISED ∨ s.status = QPS_PREPARINGAUXILIARYQP ∨ s.status = QPS_PERFORMINGHOMOTOPY) := by
    rcases hst with h | h | h <;> rw [h] <;> decide
  have e : solveQP sq s gNew lbNew ubNew nWSR cputime performed =
      solveLoop sq gNew lbNew ubNew nWSR performed cputime (s.loopStart lbNew ubNew cputime).1 (nWSR - performed).toNat performed
        (s.loopStart lbNew ubNew cputime).2 := by
    unfold solveQP loopStart
    rw [if_neg hns]
  rw [e]
  unfold RunClean at hc
  obtain ⟨k, ek⟩ := loopStart_frame s lbNew ubNew cputime
  rw [ek] at hc ⊢
  have hI' : ({ s.setupSubjectToType lbNew ubNew with infeasible := false, unbounded := false, now := k } : QPB K).Inv :=
    hI.frame _ _ _ _ _ _ _ _
  have hT' : Target ({ s.setupSubjectToType lbNew ubNew with infeasible := false, unbounded := false, now := k } : QPB K)
    (lowerOf lbNew) (upperOf ubNew) := ⟨hT.box, hT.eq⟩
  have hsq' : ({ s.setupSubjectToType lbNew ubNew with infeasible := false, unbounded := false, now := k } : QPB K).SqrtFor sq := hsq
  obtain ⟨o, e1, e2, e3⟩ := solveLoop_spec nWSR performed cputime (s.loopStart lbNew ubNew cputime).1 (nWSR - performed).toNat
    performed _ hsq' hI' hT' hc
  refine ⟨o, e1, fun h => ?_, fun h => ?_⟩
  · obtain ⟨h1, h2⟩ := e2 h
    exact ⟨h1, ⟨h2.nV, h2.hess, h2.type, h2.options, h2.chol, h2.reg, h2.noLower, h2.noUpper, h2.ident⟩⟩
  · obtain ⟨h1, h2, h3⟩ := e3 h
    exact ⟨h1, ⟨h2.nV, h2.hess, h2.type, h2.options, h2.chol, h2.reg, h2.noLower, h2.noUpper, h2.ident⟩, h3⟩

/-! ### `hotstart` -/

theorem hotstart_plain {sq : K → K} {fuel : Nat} {s : QPB K} {gNew : Nat → K} {lbNew ubNew : Option (Nat → K)} {nWSR : Int}
    {cputime : Option K} (hn : s.nV ≠ 0) (hb : s.areBoundsConsistent lbNew ubNew = true) (hch : s.haveCholesky = true)
    (hf : s.options.enableFarBounds = false) (hr : s.usingRegularisation = false) :
    hotstart sq fuel s gNew lbNew ubNew nWSR cputime .null =
      solveQP sq { s with count := s.count + 1 } gNew lbNew ubNew nWSR cputime 0 := by
  unfold hotstart
  rw [if_neg hn]
  dsimp only
  unfold hotstartMain
  rw [if_neg (by rw [hb]; decide)]
  dsimp only
  rw [if_neg (by rw [hch]; decide), Res.bind_ok]
  dsimp only
  rw [if_neg (by simp), if_pos hf]
  unfold solveRegularisedQP
  rw [if_pos]
  exact hr

theorem consistent_of_target {s : QPB K} {lbNew ubNew : Option (Nat → K)} (h : ∀ i < s.nV, lowerOf lbNew i ≤ upperOf ubNew i) :
    s.areBoundsConsistent lbNew ubNew = true := by
  unfold areBoundsConsistent
  split
  · rename_i l u
    rw [List.all_eq_true]
    intro i hi
    have := h i (List.mem_range.1 hi)
    have h' : l i ≤ u i := this
    have : (0:K) < EPS := EPS_pos'
    rw [Bool.not_eq_true', decide_eq_false_iff_not, not_lt]
    linarith
  · rfl

theorem setupSubjectToType_count (s : QPB K) (lbNew ubNew : Option (Nat → K)) (c : Nat) :
    ({ s with count := c } : QPB K).setupSubjectToType lbNew ubNew = { s.setupSubjectToType lbNew ubNew with count := c } := rfl

theorem hotstart_spec {sq : K → K} (fuel : Nat) {s : QPB K} (hsq : s.SqrtFor sq) {gNew : Nat → K} {lbNew ubNew : Option (Nat → K)} (nWSR : Int)
    (cputime : Option K)
    (hst : s.status = QPS_AUXILIARYQPSOLVED ∨ s.status = QPS_HOMOTOPYQPSOLVED ∨ s.status = QPS_SOLVED)
    (hn : s.nV ≠ 0) (hch : s.haveCholesky = true) (hf : s.options.enableFarBounds = false) (hr : s.usingRegularisation = false)
    (hI : (s.setupSubjectToType lbNew ubNew).Inv) (hT : Target (s.setupSubjectToType lbNew ubNew) (lowerOf lbNew) (upperOf ubNew))
    (hc : RunClean sq { s with count := s.count + 1 } gNew lbNew ubNew nWSR cputime 0) :
    ∃ o, hotstart sq fuel s gNew lbNew ubNew nWSR cputime .null = .ok o ∧
      (o.rv = SUCCESSFUL_RETURN → Solved o.s gNew lbNew ubNew ∧ SameProblem o.s (s.setupSubjectToType lbNew ubNew)) ∧
      (o.rv = RET_MAX_NWSR_REACHED → o.s.Inv ∧ SameProblem o.s (s.setupSubjectToType lbNew ubNew) ∧
        (o.s.status = s.status ∨ o.s.status = QPS_HOMOTOPYQPSOLVED)) := by
  rw [hotstart_plain hn (consistent_of_target hT.box) hch hf hr]
  obtain ⟨o, e1, e2, e3⟩ := solveQP_spec hsq (s := { s with count := s.count + 1 }) nWSR cputime 0 hst
    (by rw [setupSubjectToType_count]; exact hI.frame _ _ _ _ _ _ _ _)
    (by rw [setupSubjectToType_count]; exact ⟨hT.box, hT.eq⟩) hc
  rw [setupSubjectToType_count] at e2 e3
  refine ⟨o, e1, fun h => ?_, fun h => ?_⟩
  · obtain ⟨h1, h2⟩ := e2 h
    exact ⟨h1, ⟨h2.nV, h2.hess, h2.type, h2.options, h2.chol, h2.reg, h2.noLower, h2.noUpper, h2.ident⟩⟩
  · obtain ⟨h1, h2, h3⟩ := e3 h
    exact ⟨h1, ⟨h2.nV, h2.hess, h2.type, h2.options, h2.chol, h2.reg, h2.noLower, h2.noUpper, h2.ident⟩, h3⟩

/-! ### `setupInitialCholesky` without regularisation -/

theorem computeCholesky_again {sq : K → K} {s s' : QPB K} (h : computeCholesky sq s = .ok (RET_HESSIAN_NOT_SPD, s')) :
    ∃ s'', computeCholesky sq s' = .ok (RET_HESSIAN_NOT_SPD, s'') := by
  unfold computeCholesky at h
  dsimp only at h
  split at h
  · split at h <;> cases h
  · cases h
  · split at h
    · rename_i hpos
      obtain ⟨H, hH, h2⟩ := Res.bind_eq_ok.1 h
      have hH : s.getH = .ok H := hH
      split at h2
      · rename_i hp
        have e1 : s'.hessianType = HST_SEMIDEF := by cases h2; split <;> rfl
        have e2 : s'.getH = .ok H := by
          rw [← hH]
          unfold getH
          have : s'.H = s.H := by cases h2; split <;> rfl
          rw [this]
        have e3 : s'.bounds = s.bounds := by cases h2; split <;> rfl
        have e4 : s'.nV = s.nV := by cases h2; split <;> rfl
        clear h2 h
        unfold computeCholesky
        dsimp only
        have e5 : ∀ q : QPB K, q.H = s'.H → q.getH = .ok H := fun q hq => by rw [← e2]; unfold getH; rw [hq]
        rw [e1]
        dsimp only
        rw [e3, if_pos hpos, e5, Res.bind_ok, e4, if_pos hp]
        · exact ⟨_, rfl⟩
        · rfl
      · cases h2
    · cases h

theorem regulariseHessian_off {sq : K → K} {s : QPB K} (h : s.options.enableRegularisation = false) :
    regulariseHessian sq s = .ok (SUCCESSFUL_RETURN, s) := by
  unfold regulariseHessian
  rw [if_pos h]

theorem computeCholesky_options {sq : K → K} {s s' : QPB K} {r : ReturnValue} (h : computeCholesky sq s = .ok (r, s')) :
    s'.options.enableRegularisation = s.options.enableRegularisation := by
  unfold computeCholesky at h
  dsimp only at h
  split at h
  · split at h <;> cases h <;> rfl
  · cases h; rfl
  · split at h
    · obtain ⟨p, -, h2⟩ := Res.bind_eq_ok.1 h
      split at h2
      · cases h2; split <;> rfl
      · cases h2; rfl
    · cases h; rfl

theorem setupInitialCholesky_spec {sq : K → K} {s : QPB K} (hsq : s.SqrtFor sq) (hw : s.bounds.OK) (hn : s.bounds.n = s.nV)
    (hH : ¬ s.scalarH → s.H ≠ none) (hreg : s.options.enableRegularisation = false) :
    ∃ r s', setupInitialCholesky sq s = .ok (r, s') ∧ (r = SUCCESSFUL_RETURN →
      (∃ R, s' = { s with R := R, haveCholesky := true }) ∧ (s.scalarH ∨ DiagOK s'.bounds.nFR s'.R → s'.Factor)) ∧
      r ≠ RET_MAX_NWSR_REACHED := by
  unfold setupInitialCholesky
  rw [if_neg (by rw [hreg]; simp), Res.bind_ok]
  dsimp only
  rw [if_neg (by simp)]
  obtain ⟨r, s1, e, hb, h1, h2⟩ := computeCholesky_spec hsq hw hn hH
  rw [e, Res.bind_ok]
  dsimp only
  by_cases hr : r = RET_HESSIAN_NOT_SPD
  · subst hr
    rw [if_pos rfl, regulariseHessian_off ((computeCholesky_options e).trans hreg), Res.bind_ok]
    dsimp only
    rw [if_neg (by simp)]
    obtain ⟨s2, e2⟩ := computeCholesky_again e
    rw [e2, Res.bind_ok]
    dsimp only
    rw [if_pos (by decide)]
    exact ⟨_, _, rfl, fun h => (by cases h), by decide⟩
  · rw [if_neg hr]
    by_cases hr2 : r = SUCCESSFUL_RETURN
    · subst hr2
      rw [if_neg (by simp)]
      refine ⟨_, _, rfl, fun _ => ?_, by decide⟩
      obtain ⟨⟨R, eR⟩, _, _, hF⟩ := h1 rfl
      subst eR
      refine ⟨⟨R, rfl⟩, fun h => ?_⟩
      have := hF h
      exact ⟨this.scalar, this.stored⟩
    · rw [if_pos hr2]
      exact ⟨_, _, rfl, fun h => (by cases h), by decide⟩

/-! ### cold start -/

theorem determineHessianType_frame (s : QPB K) : ∃ t o, (s.determineHessianType).2 = { s with hessianType := t, options := o } ∧
    (t ≠ HST_ZERO → o = s.options ∧ (t ≠ HST_IDENTITY → s.H ≠ none)) := by
  have hens : ∀ s : QPB K, ∃ o, s.ensureRegularisation = { s with options := o } := by
    intro s
    unfold ensureRegularisation
    split
    · exact ⟨s.options, rfl⟩
    · exact ⟨_, rfl⟩
  unfold determineHessianType
  split
  · rename_i h
    obtain ⟨o, e⟩ := hens s
    exact ⟨HST_ZERO, o, by dsimp only; rw [e, ← h], fun h => absurd rfl h⟩
  · rename_i h
    exact ⟨HST_IDENTITY, s.options, by dsimp only; rw [← h], fun _ => ⟨rfl, fun h => absurd rfl h⟩⟩
  · rename_i H hH hH'
    have hne : s.H ≠ none := by rw [hH']; simp
    dsimp only
    split
    · split
      · split
        · exact ⟨HST_INDEF, s.options, rfl, fun _ => ⟨rfl, fun _ => hne⟩⟩
        · exact ⟨HST_INDEF, s.options, rfl, fun _ => ⟨rfl, fun _ => hne⟩⟩
      · exact ⟨HST_POSDEF, s.options, rfl, fun _ => ⟨rfl, fun _ => hne⟩⟩
      · rename_i isId isZ _
        cases isZ with
        | true =>
          rw [if_pos rfl]
          split
          · obtain ⟨o, e⟩ := hens ({ s with hessianType := HST_ZERO } : QPB K)
            exact ⟨HST_ZERO, o, by dsimp only; rw [e], fun h => absurd rfl h⟩
          · obtain ⟨o, e⟩ := hens ({ s with hessianType := HST_ZERO } : QPB K)
            exact ⟨HST_ZERO, o, by dsimp only; rw [e], fun h => absurd rfl h⟩
        | false =>
          rw [if_neg (by simp)]
          split
          · exact ⟨HST_IDENTITY, s.options, rfl, fun _ => ⟨rfl, fun _ => hne⟩⟩
          · exact ⟨HST_POSDEF, s.options, rfl, fun _ => ⟨rfl, fun _ => hne⟩⟩
    · exact ⟨HST_POSDEF, s.options, rfl, fun _ => ⟨rfl, fun _ => hne⟩⟩
  · rename_i hH' _ _ _
    exact ⟨s.hessianType, s.options, rfl, fun _ => ⟨rfl, fun _ => by rw [hH']; simp⟩⟩
  · obtain ⟨o, e⟩ := hens ({ s with hessianType := HST_ZERO } : QPB K)
    exact ⟨HST_ZERO, o, by dsimp only; rw [e], fun h => absurd rfl h⟩

/-- Guesses whose multipliers agree in sign with the initial working set. -/
def SignOK (s : QPB K) (xOpt yOpt : Option (Nat → K)) (guess : Option WS) : Prop :=
  ∀ i < s.nV,
    let y := yOpt.getD (fun _ => 0) i
    match auxStatus (s.setupSubjectToType (some s.lb) (some s.ub)) xOpt yOpt guess i with
    | ST_LOWER => s.typeOf (some s.lb) (some s.ub) i ≠ ST_EQUALITY → 0 ≤ y
    | ST_UPPER => s.typeOf (some s.lb) (some s.ub) i ≠ ST_EQUALITY → y ≤ 0
    | _ => y = 0

theorem auxStatus_eq {s : QPB K} (xOpt yOpt : Option (Nat → K)) (guess : Option WS) {i : Nat} (h : s.bounds.type i = ST_EQUALITY) :
    s.auxStatus xOpt yOpt guess i = ST_LOWER ∨ s.auxStatus xOpt yOpt guess i = ST_UPPER := by
  unfold auxStatus
  split
  · rw [if_pos h]; exact Or.inl rfl
  · split
    · split
      · exact Or.inl rfl
      · split
        · exact Or.inr rfl
        · exact Or.inl rfl
    · split
      · exact Or.inl rfl
      · split
        · exact Or.inr rfl
        · exact Or.inl rfl
    · rw [h]; exact Or.inl rfl

/-- What a cold start needs. -/
structure ColdOK (s : QPB K) : Prop where
  free : s.bounds.free = []
  fixed : s.bounds.fixed = []
  n : s.bounds.n = s.nV
  nV : s.nV ≠ 0
  options : OptionsOK s.options
  ramp : s.options.enableRamping = true → 2 ≤ s.nV ∧ 0 ≤ s.ramp0 ∧ 0 ≤ s.ramp1
  relax : 0 ≤ s.options.boundRelaxation
  noReg : s.options.enableRegularisation = false
  regVal : s.usingRegularisation = false
  box : ∀ i < s.nV, s.lb i ≤ s.ub i
  eq : s.options.enableEqualities = true → ∀ i < s.nV, s.lb i > s.ub i - s.options.boundTolerance → s.lb i = s.ub i
  type : (s.determineHessianType).2.hessianType ≠ HST_ZERO
  sym : Spec.QP.Symmetric s.nV (s.determineHessianType).2.Heff

/-- The auxiliary QP set up by a cold start is solved, and has the types of the original QP. -/
structure AuxOK (s s0 : QPB K) : Prop where
  ws : s.bounds.OK
  n : s.bounds.n = s.nV
  nV : s.nV = s0.nV
  opt : s.Opt
  hasH : ¬ s.scalarH → s.H ≠ none
  hess : s.Heff = (s0.determineHessianType).2.Heff
  types : s.setupSubjectToType (some s0.lb) (some s0.ub) = s
  typeEq : ∀ i < s.nV, s.bounds.type i = s0.typeOf (some s0.lb) (some s0.ub) i
  options : s.options = s0.options
  ramps : s.ramp0 = s0.ramp0 ∧ s.ramp1 = s0.ramp1
  status : s.status = QPS_AUXILIARYQPSOLVED
  noChol : s.haveCholesky = false
  regVal : s.regVal = s0.regVal
  htype : s.hessianType = (s0.determineHessianType).2.hessianType

theorem retype {s : QPB K} {l u : Nat → K} (h1 : s.bounds.noLower = (s.setupSubjectToType (some l) (some u)).bounds.noLower)
    (h2 : s.bounds.noUpper = (s.setupSubjectToType (some l) (some u)).bounds.noUpper)
    (h3 : ∀ i < s.nV, s.typeOf (some l) (some u) i = s.bounds.type i) : s.setupSubjectToType (some l) (some u) = s := by
  have e : (fun i => if i < s.nV then s.typeOf (some l) (some u) i else s.bounds.type i) = s.bounds.type := by
    funext i
    split
    · exact h3 i ‹_›
    · rfl
  have : s.setupSubjectToType (some l) (some u) = { s with bounds := { s.bounds with
      noLower := (s.setupSubjectToType (some l) (some u)).bounds.noLower
      noUpper := (s.setupSubjectToType (some l) (some u)).bounds.noUpper
      type := fun i => if i < s.nV then s.typeOf (some l) (some u) i else s.bounds.type i } } := rfl
  rw [this, e, ← h1, ← h2]

theorem prepareAuxiliary_spec (sq : K → K) {s2 : QPB K} (xOpt yOpt : Option (Nat → K)) (guess : Option WS) (nWSR : Int)
    (cputime : Option K) (hst : s2.status = QPS_PREPARINGAUXILIARYQP) (hw : s2.bounds.OK) (hn : s2.bounds.n = s2.nV)
    (hin : ∀ i < s2.nV, s2.bounds.status i = ST_INACTIVE) (hH : ¬ s2.scalarH → s2.H ≠ none)
    (hreg : s2.options.enableRegularisation = false) (hrel : 0 ≤ s2.options.boundRelaxation)
    (hs : ∀ i < s2.nV,
      match s2.auxStatus xOpt yOpt guess i with
      | ST_LOWER => s2.bounds.type i ≠ ST_EQUALITY → 0 ≤ s2.y i
      | ST_UPPER => s2.bounds.type i ≠ ST_EQUALITY → s2.y i ≤ 0
      | _ => s2.y i = 0) :
    ∃ e, prepareAuxiliary sq s2 xOpt yOpt guess none nWSR cputime = .ok e ∧
      (∀ o, e = .error o → o.rv = RET_INIT_FAILED) ∧
      (∀ s', e = .ok s' → ∃ w g l u, s' = { s2 with
          bounds := w
          haveCholesky := false
          g := g
          lb := l
          ub := u
          status := QPS_AUXILIARYQPSOLVED } ∧ w.OK ∧ w.n = s2.nV ∧ w.type = s2.bounds.type ∧ w.noLower = s2.bounds.noLower ∧
        w.noUpper = s2.bounds.noUpper ∧ s'.Opt ∧ (∀ i < s2.nV, w.status i = s2.auxStatus xOpt yOpt guess i) ∧
        (∀ i < s2.nV, s2.bounds.type i = ST_EQUALITY → l i = s2.x i ∧ u i = s2.x i)) := by
  unfold prepareAuxiliary
  have hob := obtainAux_spec (s2.auxStatus xOpt yOpt guess) s2.nV 0 (WS.init s2.nV) (Nat.le_of_eq (Nat.zero_add _))
  cases hob' : obtainAux (s2.auxStatus xOpt yOpt guess) s2.nV 0 (WS.init s2.nV) with
  | none => exact ⟨_, rfl, fun o ho => (by cases ho; rfl), fun s' hs' => (by cases hs')⟩
  | some aux =>
    dsimp only
    obtain ⟨hx1, hx2, _⟩ := hob.1 aux hob'
    have hx1 : aux.n = s2.nV := hx1
    have hget : ∀ j < s2.nV, Proper (s2.auxStatus xOpt yOpt guess j) ∧ aux.getStatus j = s2.auxStatus xOpt yOpt guess j := by
      intro j hj
      obtain ⟨h1, h2⟩ := hx2 j (Nat.zero_le _) (by omega)
      exact ⟨h1, by rw [WS.getStatus_of_lt (by omega), h2]⟩
    obtain ⟨w, f1, f2, f3, f4, f5, f6, f7⟩ := setupAuxiliaryWorkingSet_afresh sq hst hw hn (aux := aux)
      (fun j hj => ⟨by rw [(hget j hj).2]; exact (hget j hj).1, hin j hj⟩)
    rw [f1, Res.bind_ok]
    dsimp only
    rw [if_neg (by simp)]
    have hstat : ∀ i < s2.nV, w.status i = s2.auxStatus xOpt yOpt guess i := fun i hi => (f7 i hi).trans (hget i hi).2
    rw [regulariseHessian_off (s := { s2 with bounds := w }) hreg]
    simp only [Res.bind_ok, ite_self]
    rw [if_neg (by simp)]
    unfold takeFactor
    dsimp only
    obtain ⟨g, l, u, k1, k2, _, k3⟩ := aux_opt (s := { s2 with bounds := w, haveCholesky := false }) f2 f3 hH hrel
      (fun i hi hty => by
        have hty : w.type i = ST_EQUALITY := hty
        show w.status i ≠ _
        have hi : i < s2.nV := hi
        rw [hstat i hi]
        rw [f4] at hty
        rcases auxStatus_eq xOpt yOpt guess hty with h | h <;> rw [h] <;> decide)
      (fun i hi hst hty => by
        have hi : i < s2.nV := hi
        have hst : w.status i = _ := hst
        have hty : w.type i ≠ _ := hty
        have := hs i hi
        rw [← hstat i hi, hst] at this
        rw [f4] at hty
        exact this hty)
      (fun i hi hst hty => by
        have hi : i < s2.nV := hi
        have hst : w.status i = _ := hst
        have hty : w.type i ≠ _ := hty
        have := hs i hi
        rw [← hstat i hi, hst] at this
        rw [f4] at hty
        exact this hty)
      (fun i hi hst => by
        have hi : i < s2.nV := hi
        have hst : w.status i = _ := hst
        have := hs i hi
        rw [← hstat i hi, hst] at this
        exact this)
    rw [k1, Res.bind_ok]
    dsimp only
    rw [if_neg (by simp)]
    refine ⟨_, rfl, fun o ho => (by cases ho), fun s' hs' => ?_⟩
    cases hs'
    exact ⟨w, g, l, u, rfl, f2, f3, f4, f5, f6, ⟨k2.stat, k2.lower, k2.upper, k2.inactive, k2.box, k2.eq⟩, hstat,
      fun i hi hty => k3 i hi (by show w.type i = _; rw [f4]; exact hty)⟩

theorem prepareInitialQP_spec (sq : K → K) {s : QPB K} (h : ColdOK s) (xOpt yOpt : Option (Nat → K)) (guess : Option WS) (nWSR : Int)
    (cputime : Option K) (hs : SignOK s xOpt yOpt guess) :
    ∃ e, prepareInitialQP sq s xOpt yOpt guess none nWSR cputime = .ok e ∧
      (∀ o, e = .error o → o.rv = RET_INIT_FAILED) ∧ (∀ s', e = .ok s' → AuxOK s' s ∧
        s'.x = xOpt.getD (fun _ => 0) ∧ s'.y = yOpt.getD (fun _ => 0) ∧
        (∀ i < s.nV, s'.bounds.status i = (s.setupSubjectToType (some s.lb) (some s.ub)).auxStatus xOpt yOpt guess i)) := by
  have e0 : (({ s with status := QPS_NOTINITIALISED } : QPB K).determineHessianType) =
      ((s.determineHessianType).1, { (s.determineHessianType).2 with status := QPS_NOTINITIALISED }) := by
    unfold determineHessianType ensureRegularisation
    dsimp only
    repeat' split
    all_goals first | rfl | simp_all
  obtain ⟨t, o, e1, e2⟩ := determineHessianType_frame s
  have htype := h.type
  have hsym := h.sym
  have hheff : (s.determineHessianType).2.Heff = ({ s with hessianType := t, options := o } : QPB K).Heff := by rw [e1]
  rw [e1] at htype hsym
  have htype : t ≠ HST_ZERO := htype
  obtain ⟨eo, hH⟩ := e2 htype
  subst eo
  unfold prepareInitialQP
  dsimp only
  rw [e0]
  dsimp only
  rw [e1]
  dsimp only
  by_cases hr : (s.determineHessianType).1 ≠ SUCCESSFUL_RETURN
  · rw [if_pos hr]
    exact ⟨_, rfl, fun o ho => by cases ho; rfl, fun s' hs' => by cases hs'⟩
  · rw [if_neg hr]
    have hok : (({ s with hessianType := t, status := QPS_PREPARINGAUXILIARYQP } : QPB K).setupSubjectToType (some s.lb)
        (some s.ub)).bounds.setupAllFree.OK := WS.setupAllFree_ok h.free h.fixed
    obtain ⟨e, k1, k2, k3⟩ := prepareAuxiliary_spec sq (s2 := { s with
      hessianType := t
      status := QPS_PREPARINGAUXILIARYQP
      bounds := (({ s with hessianType := t, status := QPS_PREPARINGAUXILIARYQP } : QPB K).setupSubjectToType (some s.lb)
        (some s.ub)).bounds.setupAllFree
      x := xOpt.getD fun _ => 0
      y := yOpt.getD fun _ => 0 }) xOpt yOpt guess nWSR cputime rfl hok h.n (fun i _ => rfl)
      (fun hn => hH fun e => hn (Or.inr e)) h.noReg h.relax (fun i hi => by
        have := hs i hi
        have hi : i < s.nV := hi
        have hty : (if i < s.nV then s.typeOf (some s.lb) (some s.ub) i else s.bounds.type i) = s.typeOf (some s.lb) (some s.ub) i :=
          if_pos hi
        dsimp only at this
        rw [← hty] at this
        exact this)
    refine ⟨e, k1, k2, fun s' hs' => ?_⟩
    obtain ⟨w, g, l, u, es, j1, j2, j3, j4, j5, j6, j7, j8⟩ := k3 s' hs'
    have hty : ∀ i < s.nV, w.type i = s.typeOf (some s.lb) (some s.ub) i := by
      intro i hi
      rw [j3]
      exact if_pos hi
    rw [es]
    rw [es] at j6
    refine ⟨⟨j1, j2, rfl, j6, fun hn => hH fun e => hn (Or.inr e), hheff.symm, ?_, hty, rfl, ⟨rfl, rfl⟩, rfl, rfl, rfl, by rw [e1]⟩, rfl, rfl, j7⟩
    refine retype j4 j5 fun i hi => ?_
    have hi : i < s.nV := hi
    show typeOf _ (some s.lb) (some s.ub) i = w.type i
    have h1 := hty i hi
    have h8 := j8 i hi
    rw [← j3] at h8
    rw [h1] at h8 ⊢
    unfold typeOf at h8 ⊢
    dsimp only at h8 ⊢
    by_cases hinf : s.lb i < -INFTY + s.options.boundTolerance ∧ s.ub i > INFTY - s.options.boundTolerance ∧ s.options.enableFarBounds = false
    · rw [if_pos hinf, if_pos hinf]
    · rw [if_neg hinf, if_neg hinf]
      rw [if_neg hinf] at h8
      by_cases heq : s.options.enableEqualities = true ∧ s.lb i > s.ub i - s.options.boundTolerance ∧
        s.lb i > s.ub i - s.options.boundTolerance
      · rw [if_pos heq]
        rw [if_pos heq] at h8
        obtain ⟨a1, a2⟩ := h8 rfl
        rw [if_pos]
        refine ⟨heq.1, ?_, heq.2.2⟩
        rw [a1, a2]
        have := heq.2.1
        rw [h.eq heq.1 i hi heq.2.1] at this
        linarith
      · rw [if_neg heq, if_neg fun hh => heq ⟨hh.1, hh.2.2, hh.2.2⟩]

/-- No number in the run of a cold start falls strictly between zero and a tolerance. -/
def ColdClean (sq : K → K) (s : QPB K) (xOpt yOpt : Option (Nat → K)) (guess : Option WS) (nWSR : Int) (cputime : Option K) : Prop :=
  ∀ s', prepareInitialQP sq (s.startClock cputime).2 xOpt yOpt guess none nWSR cputime = .ok (.ok s') →
  let q := s'.stopClock cputime (s.startClock cputime).1
  ∀ s'', setupInitialCholesky sq { q.2 with count := q.2.count + 1 } = .ok (SUCCESSFUL_RETURN, s'') →
    (s''.scalarH ∨ DiagOK s''.bounds.nFR s''.R) ∧
    RunClean sq s'' s.g (some s.lb) (some s.ub) nWSR (cputime.map fun c => c - q.1.getD 0) 0

theorem hotstart_cold {sq : K → K} {fuel : Nat} {s : QPB K} {gNew : Nat → K} {lbNew ubNew : Option (Nat → K)} {nWSR : Int}
    {cputime : Option K} (hn : s.nV ≠ 0) (hb : s.areBoundsConsistent lbNew ubNew = true) (hch : s.haveCholesky = false)
    {r : ReturnValue} {s1 : QPB K} (hs : setupInitialCholesky sq { s with count := s.count + 1 } = .ok (r, s1))
    (hf : s1.options.enableFarBounds = false) (hr : s1.usingRegularisation = false) :
    hotstart sq fuel s gNew lbNew ubNew nWSR cputime .null =
      if r ≠ SUCCESSFUL_RETURN then .ok ⟨r, nWSR, cputime, s1⟩
      else solveQP sq s1 gNew lbNew ubNew nWSR cputime 0 := by
  unfold hotstart
  rw [if_neg hn]
  dsimp only
  unfold hotstartMain
  rw [if_neg (by rw [hb]; decide)]
  dsimp only
  rw [if_pos hch, hs, Res.bind_ok]
  dsimp only
  split
  · rfl
  · unfold solveRegularisedQP
    rw [if_pos hr]

theorem AuxOK.inv {s s0 : QPB K} (h : AuxOK s s0) (hc : ColdOK s0) {R : Nat → Nat → K} {c : Bool} {now count : Nat}
    (hF : ({ s with R := R, haveCholesky := c, now := now, count := count } : QPB K).Factor) :
    ({ s with R := R, haveCholesky := c, now := now, count := count } : QPB K).Inv := by
  refine ⟨h.ws, h.n, hF, ?_, ⟨h.opt.stat, h.opt.lower, h.opt.upper, h.opt.inactive, h.opt.box, h.opt.eq⟩, ?_, ?_⟩
  · show Spec.QP.Symmetric s.nV s.Heff
    rw [h.nV, h.hess]; exact hc.sym
  · show OptionsOK s.options
    rw [h.options]; exact hc.options
  · show s.options.enableRamping = true → 2 ≤ s.nV ∧ 0 ≤ s.ramp0 ∧ 0 ≤ s.ramp1
    rw [h.options, h.nV, h.ramps.1, h.ramps.2]; exact hc.ramp

theorem AuxOK.target {s s0 : QPB K} (h : AuxOK s s0) (hc : ColdOK s0) : Target s s0.lb s0.ub := by
  refine ⟨by rw [h.nV]; exact hc.box, fun i hi hty => ?_⟩
  have hi' : i < s0.nV := by rw [← h.nV]; exact hi
  rw [h.typeEq i hi] at hty
  unfold typeOf at hty
  dsimp only at hty
  split at hty
  · cases hty
  · split at hty
    · rename_i hh
      exact hc.eq hh.1 i hi' hh.2.1
    · cases hty

/-- The state at the end of a call for the QP of `s0`: the solver has kept size, Hessian, options. -/
structure ForProblem (s s0 : QPB K) : Prop where
  nV : s.nV = s0.nV
  hess : s.Heff = (s0.determineHessianType).2.Heff
  options : s.options = s0.options
  chol : s.haveCholesky = true
  regVal : s.regVal = s0.regVal
  noLower : s.bounds.noLower = (s0.setupSubjectToType (some s0.lb) (some s0.ub)).bounds.noLower
  noUpper : s.bounds.noUpper = (s0.setupSubjectToType (some s0.lb) (some s0.ub)).bounds.noUpper
  type : ∀ i < s0.nV, s.bounds.type i = s0.typeOf (some s0.lb) (some s0.ub) i
  ident : SameScalar s (s0.determineHessianType).2

theorem solveInitialQP_spec {sq : K → K} (fuel : Nat) {s : QPB K} (hsq : (s.determineHessianType).2.SqrtFor sq) (h : ColdOK s)
    (hoff : s.options.enableFarBounds = false) (xOpt yOpt : Option (Nat → K))
    (guess : Option WS) (nWSR : Int) (cputime : Option K) (hs : SignOK s xOpt yOpt guess)
    (hc : ColdClean sq s xOpt yOpt guess nWSR cputime) :
    ∃ o, solveInitialQP sq fuel s xOpt yOpt guess none nWSR cputime = .ok o ∧
      (o.rv = SUCCESSFUL_RETURN → Solved o.s s.g (some s.lb) (some s.ub) ∧ ForProblem o.s s) ∧
      (o.rv = RET_MAX_NWSR_REACHED → o.s.Inv ∧ ForProblem o.s s ∧
        (o.s.status = QPS_AUXILIARYQPSOLVED ∨ o.s.status = QPS_HOMOTOPYQPSOLVED)) := by
  have hframe : ∃ k, (s.startClock cputime).2 = { s with now := k } := by
    unfold startClock
    cases cputime with
    | none => exact ⟨s.now, rfl⟩
    | some c => exact ⟨s.now + 1, rfl⟩
  obtain ⟨k, ek⟩ := hframe
  have hdh : ({ s with now := k } : QPB K).determineHessianType = ((s.determineHessianType).1, { (s.determineHessianType).2 with now := k }) := by
    unfold determineHessianType ensureRegularisation
    dsimp only
    repeat' split
    all_goals rfl
  have hcold : ColdOK ({ s with now := k } : QPB K) :=
    ⟨h.free, h.fixed, h.n, h.nV, h.options, h.ramp, h.relax, h.noReg, h.regVal, h.box, h.eq,
      by rw [hdh]; exact h.type, by rw [hdh]; exact h.sym⟩
  have hheff : (({ s with now := k } : QPB K).determineHessianType).2.Heff = (s.determineHessianType).2.Heff := by rw [hdh]; rfl
  unfold solveInitialQP
  dsimp only
  unfold ColdClean at hc
  obtain ⟨e, e1, e2, e3⟩ := prepareInitialQP_spec sq hcold xOpt yOpt guess nWSR cputime hs
  rw [ek] at hc ⊢
  rw [e1] at hc ⊢
  rw [Res.bind_ok]
  cases e with
  | error o =>
    dsimp only
    have := e2 o rfl
    refine ⟨o, rfl, fun h => ?_, fun h => ?_⟩ <;> rw [this] at h <;> cases h
  | ok s' =>
    dsimp only
    have hA := (e3 s' rfl).1
    have hc := hc s' rfl
    dsimp only at hc
    obtain ⟨k2, ek2⟩ := stopClock_frame s' cputime (s.startClock cputime).1
    generalize hq1 : (s'.stopClock cputime (s.startClock cputime).1).1 = q1 at *
    rw [ek2] at hc ⊢
    have hte : s'.hessianType = (s.determineHessianType).2.hessianType := by rw [hA.htype, hdh]
    have hsc : SameScalar s' (s.determineHessianType).2 := by
      refine ⟨by rw [← hte], by rw [← hte], hA.regVal.trans ?_⟩
      obtain ⟨t, o, e1, -⟩ := determineHessianType_frame s
      rw [e1]
    have hsq' : s'.SqrtFor sq := hsc.sqrt hsq
    obtain ⟨r, s1, f1, f2, f3⟩ := setupInitialCholesky_spec hsq' (s := { s' with now := k2, count := s'.count + 1 }) hA.ws hA.n hA.hasH
      (by show s'.options.enableRegularisation = false; rw [hA.options]; exact h.noReg)
    have hnV : s'.nV ≠ 0 := by rw [hA.nV]; exact h.nV
    have hT := hA.target hcold
    have hbc : ({ s' with now := k2 } : QPB K).areBoundsConsistent (some s.lb) (some s.ub) = true := consistent_of_target hT.box
    by_cases hr : r = SUCCESSFUL_RETURN
    · subst hr
      obtain ⟨⟨R, eR⟩, hF⟩ := f2 rfl
      obtain ⟨hdiag, hclean⟩ := hc s1 f1
      subst eR
      have hF := hF hdiag
      have hI := hA.inv hcold hF
      have hfar : s'.options.enableFarBounds = false := by rw [hA.options]; exact hoff
      have hreg : s'.usingRegularisation = false := by unfold usingRegularisation; rw [hA.regVal]; exact h.regVal
      rw [hotstart_cold (s := { s' with now := k2 }) hnV hbc hA.noChol f1 hfar hreg, if_neg (by simp)]
      have hty : ({ s' with now := k2, count := s'.count + 1, R := R, haveCholesky := true } : QPB K).setupSubjectToType (some s.lb) (some s.ub) =
          { s' with now := k2, count := s'.count + 1, R := R, haveCholesky := true } := by
        have h0 : ({ s' with now := k2, count := s'.count + 1, R := R, haveCholesky := true } : QPB K).setupSubjectToType (some s.lb) (some s.ub) =
          { s'.setupSubjectToType (some s.lb) (some s.ub) with now := k2, count := s'.count + 1, R := R, haveCholesky := true } := rfl
        rw [h0]
        have : s'.setupSubjectToType (some s.lb) (some s.ub) = s' := hA.types
        rw [this]
      obtain ⟨o, o1, o2, o3⟩ := solveQP_spec (sq := sq) (gNew := s.g)
        (s := { s' with now := k2, count := s'.count + 1, R := R, haveCholesky := true }) hsq' nWSR (cputime.map fun c => c - q1.getD 0) 0 (Or.inl hA.status)
        (lbNew := some s.lb) (ubNew := some s.ub) (by rw [hty]; exact hI) (by rw [hty]; exact ⟨hT.box, hT.eq⟩) hclean
      rw [hty] at o2 o3
      have hfor : ∀ a : QPB K, SameProblem a { s' with now := k2, count := s'.count + 1, R := R, haveCholesky := true } → ForProblem a s := by
        intro a ha
        refine ⟨ha.nV.trans hA.nV, ha.hess.trans (hA.hess.trans hheff), ha.options.trans hA.options, ha.chol, ha.reg.trans hA.regVal, ?_, ?_, ?_, ha.ident.trans hsc⟩
        · have h1 : s'.bounds.noLower = _ := congrArg (fun q => q.bounds.noLower) hA.types.symm
          refine (ha.noLower.trans h1).trans ?_
          show ((List.range s'.nV).all fun i => !decide (s.lb i > -INFTY)) = _
          rw [hA.nV]; rfl
        · have h1 : s'.bounds.noUpper = _ := congrArg (fun q => q.bounds.noUpper) hA.types.symm
          refine (ha.noUpper.trans h1).trans ?_
          show ((List.range s'.nV).all fun i => !decide (s.ub i < INFTY)) = _
          rw [hA.nV]; rfl
        · intro i hi
          rw [ha.type]
          exact hA.typeEq i (by rw [hA.nV]; exact hi)
      rw [o1, Res.bind_ok]
      split
      · refine ⟨_, rfl, fun h => ?_, fun h => ?_⟩ <;> cases h
      · split
        · refine ⟨_, rfl, fun h => ?_, fun h => ?_⟩ <;> cases h
        · split
          · refine ⟨_, rfl, fun h => ?_, fun h => ?_⟩ <;> cases h
          · refine ⟨_, rfl, fun h => ?_, fun h => ?_⟩
            · rw [finish_rv] at h
              obtain ⟨a1, a2⟩ := o2 h
              obtain ⟨k3, ek3⟩ := finish_frame o.s o.rv o.nWSR o.cputime (s.startClock cputime).1
              rw [ek3]
              have a3 := hfor _ a2
              exact ⟨⟨a1.inv.frame _ _ _ _ _ _ _ _, a1.status, a1.length, a1.full⟩,
                ⟨a3.nV, a3.hess, a3.options, a3.chol, a3.regVal, a3.noLower, a3.noUpper, a3.type, a3.ident⟩⟩
            · rw [finish_rv] at h
              obtain ⟨a1, a2, a4⟩ := o3 h
              obtain ⟨k3, ek3⟩ := finish_frame o.s o.rv o.nWSR o.cputime (s.startClock cputime).1
              rw [ek3]
              have a3 := hfor _ a2
              refine ⟨a1.frame _ _ _ _ _ _ _ _,
                ⟨a3.nV, a3.hess, a3.options, a3.chol, a3.regVal, a3.noLower, a3.noUpper, a3.type, a3.ident⟩, ?_⟩
              rcases a4 with a4 | a4
              · exact Or.inl (a4.trans hA.status)
              · exact Or.inr a4
    · have hfail : hotstart sq fuel { s' with now := k2 } s.g (some s.lb) (some s.ub) nWSR (cputime.map fun c => c - q1.getD 0) .null =
          .ok ⟨r, nWSR, (cputime.map fun c => c - q1.getD 0), s1⟩ := by
        unfold hotstart
        rw [if_neg (show ¬ s'.nV = 0 from hnV)]
        dsimp only
        unfold hotstartMain
        rw [if_neg (by rw [hbc]; decide)]
        dsimp only
        rw [if_pos hA.noChol, f1, Res.bind_ok]
        dsimp only
        rw [if_pos hr]
      rw [hfail, Res.bind_ok]
      split
      · refine ⟨_, rfl, fun h => ?_, fun h => ?_⟩ <;> cases h
      · split
        · refine ⟨_, rfl, fun h => ?_, fun h => ?_⟩ <;> cases h
        · rw [if_pos ⟨hr, f3⟩]
          refine ⟨_, rfl, fun h => ?_, fun h => ?_⟩ <;> cases h

/-! ### repeated calls -/

/-- A new set of limits keeps the invariant if no variable becomes or ceases to be an equality in a way that its
multiplier or status forbids, and the point respects limits that start to be observed. -/
theorem Inv.retype {s : QPB K} (h : s.Inv) {lbNew ubNew : Option (Nat → K)}
    (heq : ∀ i < s.nV, s.typeOf lbNew ubNew i = ST_EQUALITY → s.bounds.status i ≠ ST_INACTIVE ∧ s.lb i = s.ub i)
    (hne : ∀ i < s.nV, s.typeOf lbNew ubNew i ≠ ST_EQUALITY → s.bounds.type i = ST_EQUALITY →
      (s.bounds.status i = ST_LOWER → 0 ≤ s.y i) ∧ (s.bounds.status i = ST_UPPER → s.y i ≤ 0))
    (hlow : (s.setupSubjectToType lbNew ubNew).bounds.noLower = false → ∀ i < s.nV, s.bounds.status i = ST_INACTIVE → s.lb i ≤ s.x i)
    (hup : (s.setupSubjectToType lbNew ubNew).bounds.noUpper = false → ∀ i < s.nV, s.bounds.status i = ST_INACTIVE → s.x i ≤ s.ub i) :
    (s.setupSubjectToType lbNew ubNew).Inv := by
  have hty : ∀ i < s.nV, (s.setupSubjectToType lbNew ubNew).bounds.type i = s.typeOf lbNew ubNew i := fun i hi => if_pos hi
  have h1 := h.opt
  refine ⟨⟨h.ws.perm, h.ws.free, h.ws.fixed⟩, h.n, ⟨h.factor.scalar, h.factor.stored⟩, h.sym, ⟨h1.stat, ?_, ?_, ?_, h1.box, ?_⟩, h.options, h.ramp⟩
  · intro i hi hs
    have hi : i < s.nV := hi
    rw [hty i hi]
    refine ⟨(h1.lower i hi hs).1, fun hh => ?_⟩
    by_cases he : s.bounds.type i = ST_EQUALITY
    · exact (hne i hi hh he).1 hs
    · exact (h1.lower i hi hs).2 he
  · intro i hi hs
    have hi : i < s.nV := hi
    rw [hty i hi]
    refine ⟨(h1.upper i hi hs).1, fun hh => ?_⟩
    by_cases he : s.bounds.type i = ST_EQUALITY
    · exact (hne i hi hh he).2 hs
    · exact (h1.upper i hi hs).2 he
  · intro i hi hs
    exact ⟨(h1.inactive i hi hs).1, fun hh => hlow hh i hi hs, fun hh => hup hh i hi hs⟩
  · intro i hi hs
    have hi : i < s.nV := hi
    rw [hty i hi] at hs
    exact heq i hi hs

end QPB
end QpOASES
