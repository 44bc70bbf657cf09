import Verif.Proofs.Absent

/-!
Which options the solver for bounds only changes.
-/
namespace QpOASES
namespace QPB
open Finset SubjectToStatus SubjectToType ReturnValue HessianType QProblemStatus

set_option linter.unusedSectionVars false

variable {K : Type} [Field K] [LinearOrder K] [IsStrictOrderedRing K]

/-- All options but the size of the regularisation. -/
def steady (s : QPB K) : Options K := { s.options with epsRegularisation := 0 }

theorem setting_steady {s s' : QPB K} (h : s'.setting = s.setting) : s'.steady = s.steady :=
  congrArg (fun a : K × Options K × K × K => a.2.1) h

theorem Keep.same {s s' : QPB K} (h : Keep s s') : s'.steady = s.steady := setting_steady h.regVal

theorem auxAdd_steady (sq : K → K) (aux : WS) (b : Bool) : ∀ (m i : Nat) (s : QPB K), (auxAdd sq aux b m i s).2.steady = s.steady := by
  intro m
  induction m with
  | zero => intro i s; rfl
  | succ m ih =>
    intro i s
    unfold auxAdd
    split
    · have h := (addBound_keep sq s i (aux.getStatus i) b).1.same
      dsimp only
      split
      · exact h
      · exact (ih _ _).trans h
    · exact ih _ _

theorem auxRemove_steady (sq : K → K) (aux : WS) : ∀ (m i : Nat) (s s' : QPB K) (r : ReturnValue), auxRemove sq aux m i s = .ok (r, s') →
    s'.steady = s.steady := by
  intro m
  induction m with
  | zero => intro i s s' r h; cases h; rfl
  | succ m ih =>
    intro i s s' r h
    have one : ∀ (s s' : QPB K) (p : Prop) [Decidable p] (r : ReturnValue),
        (if p then removeBound sq s i true else .ok (SUCCESSFUL_RETURN, s)) = .ok (r, s') → s'.steady = s.steady := by
      intro s s' p _ r h
      split at h
      · exact (removeBound_keep h).1.same
      · cases h; rfl
    have goal2 : ∀ (r1 : ReturnValue) (s1 : QPB K), s1.steady = s.steady →
        (if r1 ≠ SUCCESSFUL_RETURN then Res.ok (RET_SETUP_WORKINGSET_FAILED, s1) else do
          let (r, s) ← if s1.bounds.getStatus i = ST_UPPER ∧ aux.getStatus i ≠ ST_UPPER then removeBound sq s1 i true
            else .ok (SUCCESSFUL_RETURN, s1)
          if r ≠ SUCCESSFUL_RETURN then .ok (RET_SETUP_WORKINGSET_FAILED, s) else
          auxRemove sq aux m (i+1) s) = .ok (r, s') → s'.steady = s.steady := by
      intro r1 s1 h1 h
      have goal3 : ∀ (r2 : ReturnValue) (s2 : QPB K), s2.steady = s1.steady →
          (if r2 ≠ SUCCESSFUL_RETURN then .ok (RET_SETUP_WORKINGSET_FAILED, s2) else auxRemove sq aux m (i+1) s2) = .ok (r, s') →
          s'.steady = s.steady := by
        intro r2 s2 h2 h
        split at h
        · cases h; exact h2.trans h1
        · exact (ih _ _ _ _ h).trans (h2.trans h1)
      split at h
      · cases h; exact h1
      · split at h
        · obtain ⟨⟨r2, s2⟩, e2, h⟩ := Res.bind_eq_ok.1 h
          exact goal3 r2 s2 (removeBound_keep e2).1.same h
        · exact goal3 SUCCESSFUL_RETURN s1 rfl h
    unfold auxRemove at h
    split at h
    · obtain ⟨⟨r1, s1⟩, e1, h⟩ := Res.bind_eq_ok.1 h
      exact goal2 r1 s1 (removeBound_keep e1).1.same h
    · exact goal2 SUCCESSFUL_RETURN s rfl h

theorem setupAuxiliaryWorkingSet_steady {sq : K → K} {s s' : QPB K} {aux : WS} {b : Bool} {r : ReturnValue}
    (h : setupAuxiliaryWorkingSet sq s aux b = .ok (r, s')) : s'.steady = s.steady := by
  unfold setupAuxiliaryWorkingSet at h
  split at h
  · cases h; rfl
  · have goal2 : ∀ (r1 : ReturnValue) (s1 : QPB K), s1.steady = s.steady →
        (if r1 ≠ SUCCESSFUL_RETURN then Res.ok (r1, s1) else .ok (auxAdd sq aux (!b) s1.nV 0 s1)) = .ok (r, s') →
        s'.steady = s.steady := by
      intro r1 s1 h1 h
      split at h
      · cases h; exact h1
      · have h := Res.ok.inj h
        have e : s' = (auxAdd sq aux (!b) s1.nV 0 s1).2 := by rw [h]
        rw [e]
        exact (auxAdd_steady _ _ _ _ _ _).trans h1
    split at h
    · exact goal2 SUCCESSFUL_RETURN s rfl h
    · obtain ⟨⟨r1, s1⟩, e1, h⟩ := Res.bind_eq_ok.1 h
      exact goal2 r1 s1 (auxRemove_steady _ _ _ _ _ _ _ e1) h

theorem setupAuxiliaryQPbounds_steady (b : Bool) : ∀ (m i : Nat) (s : QPB K), (setupAuxiliaryQPbounds b m i s).2.steady = s.steady := by
  intro m
  induction m with
  | zero => intro i s; rfl
  | succ m ih =>
    intro i s
    unfold setupAuxiliaryQPbounds
    split
    · rfl
    · exact ih _ _

theorem setupAuxiliaryQPdata_steady {s s' : QPB K} (h : setupAuxiliaryQPdata s = .ok s') : s'.steady = s.steady := by
  obtain ⟨s1, e, h⟩ := Res.bind_eq_ok.1 h
  obtain ⟨g, rfl⟩ := setupAuxiliaryQPgradient_keep e
  cases h
  exact setupAuxiliaryQPbounds_steady _ _ _ _

theorem setupAuxiliaryQP_steady {sq : K → K} {s s' : QPB K} {w : WS} {r : ReturnValue} (h : setupAuxiliaryQP sq s w = .ok (r, s')) :
    s'.steady = s.steady := by
  unfold setupAuxiliaryQP at h
  dsimp only at h
  split at h
  · obtain ⟨⟨r1, s1⟩, e1, h⟩ := Res.bind_eq_ok.1 h
    have h1 := setupAuxiliaryWorkingSet_steady e1
    obtain ⟨⟨r2, s2⟩, e2, h⟩ := Res.bind_eq_ok.1 h
    have h2 := (computeCholesky_keep e2).1.same
    dsimp only at h
    split at h
    · cases h; exact h2.trans h1
    · obtain ⟨s3, e3, h⟩ := Res.bind_eq_ok.1 h
      cases h
      exact (setupAuxiliaryQPdata_steady e3).trans (h2.trans h1)
  · obtain ⟨⟨r1, s1⟩, e1, h⟩ := Res.bind_eq_ok.1 h
    obtain ⟨s3, e3, h⟩ := Res.bind_eq_ok.1 h
    cases h
    have h1 : s1.steady = s.steady := setupAuxiliaryWorkingSet_steady (s := { s with status := QPS_PREPARINGAUXILIARYQP }) e1
    exact (setupAuxiliaryQPdata_steady e3).trans h1

theorem regulariseHessian_steady {sq : K → K} {s s' : QPB K} {r : ReturnValue} (h : regulariseHessian sq s = .ok (r, s')) :
    s'.steady = s.steady := by
  unfold regulariseHessian at h
  split at h
  · cases h; rfl
  · split at h
    · cases h; rfl
    · split at h
      · cases h; rfl
      · split at h
        · cases h; rfl
        · obtain ⟨H, _, h⟩ := Res.bind_eq_ok.1 h
          cases h; rfl

theorem setupInitialCholesky_steady {sq : K → K} {s s' : QPB K} {r : ReturnValue} (h : setupInitialCholesky sq s = .ok (r, s')) :
    s'.steady = s.steady := by
  have goal2 : ∀ (r1 : ReturnValue) (s1 : QPB K), s1.steady = s.steady →
      (if r1 ≠ SUCCESSFUL_RETURN then Res.ok (RET_INIT_FAILED_REGULARISATION, s1) else do
        let (r, s) ← computeCholesky sq s1
        if r = RET_HESSIAN_NOT_SPD then do
          let (r, s) ← regulariseHessian sq s
          if r ≠ SUCCESSFUL_RETURN then .ok (RET_INIT_FAILED_REGULARISATION, s) else do
          let (r, s) ← computeCholesky sq s
          if r ≠ SUCCESSFUL_RETURN then .ok (RET_INIT_FAILED_CHOLESKY, s)
          else .ok (SUCCESSFUL_RETURN, { s with haveCholesky := true })
        else if r ≠ SUCCESSFUL_RETURN then .ok (RET_INIT_FAILED_CHOLESKY, s)
        else .ok (SUCCESSFUL_RETURN, { s with haveCholesky := true })) = Res.ok (r, s') → s'.steady = s.steady := by
    intro r1 s1 a1 h
    split at h
    · cases h; exact a1
    · obtain ⟨⟨r2, s2⟩, e2, h⟩ := Res.bind_eq_ok.1 h
      have k2 := (computeCholesky_keep e2).1.same.trans a1
      dsimp only at h
      split at h
      · obtain ⟨⟨r3, s3⟩, e3, h⟩ := Res.bind_eq_ok.1 h
        have k3 := (regulariseHessian_steady e3).trans k2
        dsimp only at h
        split at h
        · cases h; exact k3
        · obtain ⟨⟨r4, s4⟩, e4, h⟩ := Res.bind_eq_ok.1 h
          have k4 := (computeCholesky_keep e4).1.same.trans k3
          dsimp only at h
          split at h <;> cases h <;> exact k4
      · split at h <;> cases h <;> exact k2
  unfold setupInitialCholesky at h
  split at h
  · obtain ⟨⟨r1, s1⟩, e1, h⟩ := Res.bind_eq_ok.1 h
    exact goal2 r1 s1 (regulariseHessian_steady e1) h
  · exact goal2 SUCCESSFUL_RETURN s rfl h

/-- The options of `s'` are those `o` had, up to the size of the regularisation, or regularisation has been switched on with one step, which takes `Z`. -/
def Grown (Z : Prop) (s' : QPB K) (o : Options K) : Prop :=
  s'.steady = o ∨ (Z ∧ o.enableRegularisation = false ∧ s'.steady = { o with enableRegularisation := true, numRegularisationSteps := 1 })

theorem Grown.trans {Z : Prop} {s s' : QPB K} {o : Options K} (h : s'.steady = s.steady) (g : Grown Z s o) : Grown Z s' o := by
  unfold Grown
  rw [h]
  exact g

theorem Grown.weaken {Z Z' : Prop} {s : QPB K} {o : Options K} (h : Z → Z') (g : Grown Z s o) : Grown Z' s o :=
  g.imp id fun k => ⟨h k.1, k.2⟩

/-- The Hessian is zero or taken to be zero. -/
def ZeroHessian (s : QPB K) : Prop :=
  s.hessianType = HST_ZERO ∨ s.H = none ∨ ∃ M, s.H = some M ∧ ∀ i < s.nV, ∀ j < s.nV, |M i j| ≤ EPS

theorem determineHessianType_grown (s : QPB K) : Grown s.ZeroHessian (s.determineHessianType).2 s.steady := by
  have hens : ∀ s0 : QPB K, s0.steady = s.steady → s.ZeroHessian → Grown s.ZeroHessian s0.ensureRegularisation s.steady := by
    intro s0 h0 hz
    unfold ensureRegularisation
    split
    · exact Or.inl h0
    · rename_i hr
      have hr' : s0.steady.enableRegularisation = false := by simpa [steady] using hr
      refine Or.inr ⟨hz, ?_, ?_⟩
      · rw [← h0]; exact hr'
      · rw [← h0]; rfl
  unfold determineHessianType
  split
  · exact hens _ rfl (Or.inl ‹_›)
  · exact Or.inl rfl
  · rename_i M _ hH
    dsimp only
    split
    · rename_i hd
      split
      · split <;> exact Or.inl rfl
      · exact Or.inl rfl
      · rename_i isId isZ hsc
        split
        · rename_i hZ
          subst hZ
          refine hens _ ?_ (Or.inr (Or.inr ⟨M, hH, fun i hi j hj => ?_⟩))
          · split <;> rfl
          · by_cases e : i = j
            · subst e
              exact (diagScan_zero _ _ _ _ hsc).2 i (Nat.zero_le _) (by omega)
            · exact isDiag_spec hd hi hj e
        · split <;> exact Or.inl rfl
    · exact Or.inl rfl
  · exact Or.inl rfl
  · exact hens _ rfl (Or.inr (Or.inl ‹_›))

/-- The object in which setting up the auxiliary QP ends, with success or not. -/
def stateOf : Except (Out K) (QPB K) → QPB K
  | .error o => o.s
  | .ok s => s

theorem prepareAuxiliary_steady {sq : K → K} {s : QPB K} {xOpt yOpt : Option (Nat → K)} {guess : Option WS} {R : Option (Nat → K)}
    {nWSR : Int} {c : Option K} {e : Except (Out K) (QPB K)} (h : prepareAuxiliary sq s xOpt yOpt guess R nWSR c = .ok e) :
    (stateOf e).steady = s.steady := by
  have fin : ∀ (r : ReturnValue) (s1 : QPB K), s1.steady = s.steady →
      (if r ≠ SUCCESSFUL_RETURN then Res.ok (Except.error (⟨RET_INIT_FAILED_REGULARISATION, nWSR, c, s1⟩ : Out K)) else do
        let s := takeFactor { s1 with haveCholesky := false } (xOpt.isNone && yOpt.isNone && guess.isNone) R
        let (r, s) ← (do
          let s ← setupAuxiliaryQPgradient s
          Res.ok (setupAuxiliaryQPbounds true s.nV 0 s))
        if r ≠ SUCCESSFUL_RETURN then .ok (.error ⟨RET_INIT_FAILED, nWSR, c, s⟩)
        else .ok (.ok { s with status := QPS_AUXILIARYQPSOLVED })) = .ok e → (stateOf e).steady = s.steady := by
    intro r s1 h1 h
    have ht : ∀ b, (takeFactor { s1 with haveCholesky := false } b R).steady = s.steady := by
      intro b
      unfold takeFactor
      split
      · exact h1
      · split
        · exact h1
        · split <;> exact h1
    generalize (xOpt.isNone && yOpt.isNone && guess.isNone) = b at h
    specialize ht b
    generalize takeFactor { s1 with haveCholesky := false } b R = t at ht h
    split at h
    · cases h; exact h1
    · obtain ⟨⟨r2, s3⟩, e3, h⟩ := Res.bind_eq_ok.1 h
      have h3 : s3.steady = s.steady := by
        obtain ⟨s4, e4, e3⟩ := Res.bind_eq_ok.1 e3
        obtain ⟨g, rfl⟩ := setupAuxiliaryQPgradient_keep e4
        have e3 := Res.ok.inj e3
        have : s3 = (setupAuxiliaryQPbounds true t.nV 0 { t with g := g }).2 := by rw [e3]
        rw [this]
        exact (setupAuxiliaryQPbounds_steady _ _ _ _).trans ht
      dsimp only at h
      split at h <;> (cases h; exact h3)
  unfold prepareAuxiliary at h
  split at h
  · cases h; rfl
  · obtain ⟨⟨r, s1⟩, e1, h⟩ := Res.bind_eq_ok.1 h
    have h1 := setupAuxiliaryWorkingSet_steady e1
    dsimp only at h
    split at h
    · cases h; exact h1
    · split at h
      · obtain ⟨⟨r2, s3⟩, e2, h⟩ := Res.bind_eq_ok.1 h
        exact fin r2 s3 ((regulariseHessian_steady e2).trans h1) h
      · exact fin SUCCESSFUL_RETURN s1 h1 h

theorem prepareInitialQP_grown {sq : K → K} {s : QPB K} {xOpt yOpt : Option (Nat → K)} {guess : Option WS} {R : Option (Nat → K)}
    {nWSR : Int} {c : Option K} {e : Except (Out K) (QPB K)} (h : prepareInitialQP sq s xOpt yOpt guess R nWSR c = .ok e) :
    Grown s.ZeroHessian (stateOf e) s.steady := by
  have hd : Grown s.ZeroHessian ({ s with status := QPS_NOTINITIALISED } : QPB K).determineHessianType.2 s.steady :=
    determineHessianType_grown { s with status := QPS_NOTINITIALISED }
  unfold prepareInitialQP at h
  dsimp only at h
  split at h
  · cases h; exact hd
  · exact .trans (prepareAuxiliary_steady h) hd

theorem solveRegularisedQP_steady {sq : K → K} {s : QPB K} {gNew : Nat → K} {lbNew ubNew : Option (Nat → K)} {nWSR : Int} {c : Option K}
    {p : Int} {o : Out K} (hp : p ≤ nWSR) (h : solveRegularisedQP sq s gNew lbNew ubNew nWSR c p = .ok o) :
    o.s.steady = s.steady ∧ o.nWSR ≤ nWSR := by
  by_cases hr : NotReady s
  · obtain ⟨c', e⟩ := solveRegularisedQP_notReady hr sq gNew lbNew ubNew nWSR c p
    rw [e] at h
    cases h
    exact ⟨rfl, le_refl _⟩
  · have S := solveRegularisedQP_cases hr hp h
    exact ⟨setting_steady S.regVal, S.upper⟩

theorem farLoop_steady (sq : K → K) (gNew : Nat → K) (lbNew ubNew : Option (Nat → K)) (nWSR : Int) (cputime : Option K) :
    ∀ (fuel : Nat) (s : QPB K) (far : K) (lf uf : Nat → K) (p : Int) (needed remaining : K) (o : Out K) (m : K), p ≤ nWSR →
    farLoop sq gNew lbNew ubNew nWSR cputime fuel s far lf uf p needed remaining = .ok (o, m) → o.s.steady = s.steady := by
  intro fuel
  induction fuel with
  | zero => intro s far lf uf p ne re o m _ h; cases h
  | succ fuel ih =>
    intro s far lf uf p ne re o m hp h
    unfold farLoop at h
    dsimp only at h
    rw [Res.bind_eq_ok] at h
    obtain ⟨o1, e1, h⟩ := h
    obtain ⟨f1, f2⟩ := solveRegularisedQP_steady hp e1
    split at h
    · split at h
      · cases h; exact f1
      · obtain ⟨p', ep, h⟩ := Res.bind_eq_ok.1 h
        exact (ih { o1.s with rampOffset := o1.s.rampOffset + 1 } _ _ _ _ _ _ o m f2 h).trans f1
    · split at h
      · obtain ⟨q, eq, h⟩ := Res.bind_eq_ok.1 h
        split at h
        · cases h; exact f1
        · split at h
          · cases h; exact f1
          · obtain ⟨p', ep, h⟩ := Res.bind_eq_ok.1 h
            exact (ih { o1.s with status := QPS_HOMOTOPYQPSOLVED, rampOffset := o1.s.rampOffset + 1 } _ _ _ _ _ _ o m f2 h).trans f1
      · cases h; exact f1

theorem hotstartMain_steady {sq : K → K} {fuel : Nat} {s : QPB K} {gNew : Nat → K} {lbNew ubNew : Option (Nat → K)} {nWSR : Int}
    {cputime : Option K} {a : K} {o : Out K} (hb : 0 ≤ nWSR) (h : hotstartMain sq fuel s gNew lbNew ubNew nWSR cputime a = .ok o) :
    o.s.steady = s.steady := by
  unfold hotstartMain at h
  split at h
  · cases h; rfl
  · dsimp only at h
    have goal2 : ∀ (r1 : ReturnValue) (s1 : QPB K), s1.steady = s.steady →
        (if r1 ≠ SUCCESSFUL_RETURN then .ok ⟨r1, nWSR, cputime, s1⟩
        else if s1.options.enableFarBounds = false then
          solveRegularisedQP sq s1 gNew lbNew ubNew nWSR cputime 0
        else do
          let (lf, uf) ← updateFarBounds s1 (s1.initialFar lbNew ubNew) s1.nV lbNew ubNew s1.nV 0 (fun _ => 0) (fun _ => 0)
          let (o, needed) ← farLoop sq gNew lbNew ubNew nWSR cputime fuel s1 (s1.initialFar lbNew ubNew) lf uf 0 0 INFTY
          .ok { o with cputime := cputime.map fun _ => needed + a }) = .ok o → o.s.steady = s.steady := by
      intro r1 s1 f1 h
      split at h
      · cases h; exact f1
      · split at h
        · exact (solveRegularisedQP_steady hb h).1.trans f1
        · obtain ⟨⟨lf, uf⟩, eu, h⟩ := Res.bind_eq_ok.1 h
          obtain ⟨⟨o1, m⟩, e1, h⟩ := Res.bind_eq_ok.1 h
          cases h
          exact (farLoop_steady _ _ _ _ _ _ _ _ _ _ _ _ _ _ _ _ hb e1).trans f1
    split at h
    · obtain ⟨⟨r1, s1⟩, e1, h⟩ := Res.bind_eq_ok.1 h
      exact goal2 r1 s1 (setupInitialCholesky_steady (s := { s with count := s.count + 1 }) e1) h
    · exact goal2 SUCCESSFUL_RETURN { s with count := s.count + 1 } rfl h

theorem hotstart_steady {sq : K → K} {fuel : Nat} {s : QPB K} {gNew : Nat → K} {lbNew ubNew : Option (Nat → K)} {nWSR : Int}
    {cputime : Option K} {guess : Guess} {o : Out K} (hb : 0 ≤ nWSR) (h : hotstart sq fuel s gNew lbNew ubNew nWSR cputime guess = .ok o) :
    o.s.steady = s.steady := by
  unfold hotstart at h
  split at h
  · cases h; rfl
  · cases guess with
    | null => exact hotstartMain_steady hb h
    | self =>
      obtain ⟨k, e⟩ := startClock_keep s cputime
      dsimp only [Res.bind_ok] at h
      rw [e] at h
      simp only [Res.bind_ok, ne_eq, not_true_eq_false, if_false] at h
      refine (hotstartMain_steady hb h).trans ?_
      obtain ⟨k', e'⟩ := stopClock_keep ({ s with now := k, status := QPS_AUXILIARYQPSOLVED } : QPB K) cputime (s.startClock cputime).1
      rw [e']
      rfl
    | other w =>
      obtain ⟨⟨r, s1⟩, e, h⟩ := Res.bind_eq_ok.1 h
      obtain ⟨k, e1⟩ := startClock_keep s cputime
      rw [e1] at e
      have h1 : s1.steady = s.steady := setupAuxiliaryQP_steady (s := { s with now := k }) e
      dsimp only at h
      split at h
      · cases h; exact h1
      · refine (hotstartMain_steady hb h).trans ?_
        obtain ⟨k', e'⟩ := stopClock_keep ({ s1 with status := QPS_AUXILIARYQPSOLVED } : QPB K) cputime (s.startClock cputime).1
        rw [e']
        exact h1

theorem solveInitialQP_grown {sq : K → K} {fuel : Nat} {s : QPB K} {xOpt yOpt : Option (Nat → K)} {guess : Option WS}
    {R : Option (Nat → K)} {nWSR : Int} {c : Option K} {o : Out K} (hb : 0 ≤ nWSR)
    (h : solveInitialQP sq fuel s xOpt yOpt guess R nWSR c = .ok o) : Grown s.ZeroHessian o.s s.steady := by
  unfold solveInitialQP at h
  obtain ⟨e, he, h⟩ := Res.bind_eq_ok.1 h
  have k0 : (s.startClock c).2.steady = s.steady := by
    obtain ⟨k, e1⟩ := startClock_keep s c
    rw [e1]
    rfl
  have k1 : Grown s.ZeroHessian (stateOf e) s.steady := by
    have k := prepareInitialQP_grown he
    rw [k0] at k
    obtain ⟨k', e1⟩ := startClock_keep s c
    rwa [show (s.startClock c).2.ZeroHessian = s.ZeroHessian by rw [e1]; rfl] at k
  cases e with
  | error o' => cases h; exact k1
  | ok s1 =>
    dsimp only at h
    obtain ⟨o1, e1, h⟩ := Res.bind_eq_ok.1 h
    have k2 : Grown s.ZeroHessian o1.s s.steady := by
      refine .trans (hotstart_steady hb e1) ?_
      obtain ⟨k', e'⟩ := stopClock_keep s1 c (s.startClock c).1
      rw [e']
      exact k1
    split at h
    · cases h; exact k2
    · split at h
      · cases h; exact k2
      · split at h
        · cases h; exact k2
        · cases h
          obtain ⟨_, _, k, f3⟩ := finish_keep o1.s o1.rv o1.nWSR o1.cputime (s.startClock c).1
          rw [f3]
          exact k2

theorem setH_steady (s : QPB K) (H : Option (Nat → K)) : (s.setH H).steady = s.steady := by
  obtain ⟨h', t', e⟩ := setH_frame s H
  rw [e]
  rfl

/-- A cold start is given a zero Hessian, or none, or the object has been told that the Hessian is zero. -/
def ZeroGiven (s : QPB K) (H : Option (Nat → K)) : Prop :=
  s.hessianType = HST_ZERO ∨ H = none ∨ ∃ h, H = some h ∧ ∀ i < s.nV, ∀ j < s.nV, |h (i * s.nV + j)| ≤ EPS

theorem init_grown {sq : K → K} {fuel : Nat} {s : QPB K} {H g lb ub : Option (Nat → K)} {nWSR : Int} {c : Option K}
    {xOpt yOpt : Option (Nat → K)} {guess : Option WS} {R : Option (Nat → K)} {o : Out K} (hb : 0 ≤ nWSR)
    (h : init sq fuel s H g lb ub nWSR c xOpt yOpt guess R = .ok o) : Grown (ZeroGiven s H) o.s s.steady := by
  unfold init at h
  split at h
  · cases h; exact Or.inl rfl
  · have k0 : (if s.status ≠ QPS_NOTINITIALISED then s.reset else s).steady = s.steady := by
      split <;> rfl
    have n0 : (if s.status ≠ QPS_NOTINITIALISED then s.reset else s).nV = s.nV := by
      split <;> rfl
    have z0 : (if s.status ≠ QPS_NOTINITIALISED then s.reset else s).hessianType = HST_ZERO → s.hessianType = HST_ZERO := by
      split
      · intro k; cases k
      · exact id
    dsimp only at h
    generalize (if s.status ≠ QPS_NOTINITIALISED then s.reset else s) = s0 at h k0 n0 z0
    split at h
    · cases h; exact Or.inl k0
    split at h
    · cases h; exact Or.inl k0
    split at h
    · cases h; exact Or.inl k0
    cases g with
    | none =>
      unfold setupQPdata at h
      dsimp only at h
      rw [if_pos (by decide)] at h
      cases h; exact Or.inl ((setH_steady s0 H).trans k0)
    | some g' =>
      have eS : s0.setupQPdata H (some g') lb ub =
          (SUCCESSFUL_RETURN, { s0.setH H with g := g', lb := lowerOf lb, ub := upperOf ub }) := rfl
      rw [eS] at h
      dsimp only at h
      rw [if_neg (by simp)] at h
      have k := solveInitialQP_grown hb h
      rw [show ({ s0.setH H with g := g', lb := lowerOf lb, ub := upperOf ub } : QPB K).steady = s.steady from (setH_steady s0 H).trans k0] at k
      refine k.weaken fun hz => ?_
      cases H with
      | none => exact Or.inr (Or.inl rfl)
      | some h' =>
        rcases hz with hz | hz | ⟨M, hM, hz⟩
        · exact Or.inl (z0 hz)
        · cases hz
        · refine Or.inr (Or.inr ⟨h', rfl, ?_⟩)
          cases hM
          rw [← n0]
          exact hz

end QPB
end QpOASES
