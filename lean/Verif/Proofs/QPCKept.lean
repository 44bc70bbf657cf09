import Verif.Proofs.QPBKept
import Verif.Proofs.QPCAdopt

/-!
Which options the solver for general constraints changes.
-/
namespace QpOASES
namespace QPC
open Finset SubjectToStatus SubjectToType ReturnValue HessianType QProblemStatus

set_option linter.unusedSectionVars false

variable {K : Type} [Field K] [LinearOrder K] [IsStrictOrderedRing K]

/-- All options but the size of the regularisation. -/
def steady (s : QPC K) : Options K := s.toQPB.steady

/-- All options but the size of the regularisation and the full tests for linear independence. -/
def light (s : QPC K) : Options K := { s.steady with enableFullLITests := false }

theorem steady_light {s s' : QPC K} (h : s'.steady = s.steady) : s'.light = s.light := by unfold light; rw [h]

theorem lasting_steady {s s' : QPC K} (h : s'.lasting = s.lasting) : s'.steady = s.steady :=
  congrArg (fun p => p.2.2.2.2.2.2.2.2.1) h

theorem base_light {s s' : QPC K} (h : s'.base = s.base) : s'.light = s.light :=
  steady_light (lasting_steady (congrArg Prod.fst h))

/-- The object in which setting up the auxiliary QP ends, with success or not. -/
def stateOf : Except (OutC K) (QPC K) → QPC K
  | .error o => o.s
  | .ok s => s

theorem setupAuxiliaryWorkingSet_light {sq : K → K} {auxB auxC : Option WS} {b : Bool} {s s' : QPC K} {r : ReturnValue}
    (h : setupAuxiliaryWorkingSet sq s auxB auxC b = .ok (r, s')) : s'.light = s.light := by
  unfold setupAuxiliaryWorkingSet at h
  split at h
  · cases h; rfl
  split at h
  · cases h; rfl
  split at h
  · cases h
    unfold fixAll
    split <;> rfl
  · dsimp only at h
    obtain ⟨⟨r1, s1⟩, e1, h⟩ := Res.bind_eq_ok.1 h
    have a := base_light (auxLoops_adapted e1).base
    have a : s1.light = s.light := a
    dsimp only at h
    split at h
    · cases h; exact a
    · cases h
      show ({ s1.light with epsLITests := s.options.epsLITests } : Options K) = s.light
      rw [a]
      rfl

theorem auxBoundsB_light (aux : Option WS) : ∀ (m i : Nat) (s : QPC K), (auxBoundsB aux m i s).2.light = s.light := by
  intro m
  induction m with
  | zero => intro i s; rfl
  | succ m ih =>
    intro i s
    unfold auxBoundsB
    split
    · rfl
    · exact (ih _ _).trans rfl

theorem auxBoundsC_light (aux : Option WS) : ∀ (m i : Nat) (s : QPC K), (auxBoundsC aux m i s).2.light = s.light := by
  intro m
  induction m with
  | zero => intro i s; rfl
  | succ m ih =>
    intro i s
    unfold auxBoundsC
    split
    · rfl
    · exact (ih _ _).trans rfl

theorem setupAuxiliaryQPbounds_light (s : QPC K) (aux : Option (WS × WS)) : (setupAuxiliaryQPbounds s aux).2.light = s.light := by
  unfold setupAuxiliaryQPbounds
  have h1 := auxBoundsB_light (aux.map (·.1)) s.nV 0 s
  generalize auxBoundsB (aux.map (·.1)) s.nV 0 s = p at h1
  obtain ⟨r, s1⟩ := p
  dsimp only at h1 ⊢
  split
  · exact h1
  · exact (auxBoundsC_light _ _ _ _).trans h1

theorem setupAuxiliaryQPdata_light {s s' : QPC K} (h : setupAuxiliaryQPdata s = .ok s') : s'.light = s.light := by
  unfold setupAuxiliaryQPdata at h
  dsimp only at h
  obtain ⟨s1, e1, h⟩ := Res.bind_eq_ok.1 h
  obtain ⟨g, e⟩ := setupAuxiliaryQPgradient_fields e1
  cases h
  refine (setupAuxiliaryQPbounds_light _ _).trans ?_
  rw [e]
  rfl

theorem setupAuxiliaryQP_light {sq : K → K} {gB gC : Option WS} {s s' : QPC K} {r : ReturnValue}
    (h : setupAuxiliaryQP sq s gB gC = .ok (r, s')) : s'.light = s.light := by
  unfold setupAuxiliaryQP at h
  split at h
  · cases h; rfl
  · dsimp only at h
    split at h
    · obtain ⟨⟨r1, s1⟩, e1, h⟩ := Res.bind_eq_ok.1 h
      have a1 := setupAuxiliaryWorkingSet_light e1
      have a1 : s1.light = s.light := a1
      dsimp only at h
      obtain ⟨⟨r2, s2⟩, e2, h⟩ := Res.bind_eq_ok.1 h
      have a2 := base_light (still_base (computeProjectedCholesky_still e2).1)
      dsimp only at h
      split at h
      · cases h; exact a2.trans a1
      · obtain ⟨s3, e3, h⟩ := Res.bind_eq_ok.1 h
        cases h
        exact (setupAuxiliaryQPdata_light e3).trans (a2.trans a1)
    · obtain ⟨⟨r1, s1⟩, e1, h⟩ := Res.bind_eq_ok.1 h
      have a1 := setupAuxiliaryWorkingSet_light e1
      have a1 : s1.light = s.light := a1
      dsimp only at h
      obtain ⟨s3, e3, h⟩ := Res.bind_eq_ok.1 h
      cases h
      exact (setupAuxiliaryQPdata_light e3).trans a1

theorem prepareAuxiliary_light {sq : K → K} {s : QPC K} {xOpt yOpt : Option (Nat → K)} {gB gC : Option WS} {R : Option (Nat → K)}
    {nWSR : Int} {c : Option K} {e : Except (OutC K) (QPC K)} (h : prepareAuxiliary sq s xOpt yOpt gB gC R nWSR c = .ok e) :
    (stateOf e).light = s.light := by
  unfold prepareAuxiliary at h
  split at h
  · rename_i auxB auxC _ _
    have goal2 : ∀ (r1 : ReturnValue) (s1 : QPC K), s1.light = s.light →
        (if r1 ≠ SUCCESSFUL_RETURN then Res.ok (Except.error ⟨RET_INIT_FAILED_REGULARISATION, nWSR, c, s1⟩) else do
          let s := s1.setupTQfactorisation
          let (r, s) ← setupAuxiliaryWorkingSet sq s (some auxB) (some auxC) true
          if r ≠ SUCCESSFUL_RETURN then .ok (.error ⟨RET_INIT_FAILED, nWSR, c, s⟩) else do
          let s := { s with toQPB := QPB.takeFactor { s.toQPB with haveCholesky := false } (xOpt.isNone && yOpt.isNone && gB.isNone && gC.isNone) R }
          let s ← setupAuxiliaryQPgradient s
          match setupAuxiliaryQPbounds s (some (auxB, auxC)) with
          | (r, s) =>
            if r ≠ SUCCESSFUL_RETURN then .ok (.error ⟨RET_INIT_FAILED, nWSR, c, s⟩) else
            let s := { s with status := QPS_AUXILIARYQPSOLVED }
            if s.options.enableRamping then do
              let s ← performRamping s
              .ok (.ok s)
            else .ok (.ok s)) = .ok e → (stateOf e).light = s.light := by
      intro r1 s1 a1 h
      split at h
      · cases h; exact a1
      · dsimp only at h
        obtain ⟨⟨r2, s2⟩, e2, h⟩ := Res.bind_eq_ok.1 h
        have a2 := setupAuxiliaryWorkingSet_light e2
        have a2 : s2.light = s.light := a2.trans a1
        dsimp only at h
        split at h
        · cases h; exact a2
        · obtain ⟨s3, e3, h⟩ := Res.bind_eq_ok.1 h
          obtain ⟨g, f3⟩ := setupAuxiliaryQPgradient_fields e3
          have a3 : s3.light = s.light := by
            rw [f3]
            have : ∀ b : Bool, ({ s2 with toQPB := QPB.takeFactor { s2.toQPB with haveCholesky := false } b R } : QPC K).light = s2.light := by
              intro b
              have : ∃ R' hc, QPB.takeFactor { s2.toQPB with haveCholesky := false } b R = { s2.toQPB with R := R', haveCholesky := hc } := by
                unfold QPB.takeFactor
                repeat' split
                all_goals exact ⟨_, _, rfl⟩
              obtain ⟨R', hc, e⟩ := this
              rw [e]
              rfl
            exact (this _).trans a2
          have a4 := (setupAuxiliaryQPbounds_light s3 (some (auxB, auxC))).trans a3
          generalize setupAuxiliaryQPbounds s3 (some (auxB, auxC)) = p at h a4
          obtain ⟨r4, s4⟩ := p
          dsimp only at h a4
          split at h
          · cases h; exact a4
          · split at h
            · obtain ⟨s5, e5, h⟩ := Res.bind_eq_ok.1 h
              cases h
              have q := (performRamping_still e5).1
              have b5 := base_light (still_base q)
              exact b5.trans a4
            · cases h; exact a4
    split at h
    · obtain ⟨⟨r1, s1⟩, e1, h⟩ := Res.bind_eq_ok.1 h
      obtain ⟨H, v, f⟩ := regulariseHessian_fields e1
      exact goal2 r1 s1 (by rw [f]; rfl) h
    · exact goal2 SUCCESSFUL_RETURN s rfl h
  · cases h; rfl

theorem solveRegularisedQP_steady {sq : K → K} {s : QPC K} {gNew : Nat → K} {lbNew ubNew lbANew ubANew : Option (Nat → K)} {nWSR : Int}
    {c : Option K} {p : Int} {o : OutC K} (hp : p ≤ nWSR)
    (h : solveRegularisedQP sq s gNew lbNew ubNew lbANew ubANew nWSR c p = .ok o) : o.s.steady = s.steady ∧ o.nWSR ≤ nWSR := by
  by_cases hr : QPB.NotReady s.toQPB
  · obtain ⟨c', e⟩ := solveRegularisedQP_notReady hr sq gNew lbNew ubNew lbANew ubANew nWSR c p
    rw [e] at h
    cases h
    exact ⟨rfl, le_rfl⟩
  · have S := solveRegularisedQP_cases hr hp h
    exact ⟨lasting_steady S.lasting, S.upper⟩

theorem farLoop_steady (sq : K → K) (gNew : Nat → K) (lbNew ubNew lbANew ubANew : Option (Nat → K)) (nWSR : Int) (cputime : Option K) :
    ∀ (fuel : Nat) (s : QPC K) (far : K) (f : Far K) (p : Int) (needed remaining : K) (o : OutC K) (m : K), p ≤ nWSR →
    farLoop sq gNew lbNew ubNew lbANew ubANew nWSR cputime fuel s far f p needed remaining = .ok (o, m) → o.s.steady = s.steady := by
  intro fuel
  induction fuel with
  | zero => intro s far f p ne re o m _ h; cases h
  | succ fuel ih =>
    intro s far f p ne re o m hp h
    unfold farLoop at h
    dsimp only at h
    rw [Res.bind_eq_ok] at h
    obtain ⟨o1, e1, h⟩ := h
    obtain ⟨f1, f2⟩ := solveRegularisedQP_steady hp e1
    split at h
    · split at h
      · cases h; exact f1
      · obtain ⟨p', ep, h⟩ := Res.bind_eq_ok.1 h
        exact (ih { o1.s with rampOffset := o1.s.rampOffset + 1 } _ _ _ _ _ o m f2 h).trans f1
    · split at h
      · obtain ⟨q, eq, h⟩ := Res.bind_eq_ok.1 h
        split at h
        · cases h; exact f1
        · split at h
          · cases h; exact f1
          · obtain ⟨p', ep, h⟩ := Res.bind_eq_ok.1 h
            exact (ih { o1.s with status := QPS_HOMOTOPYQPSOLVED, rampOffset := o1.s.rampOffset + 1 } _ _ _ _ _ o m f2 h).trans f1
      · cases h; exact f1

theorem hotstartMain_steady {sq : K → K} {fuel : Nat} {s : QPC K} {gNew : Nat → K} {lbNew ubNew lbANew ubANew : Option (Nat → K)}
    {nWSR : Int} {cputime : Option K} {a : K} {o : OutC K} (hb : 0 ≤ nWSR)
    (h : hotstartMain sq fuel s gNew lbNew ubNew lbANew ubANew nWSR cputime a = .ok o) : o.s.steady = s.steady := by
  unfold hotstartMain at h
  split at h
  · cases h; rfl
  · dsimp only at h
    have goal2 : ∀ (r1 : ReturnValue) (s1 : QPC K), s1.steady = s.steady →
        (if r1 ≠ SUCCESSFUL_RETURN then .ok ⟨r1, nWSR, cputime, s1⟩
        else if s1.options.enableFarBounds = false then
          solveRegularisedQP sq s1 gNew lbNew ubNew lbANew ubANew nWSR cputime 0
        else do
          let f ← updateFarBounds s1 (s1.initialFar lbNew ubNew lbANew ubANew) lbNew ubNew lbANew ubANew ⟨fun _ => 0, fun _ => 0, fun _ => 0, fun _ => 0⟩
          let (o, needed) ← farLoop sq gNew lbNew ubNew lbANew ubANew nWSR cputime fuel s1 (s1.initialFar lbNew ubNew lbANew ubANew) f 0 0 INFTY
          .ok { o with cputime := cputime.map fun _ => needed + a }) = .ok o → o.s.steady = s.steady := by
      intro r1 s1 f1 h
      split at h
      · cases h; exact f1
      · split at h
        · exact (solveRegularisedQP_steady hb h).1.trans f1
        · obtain ⟨f, eu, h⟩ := Res.bind_eq_ok.1 h
          obtain ⟨⟨o1, m⟩, e1, h⟩ := Res.bind_eq_ok.1 h
          cases h
          exact (farLoop_steady _ _ _ _ _ _ _ _ _ _ _ _ _ _ _ _ _ hb e1).trans f1
    split at h
    · obtain ⟨⟨r1, s1⟩, e1, h⟩ := Res.bind_eq_ok.1 h
      obtain ⟨⟨H, v, R, Q, t, e, hc, e2⟩, _⟩ := setupInitialCholesky_fields e1
      exact goal2 r1 s1 (by rw [e2]; rfl) h
    · exact goal2 SUCCESSFUL_RETURN { s with count := s.count + 1 } rfl h

theorem hotstart_null_steady {sq : K → K} {fuel : Nat} {s : QPC K} {gNew : Nat → K} {lbNew ubNew lbANew ubANew : Option (Nat → K)}
    {nWSR : Int} {cputime : Option K} {o : OutC K} (hb : 0 ≤ nWSR)
    (h : hotstart sq fuel s gNew lbNew ubNew lbANew ubANew nWSR cputime .null .null = .ok o) : o.s.steady = s.steady := by
  unfold hotstart at h
  split at h
  · cases h; rfl
  · exact hotstartMain_steady hb h

theorem hotstart_light {sq : K → K} {fuel : Nat} {s : QPC K} {gNew : Nat → K} {lbNew ubNew lbANew ubANew : Option (Nat → K)}
    {nWSR : Int} {cputime : Option K} {gB gC : QPB.Guess} {o : OutC K} (hb : 0 ≤ nWSR)
    (h : hotstart sq fuel s gNew lbNew ubNew lbANew ubANew nWSR cputime gB gC = .ok o) : o.s.light = s.light := by
  unfold hotstart at h
  split at h
  · cases h; rfl
  · split at h
    · exact steady_light (hotstartMain_steady hb h)
    · dsimp only at h
      obtain ⟨⟨r, s1⟩, e, h⟩ := Res.bind_eq_ok.1 h
      obtain ⟨k, e1⟩ := startClock_fields s cputime
      rw [e1] at e
      have h1 : s1.light = s.light := (setupAuxiliaryQP_light e).trans (by rfl)
      dsimp only at h
      split at h
      · cases h; exact h1
      · refine (steady_light (hotstartMain_steady hb h)).trans ?_
        obtain ⟨k', e'⟩ := stopClock_fields ({ s1 with status := QPS_AUXILIARYQPSOLVED } : QPC K) cputime (s.toQPB.startClock cputime).1
        refine (congrArg light e').trans ?_
        exact h1

/-- The options of `s'` are `o`, up to the size of the regularisation and the full tests for linear independence, or regularisation has
been switched on with one step, which takes `Z`. -/
def Widened (Z : Prop) (s' : QPC K) (o : Options K) : Prop :=
  s'.light = o ∨ (Z ∧ o.enableRegularisation = false ∧ s'.light = { o with enableRegularisation := true, numRegularisationSteps := 1 })

theorem Widened.trans {Z : Prop} {s s' : QPC K} {o : Options K} (h : s'.light = s.light) (g : Widened Z s o) : Widened Z s' o := by
  unfold Widened
  rw [h]
  exact g

theorem prepareInitialQP_grown {sq : K → K} {s : QPC K} {xOpt yOpt : Option (Nat → K)} {gB gC : Option WS} {R : Option (Nat → K)}
    {nWSR : Int} {c : Option K} {e : Except (OutC K) (QPC K)} (h : prepareInitialQP sq s xOpt yOpt gB gC R nWSR c = .ok e) :
    Widened s.toQPB.ZeroHessian (stateOf e) s.light := by
  have hd : QPB.Grown s.toQPB.ZeroHessian ({ s.toQPB with status := QPS_NOTINITIALISED } : QPB K).determineHessianType.2 s.toQPB.steady :=
    QPB.determineHessianType_grown { s.toQPB with status := QPS_NOTINITIALISED }
  unfold prepareInitialQP at h
  generalize ({ s.toQPB with status := QPS_NOTINITIALISED } : QPB K).determineHessianType = p at h hd
  obtain ⟨r, b⟩ := p
  dsimp only at h hd
  have hd' : Widened s.toQPB.ZeroHessian ({ s with toQPB := b } : QPC K) s.light := by
    rcases hd with hd | ⟨z, h1, h2⟩
    · exact Or.inl (steady_light hd)
    · refine Or.inr ⟨z, h1, ?_⟩
      show ({ b.steady with enableFullLITests := false } : Options K) = _
      rw [h2]
      rfl
  split at h
  · cases h; exact hd'
  · exact .trans (prepareAuxiliary_light h) hd'

theorem solveInitialQP_grown {sq : K → K} {fuel : Nat} {s : QPC K} {xOpt yOpt : Option (Nat → K)} {gB gC : Option WS}
    {R : Option (Nat → K)} {nWSR : Int} {c : Option K} {o : OutC K} (hb : 0 ≤ nWSR)
    (h : solveInitialQP sq fuel s xOpt yOpt gB gC R nWSR c = .ok o) : Widened s.toQPB.ZeroHessian o.s s.light := by
  unfold solveInitialQP at h
  dsimp only at h
  obtain ⟨e, he, h⟩ := Res.bind_eq_ok.1 h
  have k1 : Widened s.toQPB.ZeroHessian (stateOf e) s.light := by
    obtain ⟨k, e1⟩ := startClock_fields s c
    rw [e1] at he
    have k' := prepareInitialQP_grown he
    exact k'
  cases e with
  | error o' => cases h; exact k1
  | ok s1 =>
    dsimp only at h
    obtain ⟨o1, e1, h⟩ := Res.bind_eq_ok.1 h
    have k2 : Widened s.toQPB.ZeroHessian o1.s s.light := by
      refine .trans (hotstart_light hb e1) ?_
      obtain ⟨k', e'⟩ := stopClock_fields s1 c (s.toQPB.startClock c).1
      rw [e']
      exact k1
    split at h
    · cases h; exact k2
    · split at h
      · cases h; exact k2
      · split at h
        · cases h; exact k2
        · cases h
          obtain ⟨_, _, k, f3⟩ := finish_fields o1.s o1.rv o1.nWSR o1.cputime (s.toQPB.startClock c).1
          rw [f3]
          exact k2

/-- Storing the data: options and sizes remain, and the Hessian is the one that is given. -/
theorem setupQPdata_zero (s : QPC K) (H g A lb ub lbA ubA : Option (Nat → K)) :
    (s.setupQPdata H g A lb ub lbA ubA).2.light = s.light ∧ ((s.setupQPdata H g A lb ub lbA ubA).2.toQPB.ZeroHessian → QPB.ZeroGiven s.toQPB H) := by
  have hH : (s.toQPB.setH H).steady = s.toQPB.steady := QPB.setH_steady _ _
  have hz : (s.toQPB.setH H).ZeroHessian → QPB.ZeroGiven s.toQPB H := by
    intro hz
    cases H with
    | none => exact Or.inr (Or.inl rfl)
    | some h' =>
      rcases hz with hz | hz | ⟨M, hM, hz⟩
      · exact Or.inl hz
      · cases hz
      · refine Or.inr (Or.inr ⟨h', rfl, ?_⟩)
        cases hM
        exact hz
  have hb : (s.toQPB.setupQPdata H g lb ub).2.steady = s.toQPB.steady ∧
      ((s.toQPB.setupQPdata H g lb ub).2.ZeroHessian → QPB.ZeroGiven s.toQPB H) := by
    unfold QPB.setupQPdata
    cases g with
    | none => exact ⟨hH, hz⟩
    | some g => exact ⟨hH, hz⟩
  unfold setupQPdata
  generalize s.toQPB.setupQPdata H g lb ub = p at hb
  obtain ⟨r, b⟩ := p
  dsimp only at hb ⊢
  have hb' : ({ s with toQPB := b } : QPC K).light = s.light := steady_light hb.1
  split
  · exact ⟨hb', hb.2⟩
  · split
    · exact ⟨hb', hb.2⟩
    · split
      · exact ⟨hb', hb.2⟩
      · exact ⟨hb', hb.2⟩

theorem init_grown {sq : K → K} {fuel : Nat} {s : QPC K} {H g A lb ub lbA ubA : Option (Nat → K)} {nWSR : Int} {c : Option K}
    {xOpt yOpt : Option (Nat → K)} {gB gC : Option WS} {R : Option (Nat → K)} {o : OutC K} (hb : 0 ≤ nWSR)
    (h : init sq fuel s H g A lb ub lbA ubA nWSR c xOpt yOpt gB gC R = .ok o) : Widened (QPB.ZeroGiven s.toQPB H) o.s s.light := by
  unfold init at h
  split at h
  · cases h; exact Or.inl rfl
  · have k0 : (if s.status ≠ QPS_NOTINITIALISED then s.reset else s).light = s.light := by
      split <;> rfl
    have z0 : QPB.ZeroGiven (if s.status ≠ QPS_NOTINITIALISED then s.reset else s).toQPB H → QPB.ZeroGiven s.toQPB H := by
      split
      · intro k
        rcases k with k | k
        · cases k
        · exact Or.inr k
      · exact id
    dsimp only at h
    generalize (if s.status ≠ QPS_NOTINITIALISED then s.reset else s) = s0 at h k0 z0
    split at h
    · cases h; exact Or.inl k0
    split at h
    · cases h; exact Or.inl k0
    split at h
    · cases h; exact Or.inl k0
    split at h
    · cases h; exact Or.inl k0
    obtain ⟨d1, d2⟩ := setupQPdata_zero s0 H g A lb ub lbA ubA
    generalize s0.setupQPdata H g A lb ub lbA ubA = p at h d1 d2
    obtain ⟨r, s1⟩ := p
    dsimp only at h d1 d2
    split at h
    · cases h; exact Or.inl (d1.trans k0)
    · have k := solveInitialQP_grown hb h
      rw [d1, k0] at k
      exact k.imp id fun k => ⟨z0 (d2 k.1), k.2⟩

end QPC
end QpOASES
