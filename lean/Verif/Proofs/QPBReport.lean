import Verif.Proofs.FarLimits
import Verif.Proofs.Absent

/-!
Reports of infeasibility and unboundedness of the solver for bounds only.
-/
namespace QpOASES
namespace QPB
open Finset SubjectToStatus SubjectToType ReturnValue HessianType QProblemStatus

set_option linter.unusedSectionVars false

variable {K : Type} [Field K] [LinearOrder K] [IsStrictOrderedRing K]

/-! ### setting up the first QP does not change the flags -/

def reports (s : QPB K) : Bool × Bool := (s.infeasible, s.unbounded)

theorem Keep.reports {s s' : QPB K} (h : Keep s s') : s'.reports = s.reports := Prod.ext h.infeasible h.unbounded

theorem auxAdd_reports (sq : K → K) (aux : WS) (b : Bool) : ∀ (m i : Nat) (s : QPB K), (auxAdd sq aux b m i s).2.reports = s.reports := by
  intro m
  induction m with
  | zero => intro i s; rfl
  | succ m ih =>
    intro i s
    unfold auxAdd
    split
    · have h := (addBound_keep sq s i (aux.getStatus i) b).1.reports
      dsimp only
      split
      · exact h
      · exact (ih _ _).trans h
    · exact ih _ _

theorem auxRemove_reports (sq : K → K) (aux : WS) : ∀ (m i : Nat) (s s' : QPB K) (r : ReturnValue), auxRemove sq aux m i s = .ok (r, s') →
    s'.reports = s.reports := by
  intro m
  induction m with
  | zero => intro i s s' r h; cases h; rfl
  | succ m ih =>
    intro i s s' r h
    have one : ∀ (s s' : QPB K) (p : Prop) [Decidable p] (r : ReturnValue),
        (if p then removeBound sq s i true else .ok (SUCCESSFUL_RETURN, s)) = .ok (r, s') → s'.reports = s.reports := by
      intro s s' p _ r h
      split at h
      · exact (removeBound_keep h).1.reports
      · cases h; rfl
    have goal2 : ∀ (r1 : ReturnValue) (s1 : QPB K), s1.reports = s.reports →
        (if r1 ≠ SUCCESSFUL_RETURN then Res.ok (RET_SETUP_WORKINGSET_FAILED, s1) else do
          let (r, s) ← if s1.bounds.getStatus i = ST_UPPER ∧ aux.getStatus i ≠ ST_UPPER then removeBound sq s1 i true
            else .ok (SUCCESSFUL_RETURN, s1)
          if r ≠ SUCCESSFUL_RETURN then .ok (RET_SETUP_WORKINGSET_FAILED, s) else
          auxRemove sq aux m (i+1) s) = .ok (r, s') → s'.reports = s.reports := by
      intro r1 s1 h1 h
      have goal3 : ∀ (r2 : ReturnValue) (s2 : QPB K), s2.reports = s1.reports →
          (if r2 ≠ SUCCESSFUL_RETURN then .ok (RET_SETUP_WORKINGSET_FAILED, s2) else auxRemove sq aux m (i+1) s2) = .ok (r, s') →
          s'.reports = s.reports := by
        intro r2 s2 h2 h
        split at h
        · cases h; exact h2.trans h1
        · exact (ih _ _ _ _ h).trans (h2.trans h1)
      split at h
      · cases h; exact h1
      · split at h
        · obtain ⟨⟨r2, s2⟩, e2, h⟩ := Res.bind_eq_ok.1 h
          exact goal3 r2 s2 (removeBound_keep e2).1.reports h
        · exact goal3 SUCCESSFUL_RETURN s1 rfl h
    unfold auxRemove at h
    split at h
    · obtain ⟨⟨r1, s1⟩, e1, h⟩ := Res.bind_eq_ok.1 h
      exact goal2 r1 s1 (removeBound_keep e1).1.reports h
    · exact goal2 SUCCESSFUL_RETURN s rfl h

theorem setupAuxiliaryWorkingSet_reports {sq : K → K} {s s' : QPB K} {aux : WS} {b : Bool} {r : ReturnValue}
    (h : setupAuxiliaryWorkingSet sq s aux b = .ok (r, s')) : s'.reports = s.reports := by
  unfold setupAuxiliaryWorkingSet at h
  split at h
  · cases h; rfl
  · have goal2 : ∀ (r1 : ReturnValue) (s1 : QPB K), s1.reports = s.reports →
        (if r1 ≠ SUCCESSFUL_RETURN then Res.ok (r1, s1) else .ok (auxAdd sq aux (!b) s1.nV 0 s1)) = .ok (r, s') →
        s'.reports = s.reports := by
      intro r1 s1 h1 h
      split at h
      · cases h; exact h1
      · have h := Res.ok.inj h
        have e : s' = (auxAdd sq aux (!b) s1.nV 0 s1).2 := by rw [h]
        rw [e]
        exact (auxAdd_reports _ _ _ _ _ _).trans h1
    split at h
    · exact goal2 SUCCESSFUL_RETURN s rfl h
    · obtain ⟨⟨r1, s1⟩, e1, h⟩ := Res.bind_eq_ok.1 h
      exact goal2 r1 s1 (auxRemove_reports _ _ _ _ _ _ _ e1) h

theorem setupAuxiliaryQPbounds_reports (b : Bool) : ∀ (m i : Nat) (s : QPB K), (setupAuxiliaryQPbounds b m i s).2.reports = s.reports := by
  intro m
  induction m with
  | zero => intro i s; rfl
  | succ m ih =>
    intro i s
    unfold setupAuxiliaryQPbounds
    split
    · rfl
    · exact ih _ _

theorem regulariseHessian_reports {sq : K → K} {s s' : QPB K} {r : ReturnValue} (h : regulariseHessian sq s = .ok (r, s')) :
    s'.reports = s.reports := by
  unfold regulariseHessian at h
  split at h
  · cases h; rfl
  · split at h
    · cases h; rfl
    · split at h
      · cases h; rfl
      · split at h
        · cases h; rfl
        · obtain ⟨H, _, h⟩ := Res.bind_eq_ok.1 h
          cases h; rfl

theorem determineHessianType_reports (s : QPB K) : (s.determineHessianType).2.reports = s.reports := by
  have hens : ∀ s : QPB K, s.ensureRegularisation.reports = s.reports := by
    intro s
    unfold ensureRegularisation
    split <;> rfl
  unfold determineHessianType
  split
  · exact hens _
  · rfl
  · dsimp only
    split
    · split
      · split <;> rfl
      · rfl
      · split
        · refine (hens _).trans ?_
          split <;> rfl
        · split <;> rfl
    · rfl
  · rfl
  · exact hens _

theorem prepareInitialQP_reports (sq : K → K) (s : QPB K) (xOpt yOpt : Option (Nat → K)) (guess : Option WS) (R : Option (Nat → K))
    (nWSR : Int) (c : Option K) : NoDiv (prepareInitialQP sq s xOpt yOpt guess R nWSR c) ∧
      ∀ s1, prepareInitialQP sq s xOpt yOpt guess R nWSR c = .ok (.ok s1) → s1.reports = s.reports := by
  have aux : ∀ s0 : QPB K, s0.reports = s.reports → NoDiv (prepareAuxiliary sq s0 xOpt yOpt guess R nWSR c) ∧
      ∀ s1, prepareAuxiliary sq s0 xOpt yOpt guess R nWSR c = .ok (.ok s1) → s1.reports = s.reports := by
    intro s0 h0
    have fin : ∀ (r : ReturnValue) (s1 : QPB K), s1.reports = s.reports →
        NoDiv (if r ≠ SUCCESSFUL_RETURN then Res.ok (Except.error (⟨RET_INIT_FAILED_REGULARISATION, nWSR, c, s1⟩ : Out K)) else do
              let s := takeFactor { s1 with haveCholesky := false } (xOpt.isNone && yOpt.isNone && guess.isNone) R
              let (r, s) ← (do
                let s ← setupAuxiliaryQPgradient s
                Res.ok (setupAuxiliaryQPbounds true s.nV 0 s))
              if r ≠ SUCCESSFUL_RETURN then .ok (.error ⟨RET_INIT_FAILED, nWSR, c, s⟩)
              else .ok (.ok { s with status := QPS_AUXILIARYQPSOLVED })) ∧
        ∀ s2, (if r ≠ SUCCESSFUL_RETURN then Res.ok (Except.error (⟨RET_INIT_FAILED_REGULARISATION, nWSR, c, s1⟩ : Out K)) else do
              let s := takeFactor { s1 with haveCholesky := false } (xOpt.isNone && yOpt.isNone && guess.isNone) R
              let (r, s) ← (do
                let s ← setupAuxiliaryQPgradient s
                Res.ok (setupAuxiliaryQPbounds true s.nV 0 s))
              if r ≠ SUCCESSFUL_RETURN then .ok (.error ⟨RET_INIT_FAILED, nWSR, c, s⟩)
              else .ok (.ok { s with status := QPS_AUXILIARYQPSOLVED })) = .ok (.ok s2) → s2.reports = s.reports := by
      intro r s1 h1
      have ht : ∀ b, (takeFactor { s1 with haveCholesky := false } b R).reports = s.reports := by
        intro b
        unfold takeFactor
        split
        · exact h1
        · split
          · exact h1
          · split <;> exact h1
      generalize (xOpt.isNone && yOpt.isNone && guess.isNone) = b
      specialize ht b
      generalize takeFactor { s1 with haveCholesky := false } b R = t at ht ⊢
      constructor
      · split
        · exact .ok _
        · refine .bind (.bind (setupAuxiliaryQPgradient_noDiv _) fun _ => .ok _) fun a => ?_
          try dsimp only
          split <;> exact .ok _
      · intro s2 h
        split at h
        · cases h
        · obtain ⟨⟨r2, s3⟩, e3, h⟩ := Res.bind_eq_ok.1 h
          have h3 : s3.reports = s.reports := by
            obtain ⟨s4, e4, e3⟩ := Res.bind_eq_ok.1 e3
            obtain ⟨g, rfl⟩ := setupAuxiliaryQPgradient_keep e4
            have e3 := Res.ok.inj e3
            have : s3 = (setupAuxiliaryQPbounds true t.nV 0 { t with g := g }).2 := by rw [e3]
            rw [this]
            exact (setupAuxiliaryQPbounds_reports _ _ _ _).trans ht
          dsimp only at h
          split at h
          · cases h
          · cases h; exact h3
    unfold prepareAuxiliary
    split
    · exact ⟨.ok _, fun s1 h => by cases h⟩
    · rename_i w _
      constructor
      · refine .bind' (setupAuxiliaryWorkingSet_noDiv _ _ _ _) fun a e => ?_
        obtain ⟨r, s1⟩ := a
        have h1 := (setupAuxiliaryWorkingSet_reports e).trans h0
        dsimp only
        split
        · exact .ok _
        · split
          · refine .bind' (regulariseHessian_noDiv _ _) fun a e2 => ?_
            obtain ⟨r2, s2⟩ := a
            exact (fin r2 s2 ((regulariseHessian_reports e2).trans h1)).1
          · exact (fin SUCCESSFUL_RETURN s1 h1).1
      · intro s2 h
        obtain ⟨⟨r, s1⟩, e, h⟩ := Res.bind_eq_ok.1 h
        have h1 := (setupAuxiliaryWorkingSet_reports e).trans h0
        dsimp only at h
        split at h
        · cases h
        · split at h
          · obtain ⟨⟨r2, s3⟩, e2, h⟩ := Res.bind_eq_ok.1 h
            exact (fin r2 s3 ((regulariseHessian_reports e2).trans h1)).2 _ h
          · exact (fin SUCCESSFUL_RETURN s1 h1).2 _ h
  unfold prepareInitialQP
  dsimp only
  split
  · exact ⟨.ok _, fun s1 h => by cases h⟩
  · exact aux _ (determineHessianType_reports { s with status := QPS_NOTINITIALISED })

/-! ### the far bound loop -/

theorem solveQP_code {sq : K → K} {s : QPB K} {gNew : Nat → K} {lbNew ubNew : Option (Nat → K)} {nWSR : Int} {c : Option K}
    {p : Int} {o : Out K} (hp : p ≤ nWSR) (h : solveQP sq s gNew lbNew ubNew nWSR c p = .ok o) :
    o.rv ≠ RET_HOTSTART_STOPPED_UNBOUNDEDNESS ∧ o.nWSR ≤ nWSR := by
  by_cases hr : NotReady s
  · rw [solveQP_notReady hr] at h
    cases h
    exact ⟨fun h => (by cases h), le_refl _⟩
  · have hl := solveQP_cases hr hp h
    refine ⟨fun hh => ?_, hl.upper⟩
    rcases hl.outcome with h | h | h
    · rw [hh] at h; cases h.1
    · rw [hh] at h; cases h.1
    · have := h.1
      rw [hh] at this
      unfold Failure at this
      revert this
      decide

theorem regSteps_code (sq : K → K) (gNew : Nat → K) (lbNew ubNew : Option (Nat → K)) (nWSR : Int) (c : Option K) :
    ∀ (m : Nat) (o : Out K) (total : K) (o' : Out K), o.nWSR ≤ nWSR →
      regSteps sq gNew lbNew ubNew nWSR c m o total = .ok o' → o'.rv ≠ RET_HOTSTART_STOPPED_UNBOUNDEDNESS := by
  intro m
  induction m with
  | zero => intro o total o' _ h; cases h; exact fun h => (by cases h)
  | succ m ih =>
    intro o total o' hn h
    obtain ⟨o1, e1, h⟩ := Res.bind_eq_ok.1 h
    obtain ⟨c1, c2⟩ := solveQP_code hn e1
    dsimp only at h
    split at h
    · cases h; exact c1
    · exact ih o1 _ o' c2 h

theorem solveRegularisedQP_code {sq : K → K} {s : QPB K} {gNew : Nat → K} {lbNew ubNew : Option (Nat → K)} {nWSR : Int} {c : Option K}
    {p : Int} {o : Out K} (hp : p ≤ nWSR) (h : solveRegularisedQP sq s gNew lbNew ubNew nWSR c p = .ok o) :
    o.rv ≠ RET_HOTSTART_STOPPED_UNBOUNDEDNESS := by
  unfold solveRegularisedQP at h
  split at h
  · exact (solveQP_code hp h).1
  · obtain ⟨o1, e1, h⟩ := Res.bind_eq_ok.1 h
    obtain ⟨c1, c2⟩ := solveQP_code hp e1
    dsimp only at h
    split at h
    · cases h; exact c1
    · exact regSteps_code _ _ _ _ _ _ _ _ _ _ c2 h

/-- The far limits are the limits given or lie beyond `B`. -/
def Wide (n : Nat) (lbNew ubNew : Option (Nat → K)) (B : K) (lf uf : Nat → K) : Prop :=
  ∀ j < n, (lf j ≤ -B ∨ ∃ l, lbNew = some l ∧ lf j = l j) ∧ (B ≤ uf j ∨ ∃ l, ubNew = some l ∧ uf j = l j)

/-- The ramp does not shrink the far bounds. -/
def RampOK (s : QPB K) : Prop := s.options.enableRamping = true → 0 ≤ s.ramp0 ∧ 0 ≤ s.ramp1

/-- The point is close to a far limit `B` or more away. -/
def NearFar (s : QPB K) (c t : K) (lbNew ubNew : Option (Nat → K)) : Prop :=
  ∃ B lf uf, INFTY ≤ B * c ∧ Wide s.nV lbNew ubNew B lf uf ∧
    ((∃ i < s.nV, (∀ l, lbNew = some l → l i < lf i) ∧ |lf i - s.x i| < B * t) ∨
     (∃ i < s.nV, (∀ u, ubNew = some u → uf i < u i) ∧ |uf i - s.x i| < B * t))

theorem updateFarBounds_wide {s : QPB K} {cur : K} (hn : 0 < s.nV) (hr : RampOK s) (hcur : 0 ≤ cur) {lbNew ubNew : Option (Nat → K)}
    {lf uf : Nat → K} {p : (Nat → K) × (Nat → K)} (e : updateFarBounds s cur s.nV lbNew ubNew s.nV 0 lf uf = .ok p) :
    Wide s.nV lbNew ubNew cur p.1 p.2 := by
  have := updateFarB_wide hn hr hcur s.nV 0 lf uf p.1 p.2 e (fun j hj => absurd hj (Nat.not_lt_zero _))
  rw [Nat.zero_add] at this
  exact this

theorem one_of_two {a b : Nat} (h : ¬ a + b = 0) : a ≠ 0 ∨ b ≠ 0 := by omega

theorem farLoop_report (sq : K → K) (gNew : Nat → K) (lbNew ubNew : Option (Nat → K)) (nWSR : Int) (cputime : Option K) (c t : K) (hc : 0 < c) :
    ∀ (fuel : Nat) (s : QPB K) (far : K) (lf uf : Nat → K) (p : Int) (needed remaining : K) (o : Out K) (m : K),
    p ≤ nWSR → 0 < s.nV → RampOK s → s.options.growFarBounds = c → s.options.boundTolerance = t → 0 ≤ far → Wide s.nV lbNew ubNew far lf uf →
    farLoop sq gNew lbNew ubNew nWSR cputime fuel s far lf uf p needed remaining = .ok (o, m) →
    o.rv = RET_HOTSTART_STOPPED_UNBOUNDEDNESS → o.s.nV = s.nV ∧ NearFar o.s c t lbNew ubNew := by
  intro fuel
  induction fuel with
  | zero => intro s far lf uf p ne re o m _ _ _ _ _ _ _ h; cases h
  | succ fuel ih =>
    intro s far lf uf p ne re o m hp hn hR hg ht hf hw h hrv
    unfold farLoop at h
    dsimp only at h
    rw [Res.bind_eq_ok] at h
    obtain ⟨o1, e1, h⟩ := h
    obtain ⟨f1, f2⟩ := solveRegularisedQP_far hp e1
    have hcode := solveRegularisedQP_code hp e1
    have n1 : o1.s.nV = s.nV := congrArg (fun a => a.2.2.2.2.1) f1
    have g1 : o1.s.options.growFarBounds = c := (congrArg (fun a => a.2.1) f1).trans hg
    have t1 : o1.s.options.boundTolerance = t := (congrArg (fun a => a.2.2.2.2.2.1) f1).trans ht
    have r1 : RampOK o1.s := by
      intro hh
      have a1 : o1.s.options.enableRamping = s.options.enableRamping := congrArg (fun a => a.2.2.2.1) f1
      have a2 : o1.s.ramp0 = s.ramp0 := congrArg (fun a => a.2.2.2.2.2.2.1) f1
      have a3 : o1.s.ramp1 = s.ramp1 := congrArg (fun a => a.2.2.2.2.2.2.2) f1
      rw [a2, a3]
      exact hR (a1 ▸ hh)
    have hfar : 0 ≤ far * o1.s.options.growFarBounds := by rw [g1]; exact mul_nonneg hf hc.le
    split at h
    · split at h
      · cases h; cases hrv
      · obtain ⟨p', ep, h⟩ := Res.bind_eq_ok.1 h
        have hw' := updateFarBounds_wide (by rw [n1]; exact hn) r1 hfar ep
        obtain ⟨k1, k2⟩ := ih { o1.s with rampOffset := o1.s.rampOffset + 1 } _ _ _ _ _ _ o m f2 (by exact n1 ▸ hn) r1 g1 t1 hfar hw' h hrv
        exact ⟨k1.trans n1, k2⟩
    · split at h
      · obtain ⟨q, eq, h⟩ := Res.bind_eq_ok.1 h
        have hq : q = far := by
          rw [g1] at eq
          unfold cdiv at eq
          rw [if_neg hc.ne', Res.ok.injEq] at eq
          rw [← eq, mul_div_assoc, div_self hc.ne', mul_one]
        split at h
        · cases h; exact absurd hrv hcode
        · rename_i hz
          split at h
          · rename_i hinf
            cases h
            refine ⟨n1, far, lf, uf, by rw [← g1]; exact hinf, by show Wide o1.s.nV _ _ _ _ _; rw [n1]; exact hw, ?_⟩
            rw [hq, t1] at hz
            unfold nActiveFar at hz
            rcases one_of_two hz with hz | hz
            · obtain ⟨i, hi, h1⟩ := List.countP_pos_iff.1 (Nat.pos_of_ne_zero hz)
              rw [Bool.and_eq_true] at h1
              refine Or.inl ⟨i, List.mem_range.1 hi, fun l hl => ?_, of_decide_eq_true h1.2⟩
              subst hl
              exact of_decide_eq_true h1.1
            · obtain ⟨i, hi, h1⟩ := List.countP_pos_iff.1 (Nat.pos_of_ne_zero hz)
              rw [Bool.and_eq_true] at h1
              refine Or.inr ⟨i, List.mem_range.1 hi, fun l hl => ?_, of_decide_eq_true h1.2⟩
              subst hl
              exact of_decide_eq_true h1.1
          · obtain ⟨p', ep, h⟩ := Res.bind_eq_ok.1 h
            have hw' := updateFarBounds_wide (s := { o1.s with status := QPS_HOMOTOPYQPSOLVED }) (by exact n1 ▸ hn) r1 hfar ep
            obtain ⟨k1, k2⟩ := ih { o1.s with status := QPS_HOMOTOPYQPSOLVED, rampOffset := o1.s.rampOffset + 1 } _ _ _ _ _ _ o m f2 (by exact n1 ▸ hn) r1 g1 t1 hfar hw' h hrv
            exact ⟨k1.trans n1, k2⟩
      · cases h; exact absurd hrv hcode

/-- A report of unboundedness means that the point is close to a far limit. -/
theorem hotstartMain_report {sq : K → K} {fuel : Nat} {s : QPB K} {gNew : Nat → K} {lbNew ubNew : Option (Nat → K)} {nWSR : Int}
    {cputime : Option K} {a : K} {o : Out K} (hb : 0 ≤ nWSR) (hn : 0 < s.nV) (hR : RampOK s) (hg : 0 < s.options.growFarBounds)
    (hi : 0 ≤ s.options.initialFarBounds) (h : hotstartMain sq fuel s gNew lbNew ubNew nWSR cputime a = .ok o)
    (hrv : o.rv = RET_HOTSTART_STOPPED_UNBOUNDEDNESS) :
    o.s.nV = s.nV ∧ NearFar o.s s.options.growFarBounds s.options.boundTolerance lbNew ubNew := by
  unfold hotstartMain at h
  split at h
  · cases h; cases hrv
  · dsimp only at h
    have goal2 : ∀ (r1 : ReturnValue) (s1 : QPB K), s1.farOptions = s.farOptions → (r1 ≠ RET_HOTSTART_STOPPED_UNBOUNDEDNESS) →
        (if r1 ≠ SUCCESSFUL_RETURN then .ok ⟨r1, nWSR, cputime, s1⟩
        else if s1.options.enableFarBounds = false then
          solveRegularisedQP sq s1 gNew lbNew ubNew nWSR cputime 0
        else do
          let (lf, uf) ← updateFarBounds s1 (s1.initialFar lbNew ubNew) s1.nV lbNew ubNew s1.nV 0 (fun _ => 0) (fun _ => 0)
          let (o, needed) ← farLoop sq gNew lbNew ubNew nWSR cputime fuel s1 (s1.initialFar lbNew ubNew) lf uf 0 0 INFTY
          .ok { o with cputime := cputime.map fun _ => needed + a }) = .ok o →
        o.s.nV = s.nV ∧ NearFar o.s s.options.growFarBounds s.options.boundTolerance lbNew ubNew := by
      intro r1 s1 f1 hne h
      have n1 : s1.nV = s.nV := congrArg (fun a => a.2.2.2.2.1) f1
      split at h
      · cases h; exact absurd hrv hne
      · split at h
        · exact absurd hrv (solveRegularisedQP_code hb h)
        · obtain ⟨⟨lf, uf⟩, eu, h⟩ := Res.bind_eq_ok.1 h
          obtain ⟨⟨o1, m⟩, e1, h⟩ := Res.bind_eq_ok.1 h
          cases h
          have r1 : RampOK s1 := by
            intro hh
            have a1 : s1.options.enableRamping = s.options.enableRamping := congrArg (fun a => a.2.2.2.1) f1
            have a2 : s1.ramp0 = s.ramp0 := congrArg (fun a => a.2.2.2.2.2.2.1) f1
            have a3 : s1.ramp1 = s.ramp1 := congrArg (fun a => a.2.2.2.2.2.2.2) f1
            rw [a2, a3]
            exact hR (a1 ▸ hh)
          have h0 : 0 ≤ s1.initialFar lbNew ubNew := by
            refine le_trans ?_ (initialFar_spec s1 lbNew ubNew).1
            have a1 : s1.options.initialFarBounds = s.options.initialFarBounds := congrArg (fun a => a.1) f1
            rw [a1]; exact hi
          have hw := updateFarBounds_wide (n1 ▸ hn) r1 h0 eu
          obtain ⟨k1, k2⟩ := farLoop_report sq gNew lbNew ubNew nWSR cputime s.options.growFarBounds s.options.boundTolerance hg fuel s1 _ lf uf 0 0
            INFTY o1 m hb (n1 ▸ hn) r1 (congrArg (fun a => a.2.1) f1) (congrArg (fun a => a.2.2.2.2.2.1) f1) h0 hw e1 hrv
          exact ⟨k1.trans n1, k2⟩
    split at h
    · obtain ⟨⟨r1, s1⟩, e1, h⟩ := Res.bind_eq_ok.1 h
      refine goal2 r1 s1 (setupInitialCholesky_far (s := { s with count := s.count + 1 }) e1) ?_ h
      obtain ⟨-, -, -, -, -, d6⟩ := setupInitialCholesky_keep e1
      rcases d6 with d | d | d <;> rw [d] <;> decide
    · exact goal2 SUCCESSFUL_RETURN { s with count := s.count + 1 } rfl (by decide) h

theorem hotstart_report {sq : K → K} {fuel : Nat} {s : QPB K} {gNew : Nat → K} {lbNew ubNew : Option (Nat → K)} {nWSR : Int}
    {cputime : Option K} {guess : Guess} {o : Out K} (hb : 0 ≤ nWSR) (hR : RampOK s) (hg : 0 < s.options.growFarBounds)
    (hi : 0 ≤ s.options.initialFarBounds) (h : hotstart sq fuel s gNew lbNew ubNew nWSR cputime guess = .ok o)
    (hrv : o.rv = RET_HOTSTART_STOPPED_UNBOUNDEDNESS) :
    o.s.nV = s.nV ∧ NearFar o.s s.options.growFarBounds s.options.boundTolerance lbNew ubNew := by
  unfold hotstart at h
  split at h
  · cases h; cases hrv
  · rename_i hn
    have main : ∀ (s1 : QPB K) (c : Option K) (a : K), s1.farOptions = s.farOptions →
        hotstartMain sq fuel s1 gNew lbNew ubNew nWSR c a = .ok o →
        o.s.nV = s.nV ∧ NearFar o.s s.options.growFarBounds s.options.boundTolerance lbNew ubNew := by
      intro s1 c a f1 h
      have n1 : s1.nV = s.nV := congrArg (fun a => a.2.2.2.2.1) f1
      have a0 : s1.options.initialFarBounds = s.options.initialFarBounds := congrArg (fun a => a.1) f1
      have a1 : s1.options.enableRamping = s.options.enableRamping := congrArg (fun a => a.2.2.2.1) f1
      have a2 : s1.ramp0 = s.ramp0 := congrArg (fun a => a.2.2.2.2.2.2.1) f1
      have a3 : s1.ramp1 = s.ramp1 := congrArg (fun a => a.2.2.2.2.2.2.2) f1
      have g1 : s1.options.growFarBounds = s.options.growFarBounds := congrArg (fun a => a.2.1) f1
      have t1 : s1.options.boundTolerance = s.options.boundTolerance := congrArg (fun a => a.2.2.2.2.2.1) f1
      have := hotstartMain_report hb (by rw [n1]; exact Nat.pos_of_ne_zero hn) (fun hh => by rw [a2, a3]; exact hR (a1 ▸ hh)) (by rw [g1]; exact hg)
        (by rw [a0]; exact hi) h hrv
      rw [n1, g1, t1] at this
      exact this
    cases guess with
    | null => exact main _ _ _ rfl h
    | self =>
      obtain ⟨k, e⟩ := startClock_keep s cputime
      dsimp only [Res.bind_ok] at h
      rw [e] at h
      simp only [Res.bind_ok, ne_eq, not_true_eq_false, if_false] at h
      refine main _ _ _ ?_ h
      obtain ⟨k', e'⟩ := stopClock_keep ({ s with now := k, status := QPS_AUXILIARYQPSOLVED } : QPB K) cputime (s.startClock cputime).1
      rw [e']
      rfl
    | other w =>
      obtain ⟨⟨r, s1⟩, e, h⟩ := Res.bind_eq_ok.1 h
      dsimp only at h
      split at h
      · cases h; cases hrv
      · refine main _ _ _ ?_ h
        obtain ⟨k, e1⟩ := startClock_keep s cputime
        obtain ⟨k', e'⟩ := stopClock_keep ({ s1 with status := QPS_AUXILIARYQPSOLVED } : QPB K) cputime (s.startClock cputime).1
        rw [e']
        rw [e1] at e
        have h1 : s1.farOptions = s.farOptions := setupAuxiliaryQP_far (s := { s with now := k }) e
        exact h1

end QPB
end QpOASES
