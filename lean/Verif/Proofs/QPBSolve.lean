import Verif.Proofs.QPBLoop

/-!
The main loop of the bound-constrained solver keeps its invariant, and stops successfully only at a solution.
-/
namespace QpOASES
open Finset Props SubjectToStatus SubjectToType ReturnValue HessianType QProblemStatus

variable {K : Type} [Field K] [LinearOrder K] [IsStrictOrderedRing K]

namespace QPB

/-- Members that the invariant does not mention. -/
theorem Inv.frame {s : QPB K} (h : s.Inv) (tau : K) (inf unb : Bool) (st : QProblemStatus) (count off now : Nat)
    (flip : Option (WS × (Nat → Nat → K))) :
    ({ s with
        tau := tau
        infeasible := inf
        unbounded := unb
        status := st
        count := count
        rampOffset := off
        now := now
        flip := flip } : QPB K).Inv :=
  ⟨h.ws, h.n, ⟨h.factor.scalar, h.factor.stored⟩, h.sym,
    ⟨h.opt.stat, h.opt.lower, h.opt.upper, h.opt.inactive, h.opt.box, h.opt.eq⟩, h.options, h.ramp⟩

/-- The requested limits do not cross, and agree for variables treated as equalities. -/
structure Target (s : QPB K) (lbN ubN : Nat → K) : Prop where
  box : ∀ i < s.nV, lbN i ≤ ubN i
  eq : ∀ i < s.nV, s.bounds.type i = ST_EQUALITY → lbN i = ubN i

/-- A refactorisation, if it is due and succeeds, has no pivot below `ZERO`. -/
def RefacClean (sq : K → K) (s : QPB K) (iter : Int) : Prop :=
  s.options.enableCholeskyRefactorisation > 0 ∧ iter % s.options.enableCholeskyRefactorisation = 0 →
    ∀ s', computeCholesky sq s = .ok (SUCCESSFUL_RETURN, s') → DiagOK s'.bounds.nFR s'.R

/-- Nothing in the iteration starting from `s` falls strictly between zero and a tolerance. -/
structure IterClean (sq : K → K) (s : QPB K) (gNew : Nat → K) (lbN ubN : Nat → K) (iter : Int) : Prop where
  shift : s.deltaIsZero (fun i => lbN i - s.lb i) (fun i => ubN i - s.ub i) = true → ∀ i ∈ s.bounds.fixed,
    (if s.bounds.status i = ST_LOWER then lbN i - s.lb i else ubN i - s.ub i) = 0
  tiny : ∀ d, determineStepDirection s (fun i => gNew i - s.g i) (fun i => lbN i - s.lb i) (fun i => ubN i - s.ub i)
      (s.deltaIsZero (fun i => lbN i - s.lb i) (fun i => ubN i - s.ub i)) = .ok (some d) →
    NoTiny s (fun i => lbN i - s.lb i) (fun i => ubN i - s.ub i) d
  length : ∀ d, determineStepDirection s (fun i => gNew i - s.g i) (fun i => lbN i - s.lb i) (fun i => ubN i - s.ub i)
      (s.deltaIsZero (fun i => lbN i - s.lb i) (fun i => ubN i - s.ub i)) = .ok (some d) →
    ∀ tau bc, stepLength s (fun i => lbN i - s.lb i) (fun i => ubN i - s.ub i) d = .ok (tau, bc) → tau = 0 ∨ ZERO < tau
  refac : ∀ d, determineStepDirection s (fun i => gNew i - s.g i) (fun i => lbN i - s.lb i) (fun i => ubN i - s.ub i)
      (s.deltaIsZero (fun i => lbN i - s.lb i) (fun i => ubN i - s.ub i)) = .ok (some d) →
    ∀ s1 bc, performStep s (fun i => gNew i - s.g i) (fun i => lbN i - s.lb i) (fun i => ubN i - s.ub i) d = .ok (s1, bc) →
    ∀ s2, changeActiveSet sq s1 bc = .ok (SUCCESSFUL_RETURN, s2) → RefacClean sq s2 iter

theorem Inv.hasH {s : QPB K} (h : s.Inv) : ¬ s.scalarH → s.H ≠ none := fun hs => (h.factor.stored hs).1

/-- Replacing data, keeping the rest. -/
theorem Inv.withData {s : QPB K} (h : s.Inv) {g l u y : Nat → K} {off : Nat}
    (ho : ({ s with g := g, lb := l, ub := u, y := y, rampOffset := off } : QPB K).Opt) :
    ({ s with g := g, lb := l, ub := u, y := y, rampOffset := off } : QPB K).Inv :=
  ⟨h.ws, h.n, ⟨h.factor.scalar, h.factor.stored⟩, h.sym, ho, h.options, h.ramp⟩

/-- Ramping or drift correction at the end of an iteration. -/
theorem correct_spec {s : QPB K} (h : s.Inv) (iter : Int) :
    ∃ s', (do
      let s ← if s.tau ≤ EPS ∧ s.options.enableRamping = true then performRamping s
        else if s.options.enableDriftCorrection > 0 ∧ (iter + 1) % s.options.enableDriftCorrection = 0 then performDriftCorrection s
        else .ok s
      Res.ok (Except.ok (ε := Out K) ({ s with status := QPS_HOMOTOPYQPSOLVED } : QPB K))) = .ok (.ok s') ∧ s'.Inv ∧ SameProblem s' s ∧
      s'.status = QPS_HOMOTOPYQPSOLVED := by
  by_cases h1 : s.tau ≤ EPS ∧ s.options.enableRamping = true
  · rw [if_pos h1]
    obtain ⟨r1, r2, r3⟩ := h.ramp h1.2
    obtain ⟨g, l, u, y, e, ho⟩ := ramp_opt h.ws h.n h.hasH r1 r2 r3 (fun i hi => by
      by_cases hb : s.bounds.type i = ST_EQUALITY
      · exact Or.inr (Or.inr (Or.inl ⟨hb, (h.opt.eq i hi hb).1⟩))
      · exact Or.inr (Or.inr (Or.inr ⟨hb, h.opt.at hi⟩)))
    rw [e]
    refine ⟨_, rfl, ?_, ⟨rfl, rfl, rfl, rfl, rfl, rfl, rfl, rfl, ⟨Iff.rfl, Iff.rfl, rfl⟩⟩, rfl⟩
    exact (h.withData ho).frame _ _ _ _ _ _ _ _
  · rw [if_neg h1]
    by_cases h2 : s.options.enableDriftCorrection > 0 ∧ (iter + 1) % s.options.enableDriftCorrection = 0
    · rw [if_pos h2]
      obtain ⟨g, l, u, y, e, ho⟩ := drift_opt h.ws h.n h.hasH (fun i hi => by
        by_cases hb : s.bounds.type i = ST_EQUALITY
        · exact Or.inr (Or.inl ⟨hb, (h.opt.eq i hi hb).1⟩)
        · exact Or.inr (Or.inr ⟨hb, h.opt.at hi⟩))
      rw [e]
      refine ⟨_, rfl, ?_, ⟨rfl, rfl, rfl, rfl, rfl, rfl, rfl, rfl, ⟨Iff.rfl, Iff.rfl, rfl⟩⟩, rfl⟩
      exact (h.withData (off := s.rampOffset) ho).frame _ _ _ _ _ _ _ _
    · rw [if_neg h2]
      refine ⟨_, rfl, ?_, ⟨rfl, rfl, rfl, rfl, rfl, rfl, rfl, rfl, ⟨Iff.rfl, Iff.rfl, rfl⟩⟩, rfl⟩
      exact h.frame _ _ _ _ _ _ _ _

theorem finish_rv (s : QPB K) (rv : ReturnValue) (n : Int) (c : Option K) (t : K) : (s.finish rv n c t).rv = rv := by
  unfold finish; rfl

theorem finish_frame (s : QPB K) (rv : ReturnValue) (n : Int) (c : Option K) (t : K) :
    ∃ k, (s.finish rv n c t).s = { s with now := k } := by
  unfold finish stopClock
  cases c with
  | none => exact ⟨s.now, rfl⟩
  | some c => exact ⟨_, rfl⟩

theorem changeActiveSet_rv {sq : K → K} {s s' : QPB K} {bc : Option (Nat × SubjectToStatus)} {r : ReturnValue}
    (h : changeActiveSet sq s bc = .ok (r, s')) : r ≠ RET_MAX_NWSR_REACHED := by
  unfold changeActiveSet at h
  rintro rfl
  split at h
  · cases h
  · obtain ⟨p, -, h2⟩ := Res.bind_eq_ok.1 h
    dsimp only at h2
    split at h2 <;> cases h2
  · rename_i k st _
    rcases hp : addBound sq s k st true with ⟨r, s1⟩
    rw [hp] at h
    dsimp only at h
    split at h <;> cases h

theorem computeCholesky_rv {sq : K → K} {s s' : QPB K} {r : ReturnValue} (h : computeCholesky sq s = .ok (r, s')) :
    r = SUCCESSFUL_RETURN ∨ r = RET_CHOLESKY_OF_ZERO_HESSIAN ∨ r = RET_HESSIAN_NOT_SPD := by
  unfold computeCholesky at h
  dsimp only at h
  split at h
  · split at h <;> cases h <;> simp
  · cases h; simp
  · split at h
    · obtain ⟨p, -, h2⟩ := Res.bind_eq_ok.1 h
      split at h2
      · cases h2; simp
      · cases h2; simp
    · cases h; simp

theorem endIteration_spec {sq : K → K} {s : QPB K} (hsq : s.SqrtFor sq) (h : s.Inv) (hst : s.status = QPS_PERFORMINGHOMOTOPY)
    {bc : Option (Nat × SubjectToStatus)} (hbc : AtLimit s bc) (iter nWSR : Int) (cputime : Option K) (starttime : K)
    (hr : ∀ s2, changeActiveSet sq s bc = .ok (SUCCESSFUL_RETURN, s2) → RefacClean sq s2 iter) :
    ∃ e, endIteration sq s bc iter nWSR cputime starttime = .ok e ∧ (∀ o, e = .error o → o.rv ≠ SUCCESSFUL_RETURN ∧ o.rv ≠ RET_MAX_NWSR_REACHED) ∧
      (∀ s', e = .ok s' → s'.Inv ∧ SameProblem s' s ∧ s'.status = QPS_HOMOTOPYQPSOLVED) := by
  obtain ⟨r, s2, e2, hs2⟩ := changeActiveSet_spec hsq h hst hbc
  unfold endIteration
  rw [e2]
  simp only [Res.bind_ok]
  by_cases hrs : r = SUCCESSFUL_RETURN
  · subst hrs
    rw [if_neg (by simp)]
    obtain ⟨hI, hsp, k5, k6⟩ := hs2 rfl
    have hrc := hr s2 e2
    by_cases hc : s2.options.enableCholeskyRefactorisation > 0 ∧ iter % s2.options.enableCholeskyRefactorisation = 0
    · rw [if_pos hc]
      obtain ⟨r3, s3, e3, hb3, hs3, hf3⟩ := computeCholesky_spec (hsp.sqrt hsq) hI.ws hI.n hI.hasH
      rw [e3]
      simp only [Res.bind_ok]
      by_cases hr3 : r3 = SUCCESSFUL_RETURN
      · subst hr3
        rw [if_neg (by simp)]
        obtain ⟨⟨R, eR⟩, _, _, hF⟩ := hs3 rfl
        have hF := hF (Or.inr (hrc hc s3 e3))
        subst eR
        have hI3 : ({ s2 with R := R } : QPB K).Inv :=
          ⟨hI.ws, hI.n, hF, hI.sym, ⟨hI.opt.stat, hI.opt.lower, hI.opt.upper, hI.opt.inactive, hI.opt.box, hI.opt.eq⟩, hI.options, hI.ramp⟩
        obtain ⟨s', e', h1, h2, h3⟩ := correct_spec hI3 iter
        refine ⟨_, e', fun o ho => (by cases ho), fun s'' hs'' => ?_⟩
        cases hs''
        exact ⟨h1, (⟨h2.nV, h2.hess, h2.type, h2.options, h2.chol, h2.reg, h2.noLower, h2.noUpper, h2.ident⟩ : SameProblem s' s2).trans hsp, h3⟩
      · rw [if_pos hr3]
        refine ⟨_, rfl, fun o ho => ?_, fun s'' hs'' => by cases hs''⟩
        cases ho
        refine ⟨hr3, ?_⟩
        show r3 ≠ _
        rcases computeCholesky_rv e3 with h | h | h <;> rw [h] <;> decide
    · rw [if_neg hc]
      rw [if_neg (by simp)]
      obtain ⟨s', e', h1, h2, h3⟩ := correct_spec hI iter
      refine ⟨_, e', fun o ho => (by cases ho), fun s'' hs'' => ?_⟩
      cases hs''
      exact ⟨h1, h2.trans hsp, h3⟩
  · rw [if_pos hrs]
    split
    · refine ⟨_, rfl, fun o ho => ?_, fun s'' hs'' => by cases hs''⟩
      cases ho
      show RET_HOTSTART_STOPPED_INFEASIBILITY ≠ SUCCESSFUL_RETURN ∧ RET_HOTSTART_STOPPED_INFEASIBILITY ≠ RET_MAX_NWSR_REACHED
      decide
    · split
      · refine ⟨_, rfl, fun o ho => ?_, fun s'' hs'' => by cases hs''⟩
        cases ho
        show RET_HOTSTART_STOPPED_UNBOUNDEDNESS ≠ SUCCESSFUL_RETURN ∧ RET_HOTSTART_STOPPED_UNBOUNDEDNESS ≠ RET_MAX_NWSR_REACHED
        decide
      · refine ⟨_, rfl, fun o ho => ?_, fun s'' hs'' => by cases hs''⟩
        cases ho
        unfold finish
        exact ⟨hrs, changeActiveSet_rv e2⟩

/-- The run has ended at a solution. -/
structure Solved (s : QPB K) (gNew : Nat → K) (lbNew ubNew : Option (Nat → K)) : Prop where
  inv : s.Inv
  status : s.status = QPS_SOLVED
  length : s.homotopyLength gNew lbNew ubNew ≤ s.options.terminationTolerance
  full : s.tau = 1 → s.g = gNew ∧ s.lb = lowerOf lbNew ∧ s.ub = upperOf ubNew

theorem performStep_spec {s : QPB K} (h : s.Inv) {gNew lbN ubN : Nat → K} (hT : Target s lbN ubN) {isZero : Bool} {d : Dir K}
    (hd : DirOK s (fun i => gNew i - s.g i) (fun i => lbN i - s.lb i) (fun i => ubN i - s.ub i) isZero d)
    (hz : isZero = true → ∀ i ∈ s.bounds.fixed, (if s.bounds.status i = ST_LOWER then lbN i - s.lb i else ubN i - s.ub i) = 0)
    (hnt : NoTiny s (fun i => lbN i - s.lb i) (fun i => ubN i - s.ub i) d)
    (hl : ∀ tau bc, stepLength s (fun i => lbN i - s.lb i) (fun i => ubN i - s.ub i) d = .ok (tau, bc) → tau = 0 ∨ ZERO < tau) :
    ∃ s1 bc, performStep s (fun i => gNew i - s.g i) (fun i => lbN i - s.lb i) (fun i => ubN i - s.ub i) d = .ok (s1, bc) ∧
      s1.Inv ∧ SameProblem s1 s ∧ s1.status = s.status ∧ AtLimit s1 bc ∧ 0 ≤ s1.tau ∧ s1.tau ≤ 1 ∧
      (∀ i, gNew i - s1.g i = (1 - s1.tau) * (gNew i - s.g i)) ∧ (∀ i, lbN i - s1.lb i = (1 - s1.tau) * (lbN i - s.lb i)) ∧
      (∀ i, ubN i - s1.ub i = (1 - s1.tau) * (ubN i - s.ub i)) := by
  obtain ⟨tau, bc, e, hs⟩ := stepLength_spec h.ws h.options.epsNum h.options.epsDen (h.opt.sign h.ws h.n)
    (fun i => lbN i - s.lb i) (fun i => ubN i - s.ub i) d
  have ht := hl tau bc e
  obtain ⟨hO, hA⟩ := h.opt.takeStep h.ws h.n hd hz hs hnt ht hT.box hT.eq
  obtain ⟨ex, ey, eg, el, eu⟩ := takeStep_data h.ws h.n (fun i => gNew i - s.g i) (fun i => lbN i - s.lb i) (fun i => ubN i - s.ub i) d ht
  have ef := takeStep_fields s (fun i => gNew i - s.g i) (fun i => lbN i - s.lb i) (fun i => ubN i - s.ub i) d tau
  unfold performStep
  rw [e]
  simp only [Res.bind_ok]
  refine ⟨_, _, rfl, ?_⟩
  generalize takeStep s (fun i => gNew i - s.g i) (fun i => lbN i - s.lb i) (fun i => ubN i - s.ub i) d tau = s1 at *
  have et : s1.tau = tau := by rw [ef]
  refine ⟨⟨?_, ?_, ?_, ?_, hO, ?_, ?_⟩, ⟨?_, ?_, ?_, ?_, ?_, ?_, ?_, ?_, by rw [ef]; exact ⟨Iff.rfl, Iff.rfl, rfl⟩⟩, ?_, hA, ?_, ?_, ?_, ?_, ?_⟩
  · rw [ef]; exact h.ws
  · rw [ef]; exact h.n
  · rw [ef]; exact ⟨h.factor.scalar, h.factor.stored⟩
  · rw [ef]; exact h.sym
  · rw [ef]; exact h.options
  · rw [ef]; exact h.ramp
  · rw [ef]
  · rw [ef]; rfl
  · rw [ef]
  · rw [ef]
  · rw [ef]
  · rw [ef]
  · rw [ef]
  · rw [ef]
  · rw [ef]
  · rw [et]; exact hs.nonneg
  · rw [et]; exact hs.le_one
  · intro i; rw [et, eg]; ring
  · intro i; rw [et, el]; ring
  · intro i; rw [et, eu]; ring

theorem iteration_spec {sq : K → K} {s : QPB K} (hsq : s.SqrtFor sq) (h : s.Inv) {gNew : Nat → K} {lbNew ubNew : Option (Nat → K)}
    (hT : Target s (lowerOf lbNew) (upperOf ubNew)) (iter nWSR : Int) (cputime : Option K) (starttime : K)
    (hc : IterClean sq { s with status := QPS_PERFORMINGHOMOTOPY } gNew (lowerOf lbNew) (upperOf ubNew) iter) :
    ∃ e, iteration sq s gNew lbNew ubNew iter nWSR cputime starttime = .ok e ∧
      (∀ o, e = .error o → o.rv ≠ RET_MAX_NWSR_REACHED ∧
        (o.rv = SUCCESSFUL_RETURN → Solved o.s gNew lbNew ubNew ∧ SameProblem o.s s)) ∧
      (∀ s', e = .ok s' → s'.Inv ∧ SameProblem s' s ∧ s'.status = QPS_HOMOTOPYQPSOLVED) := by
  have h0 : ({ s with status := QPS_PERFORMINGHOMOTOPY } : QPB K).Inv := h.frame _ _ _ _ _ _ _ _
  have hT0 : Target { s with status := QPS_PERFORMINGHOMOTOPY } (lowerOf lbNew) (upperOf ubNew) := ⟨hT.box, hT.eq⟩
  have hsp0 : SameProblem ({ s with status := QPS_PERFORMINGHOMOTOPY } : QPB K) s := ⟨rfl, rfl, rfl, rfl, rfl, rfl, rfl, rfl, ⟨Iff.rfl, Iff.rfl, rfl⟩⟩
  have hst0 : ({ s with status := QPS_PERFORMINGHOMOTOPY } : QPB K).status = QPS_PERFORMINGHOMOTOPY := rfl
  unfold iteration
  generalize ({ s with status := QPS_PERFORMINGHOMOTOPY } : QPB K) = s0 at *
  dsimp only
  obtain ⟨o, e, hd⟩ := determineStepDirection_spec h0.factor h0.ws h0.n h0.sym (fun _ => h0.options.iterRef) h0.options.refSteps
    (fun i => gNew i - s0.g i) (fun i => lowerOf lbNew i - s0.lb i) (fun i => upperOf ubNew i - s0.ub i)
    (s0.deltaIsZero (fun i => lowerOf lbNew i - s0.lb i) (fun i => upperOf ubNew i - s0.ub i))
  rw [e]
  simp only [Res.bind_ok]
  cases o with
  | none =>
    refine ⟨_, rfl, fun o ho => ?_, fun s' hs' => by cases hs'⟩
    cases ho
    unfold finish
    exact ⟨fun hrv => (by cases hrv), fun hrv => (by cases hrv)⟩
  | some d =>
    dsimp only
    obtain ⟨s1, bc, e1, hI, hsp, hst, hA, t0, t1, dg, dl, du⟩ := performStep_spec h0 hT0 (hd d rfl) hc.shift (hc.tiny d e) (hc.length d e)
    have hrf := hc.refac d e s1 bc e1
    rw [e1]
    simp only [Res.bind_ok]
    by_cases hlen : s1.homotopyLength gNew lbNew ubNew ≤ s1.options.terminationTolerance
    · rw [if_pos hlen]
      refine ⟨_, rfl, fun o ho => ?_, fun s' hs' => by cases hs'⟩
      cases ho
      rw [finish_rv]
      refine ⟨by decide, fun _ => ?_⟩
      have hfull : s1.tau = 1 → s1.g = gNew ∧ s1.lb = lowerOf lbNew ∧ s1.ub = upperOf ubNew := by
        intro ht
        rw [ht] at dg dl du
        refine ⟨funext fun i => ?_, funext fun i => ?_, funext fun i => ?_⟩
        · have := dg i; rw [sub_self, zero_mul] at this; exact (sub_eq_zero.1 this).symm
        · have := dl i; rw [sub_self, zero_mul] at this; exact (sub_eq_zero.1 this).symm
        · have := du i; rw [sub_self, zero_mul] at this; exact (sub_eq_zero.1 this).symm
      obtain ⟨k, ek⟩ := finish_frame ({ s1 with status := QPS_SOLVED } : QPB K) SUCCESSFUL_RETURN iter cputime starttime
      rw [ek]
      have hsp1 := hsp.trans hsp0
      exact ⟨⟨hI.frame _ _ _ _ _ _ _ _, rfl, hlen, hfull⟩, ⟨hsp1.nV, hsp1.hess, hsp1.type, hsp1.options, hsp1.chol, hsp1.reg, hsp1.noLower, hsp1.noUpper, hsp1.ident⟩⟩
    · rw [if_neg hlen]
      obtain ⟨e', h1, h2, h3⟩ := endIteration_spec ((hsp.trans hsp0).sqrt hsq) hI (hst.trans hst0) hA iter nWSR cputime starttime hrf
      refine ⟨e', h1, fun o ho => ⟨(h2 o ho).2, fun hrv => absurd hrv (h2 o ho).1⟩, fun s' hs' => ?_⟩
      obtain ⟨k1, k2, k3⟩ := h3 s' hs'
      exact ⟨k1, k2.trans (hsp.trans hsp0), k3⟩

/-- Nothing in the run of the loop from `s` falls strictly between zero and a tolerance. -/
def LoopClean (sq : K → K) (gNew : Nat → K) (lbNew ubNew : Option (Nat → K)) (nWSR performed : Int)
    (cputime : Option K) (starttime : K) : (m : Nat) → (iter : Int) → QPB K → Prop
  | 0, _, _ => True
  | m+1, iter, s =>
    IterClean sq { (s.isCPUtimeLimitExceeded cputime starttime (iter - performed)).2 with status := QPS_PERFORMINGHOMOTOPY } gNew
      (lowerOf lbNew) (upperOf ubNew) iter ∧
    ∀ s', iteration sq (s.isCPUtimeLimitExceeded cputime starttime (iter - performed)).2 gNew lbNew ubNew iter nWSR cputime starttime =
      .ok (.ok s') → LoopClean sq gNew lbNew ubNew nWSR performed cputime starttime m (iter+1) s'

theorem stopClock_frame (s : QPB K) (c : Option K) (t : K) : ∃ k, (s.stopClock c t).2 = { s with now := k } := by
  unfold stopClock
  cases c with
  | none => exact ⟨s.now, rfl⟩
  | some c => exact ⟨_, rfl⟩

theorem isCPU_frame (s : QPB K) (cputime : Option K) (starttime : K) (n : Int) :
    ∃ k, (s.isCPUtimeLimitExceeded cputime starttime n).2 = { s with now := k } := by
  unfold isCPUtimeLimitExceeded
  cases cputime with
  | none => exact ⟨s.now, rfl⟩
  | some c =>
    dsimp only
    split
    · exact ⟨s.now, rfl⟩
    · exact ⟨_, rfl⟩

theorem solveLoop_spec {sq : K → K} {gNew : Nat → K} {lbNew ubNew : Option (Nat → K)} (nWSR performed : Int)
    (cputime : Option K) (starttime : K) : ∀ (m : Nat) (iter : Int) (s : QPB K), s.SqrtFor sq → s.Inv → Target s (lowerOf lbNew) (upperOf ubNew) →
      LoopClean sq gNew lbNew ubNew nWSR performed cputime starttime m iter s →
      ∃ o, solveLoop sq gNew lbNew ubNew nWSR performed cputime starttime m iter s = .ok o ∧
        (o.rv = SUCCESSFUL_RETURN → Solved o.s gNew lbNew ubNew ∧ SameProblem o.s s) ∧
        (o.rv = RET_MAX_NWSR_REACHED → o.s.Inv ∧ SameProblem o.s s ∧ (o.s.status = s.status ∨ o.s.status = QPS_HOMOTOPYQPSOLVED)) := by
  intro m
  induction m with
  | zero =>
    intro iter s _ hI _ _
    refine ⟨_, rfl, fun h => ?_, fun _ => ?_⟩
    · rw [finish_rv] at h
      cases h
    · obtain ⟨k, ek⟩ := finish_frame s RET_MAX_NWSR_REACHED nWSR cputime starttime
      rw [ek]
      exact ⟨hI.frame _ _ _ _ _ _ _ _, ⟨rfl, rfl, rfl, rfl, rfl, rfl, rfl, rfl, ⟨Iff.rfl, Iff.rfl, rfl⟩⟩, Or.inl rfl⟩
  | succ m ih =>
    intro iter s hsq h hT hc
    rw [solveLoop]
    obtain ⟨k, ek⟩ := isCPU_frame s cputime starttime (iter - performed)
    rw [LoopClean] at hc
    rcases hp : s.isCPUtimeLimitExceeded cputime starttime (iter - performed) with ⟨b, s'⟩
    rw [hp] at ek hc
    dsimp only at ek hc
    cases b with
    | true =>
      dsimp only
      refine ⟨_, rfl, fun h => ?_, fun _ => ?_⟩
      · rw [finish_rv] at h
        cases h
      · subst ek
        obtain ⟨k2, ek2⟩ := stopClock_frame ({ s with now := k } : QPB K) cputime starttime
        obtain ⟨k3, ek3⟩ := finish_frame (({ s with now := k } : QPB K).stopClock cputime starttime).2 RET_MAX_NWSR_REACHED iter
          (({ s with now := k } : QPB K).stopClock cputime starttime).1 starttime
        rw [ek3, ek2]
        exact ⟨h.frame _ _ _ _ _ _ _ _, ⟨rfl, rfl, rfl, rfl, rfl, rfl, rfl, rfl, ⟨Iff.rfl, Iff.rfl, rfl⟩⟩, Or.inl rfl⟩
    | false =>
      dsimp only
      subst ek
      have h' : ({ s with now := k } : QPB K).Inv := h.frame _ _ _ _ _ _ _ _
      obtain ⟨e, e1, e2, e3⟩ := iteration_spec (s := { s with now := k }) hsq h' (⟨hT.box, hT.eq⟩ : Target { s with now := k } _ _) iter nWSR cputime starttime hc.1
      rw [e1]
      simp only [Res.bind_ok]
      cases e with
      | error o =>
        obtain ⟨n1, n2⟩ := e2 o rfl
        exact ⟨o, rfl, fun hrv => ⟨(n2 hrv).1, (n2 hrv).2.frame⟩, fun hrv => absurd hrv n1⟩
      | ok s1 =>
        dsimp only
        obtain ⟨i1, i2, i3⟩ := e3 s1 rfl
        have hT1 : Target s1 (lowerOf lbNew) (upperOf ubNew) :=
          ⟨by rw [i2.nV]; exact hT.box, by rw [i2.nV, i2.type]; exact hT.eq⟩
        obtain ⟨o, o1, o2, o3⟩ := ih (iter+1) s1 (i2.sqrt hsq) i1 hT1 (hc.2 s1 e1)
        have i2' : SameProblem s1 s := ⟨i2.nV, i2.hess, i2.type, i2.options, i2.chol, i2.reg, i2.noLower, i2.noUpper, i2.ident⟩
        refine ⟨o, o1, fun hrv => ?_, fun hrv => ?_⟩
        · obtain ⟨p1, p2⟩ := o2 hrv
          exact ⟨p1, p2.trans i2'⟩
        · obtain ⟨p1, p2, p3⟩ := o3 hrv
          refine ⟨p1, p2.trans i2', Or.inr ?_⟩
          rcases p3 with p3 | p3
          · exact p3.trans i3
          · exact p3

end QPB
end QpOASES
