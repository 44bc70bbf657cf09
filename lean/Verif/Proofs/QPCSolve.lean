import Verif.Proofs.QPCLoop
import Verif.Proofs.QPBSolve

/-!
The main loop of the solver for general constraints keeps its invariant, and stops successfully only at a solution.
-/
namespace QpOASES
open Finset Props SubjectToStatus SubjectToType ReturnValue HessianType QProblemStatus
open QPB (lowerOf upperOf)

set_option linter.unusedSectionVars false

variable {K : Type} [Field K] [LinearOrder K] [IsStrictOrderedRing K]

namespace QPC

/-- The requested limits do not cross, and agree for members treated as equalities. -/
structure Target (s : QPC K) (lbN ubN lbAN ubAN : Nat → K) : Prop where
  box : ∀ i < s.nV, lbN i ≤ ubN i
  eq : ∀ i < s.nV, s.bounds.type i = ST_EQUALITY → lbN i = ubN i
  boxA : ∀ i < s.nC, lbAN i ≤ ubAN i
  eqA : ∀ i < s.nC, s.cons.type i = ST_EQUALITY → lbAN i = ubAN i

theorem Target.same {s s' : QPC K} {lbN ubN lbAN ubAN : Nat → K} (h : Target s lbN ubN lbAN ubAN) (hs : Same s' s) : Target s' lbN ubN lbAN ubAN :=
  ⟨by rw [hs.nV]; exact h.box, by rw [hs.nV, hs.typeB]; exact h.eq, by rw [hs.nC]; exact h.boxA, by rw [hs.nC, hs.typeC]; exact h.eqA⟩

/-- Parameters of the solver -/
structure Params (s : QPC K) : Prop where
  options : OptionsOK s.options
  ramp : s.options.enableRamping = true → 0 ≤ s.ramp0 ∧ 0 ≤ s.ramp1

theorem Params.same {s s' : QPC K} (h : s.Params) (hs : Same s' s) : s'.Params := by
  have hf := hs.frame
  simp only [Prod.mk.injEq] at hf
  exact ⟨by rw [hs.options]; exact h.options, by rw [hs.options, hf.1, hf.2.1]; exact h.ramp⟩

/-- The direction of the step the iteration starting from `s` takes -/
def direction (s : QPC K) (h : Shift K) : Res (Except ReturnValue (Dir K)) :=
  determineStepDirection s h.g h.lbA h.ubA h.lb h.ub (s.deltaIsZeroC h) (s.toQPB.deltaIsZero h.lb h.ub)

/-- Nothing in the iteration starting from `s` falls strictly between zero and a tolerance, and the change of the working set and a
refactorisation, if due, are exact. -/
structure IterClean (sq : K → K) (s : QPC K) (gNew : Nat → K) (lbNew ubNew lbANew ubANew : Option (Nat → K)) (iter : Int) : Prop where
  shiftB : s.toQPB.deltaIsZero (s.dataShift gNew lbNew ubNew lbANew ubANew).lb (s.dataShift gNew lbNew ubNew lbANew ubANew).ub = true →
    ∀ i ∈ s.bounds.fixed, (if s.bounds.status i = ST_LOWER then lowerOf lbNew i - s.lb i else upperOf ubNew i - s.ub i) = 0
  shiftC : s.deltaIsZeroC (s.dataShift gNew lbNew ubNew lbANew ubANew) = true →
    ∀ i ∈ s.cons.fixed, (if s.cons.status i = ST_LOWER then lowerOf lbANew i - s.lbA i else upperOf ubANew i - s.ubA i) = 0
  tiny : ∀ d, s.direction (s.dataShift gNew lbNew ubNew lbANew ubANew) = .ok (.ok d) → NoTiny s (s.dataShift gNew lbNew ubNew lbANew ubANew) d
  length : ∀ d, s.direction (s.dataShift gNew lbNew ubNew lbANew ubANew) = .ok (.ok d) →
    ∀ tau bc, stepLength s (s.dataShift gNew lbNew ubNew lbANew ubANew) d = .ok (tau, bc) → (tau = 0 ∨ ZERO < tau) ∧ HasLimit s bc
  change : ∀ d, s.direction (s.dataShift gNew lbNew ubNew lbANew ubANew) = .ok (.ok d) →
    ∀ s1 bc, performStep s (s.dataShift gNew lbNew ubNew lbANew ubANew) d = .ok (s1, bc) →
    ¬ s1.homotopyLength gNew lbNew ubNew lbANew ubANew ≤ s1.options.terminationTolerance →
    CleanChange sq s1 bc ∧ ∀ s2, changeActiveSet sq s1 bc = .ok (SUCCESSFUL_RETURN, s2) →
      s2.options.enableCholeskyRefactorisation > 0 ∧ iter % s2.options.enableCholeskyRefactorisation = 0 → CleanChol sq s2

/-! ### return values -/

/-- Neither success nor the limit on the number of iterations -/
def Bad (r : ReturnValue) : Prop := r ≠ SUCCESSFUL_RETURN ∧ r ≠ RET_MAX_NWSR_REACHED

theorem stepY_bad {s : QPC K} {z : Bool} {rb : Nat → K} {r : ReturnValue} (h : s.stepY z rb = .error r) : Bad r := by
  unfold stepY at h
  repeat' (first | (split at h) | cases h)
  all_goals exact ⟨by decide, by decide⟩

theorem stepDual_bad {s : QPC K} {rhs : Nat → K} {r : ReturnValue} (h : s.stepDual rhs = .error r) : Bad r := by
  unfold stepDual at h
  repeat' (first | (split at h) | cases h)
  all_goals exact ⟨by decide, by decide⟩

theorem stepZ_bad {s : QPC K} {rg : Nat → K} {r : ReturnValue} (h : s.stepZ rg = .ok (.error r)) : Bad r := by
  unfold stepZ at h
  dsimp only at h
  split at h
  · cases h
  · split at h
    · cases h
    · split at h
      · cases h; exact ⟨by decide, by decide⟩
      · cases h
  · split at h
    · rw [Res.bind_eq_ok] at h
      obtain ⟨p, _, h⟩ := h
      split at h
      · cases h; exact ⟨by decide, by decide⟩
      · rw [Res.bind_eq_ok] at h
        obtain ⟨q, _, h⟩ := h
        split at h
        · cases h; exact ⟨by decide, by decide⟩
        · cases h
    · cases h

theorem pass_bad {s : QPC K} {H : Nat → Nat → K} {bC bB first : Bool} {dxFX rg rb : Nat → K} {r : ReturnValue}
    (h : s.pass H bC bB first dxFX rg rb = .ok (.error r)) : Bad r := by
  unfold pass at h
  dsimp only at h
  split at h
  · next e => cases h; exact stepY_bad e
  · split at h
    · cases h
    · rw [Res.bind_eq_ok] at h
      obtain ⟨o, e, h⟩ := h
      cases o with
      | error r' => cases h; exact stepZ_bad e
      | ok z =>
        dsimp only at h
        split at h
        · next e' => cases h; exact stepDual_bad e'
        · cases h

theorem refine_bad {s : QPC K} {H : Nat → Nat → K} {bC bB : Bool} {dg b dxFX : Nat → K} {r : ReturnValue} :
    ∀ (m : Nat) (first : Bool) (rg rb d dy : Nat → K), s.refine H bC bB dg b dxFX m first rg rb d dy = .ok (.error r) → Bad r := by
  intro m
  induction m with
  | zero => intro first rg rb d dy h; cases h
  | succ m ih =>
    intro first rg rb d dy h
    rw [refine, Res.bind_eq_ok] at h
    obtain ⟨o, e, h⟩ := h
    cases o with
    | error r' => cases h; exact pass_bad e
    | ok p =>
      dsimp only at h
      split at h
      · split at h
        · cases h
        · exact ih _ _ _ _ _ h
      · exact ih _ _ _ _ _ h

theorem determineStepDirection_bad {s : QPC K} {dg dlbA dubA dlb dub : Nat → K} {bC bB : Bool} {r : ReturnValue}
    (h : s.determineStepDirection dg dlbA dubA dlb dub bC bB = .ok (.error r)) : Bad r := by
  unfold determineStepDirection at h
  rw [Res.bind_eq_ok] at h
  obtain ⟨H, _, h⟩ := h
  dsimp only at h
  rw [Res.bind_eq_ok] at h
  obtain ⟨o, e, h⟩ := h
  cases o with
  | error r' => cases h; exact refine_bad _ _ _ _ _ _ e
  | ok p => cases h

theorem changeActiveSet_rv {sq : K → K} {s s' : QPC K} {bc : Option Change} {r : ReturnValue}
    (h : changeActiveSet sq s bc = .ok (r, s')) : r ≠ RET_MAX_NWSR_REACHED := by
  rintro rfl
  unfold changeActiveSet at h
  split at h
  · cases h
  all_goals
    rw [Res.bind_eq_ok] at h
    obtain ⟨⟨r1, s1⟩, -, h2⟩ := h
    dsimp only at h2
    split at h2
    · next hr => simp only [Res.ok.injEq, Prod.mk.injEq] at h2; first | exact absurd h2.1 (by decide) | (rw [h2.1] at hr; exact absurd hr (by decide))
    · first
      | (simp only [Res.ok.injEq, Prod.mk.injEq] at h2; exact absurd h2.1 (by decide))
      | (split at h2 <;> (simp only [Res.ok.injEq, Prod.mk.injEq] at h2; exact absurd h2.1 (by decide)))

theorem computeProjectedCholesky_rv {sq : K → K} {s s' : QPC K} {r : ReturnValue} (h : computeProjectedCholesky sq s = .ok (r, s')) :
    r ≠ RET_MAX_NWSR_REACHED := by
  unfold computeProjectedCholesky at h
  split at h
  · rw [Res.bind_eq_ok] at h
    obtain ⟨⟨r1, b⟩, e, h⟩ := h
    cases h
    rcases QPB.computeCholesky_rv e with h | h | h <;> rw [h] <;> decide
  · dsimp only at h
    split at h
    · cases h; decide
    · rw [Res.bind_eq_ok] at h
      obtain ⟨o, e, h⟩ := h
      cases o with
      | none => cases h; decide
      | some p =>
        dsimp only at h
        split at h <;> (simp only [Res.ok.injEq, Prod.mk.injEq] at h; rw [← h.1]; decide)

/-! ### one iteration -/

theorem finish_rv (s : QPC K) (rv : ReturnValue) (n : Int) (c : Option K) (t : K) : (s.finish rv n c t).rv = rv := rfl

theorem finish_frame (s : QPC K) (rv : ReturnValue) (n : Int) (c : Option K) (t : K) :
    ∃ k, (s.finish rv n c t).s = { s with now := k } := by
  obtain ⟨k, e⟩ := QPB.stopClock_frame s.toQPB c t
  refine ⟨k, ?_⟩
  unfold finish
  dsimp only
  rw [e]

theorem Same.frame' {s s' : QPC K} (tau : K) (inf unb : Bool) (st : QProblemStatus) (count off now : Nat)
    (e : s' = { s with tau := tau, infeasible := inf, unbounded := unb, status := st, count := count, rampOffset := off, now := now }) : Same s' s := by
  subst e
  exact ⟨rfl, rfl, rfl, rfl, rfl, rfl, rfl, rfl, rfl, rfl, rfl, rfl, rfl, rfl, rfl⟩

/-- Ramping or drift correction at the end of an iteration -/
theorem correct_spec {s s' : QPC K} (h : s.Good) (hp : s.Params) (bc : Option Change) (iter : Int)
    (e : (do
      let s ← if bc.isSome = true ∧ s.tau ≤ EPS ∧ s.options.enableRamping = true then performRamping s
        else if s.options.enableDriftCorrection > 0 ∧ (iter + 1) % s.options.enableDriftCorrection = 0 then performDriftCorrection s
        else .ok s
      Res.ok (Except.ok (ε := OutC K) s)) = .ok (.ok s')) : s'.Good ∧ Same s' s := by
  by_cases h1 : bc.isSome = true ∧ s.tau ≤ EPS ∧ s.options.enableRamping = true
  · rw [if_pos h1, Res.bind_eq_ok] at e
    obtain ⟨s1, e1, e⟩ := e
    simp only [Res.ok.injEq, Except.ok.injEq] at e
    subst e
    exact performRamping_spec h (hp.ramp h1.2.2).1 (hp.ramp h1.2.2).2 e1
  · rw [if_neg h1] at e
    by_cases h2 : s.options.enableDriftCorrection > 0 ∧ (iter + 1) % s.options.enableDriftCorrection = 0
    · rw [if_pos h2, Res.bind_eq_ok] at e
      obtain ⟨s1, e1, e⟩ := e
      simp only [Res.ok.injEq, Except.ok.injEq] at e
      subst e
      exact performDriftCorrection_spec h e1
    · rw [if_neg h2] at e
      simp only [Res.bind_ok, Res.ok.injEq, Except.ok.injEq] at e
      subst e
      exact ⟨h, Same.refl _⟩

theorem endIteration_spec {sq : K → K} {s : QPC K} (h : s.Good) (hp : s.Params) {bc : Option Change} (hbc : AtLimit s bc) {iter nWSR : Int}
    {cputime : Option K} {starttime : K} (hcc : CleanChange sq s bc) (hr : ∀ s2, changeActiveSet sq s bc = .ok (SUCCESSFUL_RETURN, s2) →
      s2.options.enableCholeskyRefactorisation > 0 ∧ iter % s2.options.enableCholeskyRefactorisation = 0 → CleanChol sq s2)
    {e : Except (OutC K) (QPC K)} (he : endIteration sq s bc iter nWSR cputime starttime = .ok e) :
    (∀ o, e = .error o → Bad o.rv) ∧ (∀ s', e = .ok s' → s'.Good ∧ Same s' s) := by
  unfold endIteration at he
  rw [Res.bind_eq_ok] at he
  obtain ⟨⟨r, s2⟩, e2, he⟩ := he
  dsimp only at he
  by_cases hrs : r = SUCCESSFUL_RETURN
  · subst hrs
    rw [if_neg (by simp)] at he
    obtain ⟨hG, hS⟩ := changeActiveSet_spec h hp.options hbc hcc e2
    have hrc := hr s2 e2
    -- the rest, after a successful or omitted refactorisation
    have rest : ∀ s3 : QPC K, s3.Good → Same s3 s → ∀ e, (do
        let s ← if bc.isSome = true ∧ s3.tau ≤ EPS ∧ s3.options.enableRamping = true then performRamping { s3 with status := QPS_HOMOTOPYQPSOLVED }
          else if s3.options.enableDriftCorrection > 0 ∧ (iter + 1) % s3.options.enableDriftCorrection = 0 then
            performDriftCorrection { s3 with status := QPS_HOMOTOPYQPSOLVED }
          else .ok { s3 with status := QPS_HOMOTOPYQPSOLVED }
        Res.ok (Except.ok (ε := OutC K) s)) = .ok e →
        (∀ o, e = .error o → Bad o.rv) ∧ (∀ s', e = .ok s' → s'.Good ∧ Same s' s) := by
      intro s3 hG3 hS3 e he
      have hg' : ({ s3 with status := QPS_HOMOTOPYQPSOLVED } : QPC K).Good := hG3.frame s3.tau s3.infeasible s3.unbounded _ s3.count s3.rampOffset s3.now s3.haveCholesky rfl
      have hs' : Same ({ s3 with status := QPS_HOMOTOPYQPSOLVED } : QPC K) s3 := Same.frame' s3.tau s3.infeasible s3.unbounded _ s3.count s3.rampOffset s3.now rfl
      refine ⟨fun o ho => ?_, fun s' ho => ?_⟩
      · subst ho
        dsimp only at he
        split at he
        · rw [Res.bind_eq_ok] at he
          obtain ⟨s4, _, he⟩ := he
          cases he
        · split at he
          · rw [Res.bind_eq_ok] at he
            obtain ⟨s4, _, he⟩ := he
            cases he
          · cases he
      · subst ho
        obtain ⟨k1, k2⟩ := correct_spec hg' (hp.same (hs'.trans hS3)) bc iter he
        exact ⟨k1, k2.trans (hs'.trans hS3)⟩
    by_cases hc : s2.options.enableCholeskyRefactorisation > 0 ∧ iter % s2.options.enableCholeskyRefactorisation = 0
    · rw [if_pos hc, Res.bind_eq_ok] at he
      obtain ⟨⟨r3, s3⟩, e3, he⟩ := he
      dsimp only at he
      by_cases hr3 : r3 = SUCCESSFUL_RETURN
      · subst hr3
        rw [if_neg (by simp)] at he
        obtain ⟨⟨R, Q, es⟩, hF⟩ := computeProjectedCholesky_spec hG.facs.shape hG.facs.tq hG.facs.sym (hrc hc) (fun hg => by
          obtain ⟨H, hH, _⟩ := hG.facs.chol hg; exact ⟨H, hH⟩) e3
        have hG3 : s3.Good := by
          refine ⟨hF, ?_, ?_⟩
          · subst es; exact ⟨hG.opt.stat, hG.opt.bounds, hG.opt.cons⟩
          · subst es; exact hG.ax
        have hS3 : Same s3 s2 := by
          subst es
          exact ⟨rfl, rfl, rfl, rfl, rfl, rfl, rfl, rfl, rfl, rfl, rfl, rfl, rfl, rfl, rfl⟩
        exact rest s3 hG3 (hS3.trans hS) e he
      · rw [if_pos hr3] at he
        simp only [Res.ok.injEq] at he
        subst he
        refine ⟨fun o ho => ?_, fun s' hs' => by cases hs'⟩
        cases ho
        exact ⟨hr3, computeProjectedCholesky_rv e3⟩
    · rw [if_neg hc] at he
      simp only [Res.bind_ok] at he
      rw [if_neg (by simp)] at he
      exact rest s2 hG hS e he
  · rw [if_pos hrs] at he
    split at he
    · simp only [Res.ok.injEq] at he
      subst he
      refine ⟨fun o ho => ?_, fun s' hs' => by cases hs'⟩
      cases ho
      exact ⟨by simp, by simp⟩
    · split at he
      · simp only [Res.ok.injEq] at he
        subst he
        refine ⟨fun o ho => ?_, fun s' hs' => by cases hs'⟩
        cases ho
        exact ⟨by simp, by simp⟩
      · simp only [Res.ok.injEq] at he
        subst he
        refine ⟨fun o ho => ?_, fun s' hs' => by cases hs'⟩
        cases ho
        exact ⟨hrs, changeActiveSet_rv e2⟩

/-- The run has ended at a solution. -/
structure Solved (s : QPC K) (gNew : Nat → K) (lbNew ubNew lbANew ubANew : Option (Nat → K)) : Prop where
  good : s.Good
  status : s.status = QPS_SOLVED
  length : s.homotopyLength gNew lbNew ubNew lbANew ubANew ≤ s.options.terminationTolerance
  full : s.tau = 1 → s.g = gNew ∧ s.lb = lowerOf lbNew ∧ s.ub = upperOf ubNew ∧ s.lbA = lowerOf lbANew ∧ s.ubA = upperOf ubANew

theorem performStep_spec {s s1 : QPC K} (h : s.Good) (hp : s.Params) {gN lbN ubN lbAN ubAN : Nat → K} (hT : Target s lbN ubN lbAN ubAN)
    {bC bB : Bool} {d : Dir K} {bc : Option Change} (hd : DirOK s (s.shiftTo gN lbN ubN lbAN ubAN) bC bB d)
    (hzB : bB = true → ∀ i ∈ s.bounds.fixed, (if s.bounds.status i = ST_LOWER then lbN i - s.lb i else ubN i - s.ub i) = 0)
    (hzC : bC = true → ∀ i ∈ s.cons.fixed, (if s.cons.status i = ST_LOWER then lbAN i - s.lbA i else ubAN i - s.ubA i) = 0)
    (hnt : NoTiny s (s.shiftTo gN lbN ubN lbAN ubAN) d)
    (hl : ∀ tau bc, stepLength s (s.shiftTo gN lbN ubN lbAN ubAN) d = .ok (tau, bc) → (tau = 0 ∨ ZERO < tau) ∧ HasLimit s bc)
    (he : performStep s (s.shiftTo gN lbN ubN lbAN ubAN) d = .ok (s1, bc)) :
    s1.Good ∧ Same s1 s ∧ s1.status = s.status ∧ AtLimit s1 bc ∧ 0 ≤ s1.tau ∧ s1.tau ≤ 1 ∧
      (s1.tau = 1 → s1.g = gN ∧ s1.lb = lbN ∧ s1.ub = ubN ∧ s1.lbA = lbAN ∧ s1.ubA = ubAN) := by
  have hs := h.facs.shape
  obtain ⟨tau, bc', e, t0, t1, hst, hbl⟩ := stepLength_spec hs.okB hs.okC hp.options.epsNum hp.options.epsDen
    (h.opt.cons.sign hs.okC hs.nC) (h.opt.bounds.sign hs.okB hs.nB) (s.shiftTo gN lbN ubN lbAN ubAN) d
  obtain ⟨ht, hlim⟩ := hl tau bc' e
  unfold performStep at he
  rw [e] at he
  simp only [Res.bind_ok, Res.ok.injEq, Prod.mk.injEq] at he
  obtain ⟨he, rfl⟩ := he
  obtain ⟨hO, hA, hL⟩ := h.opt.takeStep h.ax hs hd hzB hzC t0 t1 hst hbl hnt ht hlim hT.box hT.eq hT.boxA hT.eqA
  obtain ⟨ex, ey, eyc, eg, el, eu, elA, euA, eA⟩ := takeStep_data hs (s.shiftTo gN lbN ubN lbAN ubAN) d ht
  have ef := takeStep_fields s (s.shiftTo gN lbN ubN lbAN ubAN) d tau
  rw [he] at hO hA hL eg el eu elA euA ef
  have et : s1.tau = tau := by rw [ef]
  refine ⟨⟨?_, hO, hA⟩, ?_, ?_, hL, et ▸ t0, et ▸ t1, fun h1 => ?_⟩
  · refine h.facs.congr ?_ ?_ ?_ ?_ ?_ ?_ ?_ ?_ ?_ ?_ ?_ <;> rw [ef]
    exact id
  · constructor <;> rw [ef] <;> rfl
  · rw [ef]
  · rw [et] at h1
    subst h1
    refine ⟨funext fun i => ?_, funext fun i => ?_, funext fun i => ?_, funext fun i => ?_, funext fun i => ?_⟩
    · rw [eg]; show s.g i + 1 * (gN i - s.g i) = _; ring
    · rw [el]; show s.lb i + 1 * (lbN i - s.lb i) = _; ring
    · rw [eu]; show s.ub i + 1 * (ubN i - s.ub i) = _; ring
    · rw [elA]; show s.lbA i + 1 * (lbAN i - s.lbA i) = _; ring
    · rw [euA]; show s.ubA i + 1 * (ubAN i - s.ubA i) = _; ring

theorem iteration_spec {sq : K → K} {s : QPC K} (h : s.Good) (hp : s.Params) {gNew : Nat → K} {lbNew ubNew lbANew ubANew : Option (Nat → K)}
    (hT : Target s (lowerOf lbNew) (upperOf ubNew) (lowerOf lbANew) (upperOf ubANew)) {iter nWSR : Int} {cputime : Option K} {starttime : K}
    (hc : IterClean sq { s with status := QPS_PERFORMINGHOMOTOPY } gNew lbNew ubNew lbANew ubANew iter)
    {e : Except (OutC K) (QPC K)} (he : iteration sq s gNew lbNew ubNew lbANew ubANew iter nWSR cputime starttime = .ok e) :
    (∀ o, e = .error o → o.rv ≠ RET_MAX_NWSR_REACHED ∧ (o.rv = SUCCESSFUL_RETURN → Solved o.s gNew lbNew ubNew lbANew ubANew ∧ Same o.s s)) ∧
    (∀ s', e = .ok s' → s'.Good ∧ Same s' s) := by
  have h0 : ({ s with status := QPS_PERFORMINGHOMOTOPY } : QPC K).Good :=
    h.frame s.tau s.infeasible s.unbounded _ s.count s.rampOffset s.now s.haveCholesky rfl
  have hS0 : Same ({ s with status := QPS_PERFORMINGHOMOTOPY } : QPC K) s :=
    Same.frame' s.tau s.infeasible s.unbounded _ s.count s.rampOffset s.now rfl
  unfold iteration at he
  generalize ({ s with status := QPS_PERFORMINGHOMOTOPY } : QPC K) = s0 at *
  dsimp only at he
  have hp0 := hp.same hS0
  have hT0 := hT.same hS0
  rw [Res.bind_eq_ok] at he
  obtain ⟨od, ed, he⟩ := he
  cases od with
  | error r =>
    simp only [Res.ok.injEq] at he
    subst he
    refine ⟨fun o ho => ?_, fun s' hs' => by cases hs'⟩
    cases ho
    have := determineStepDirection_bad ed
    exact ⟨this.2, fun h => absurd h this.1⟩
  | ok d =>
    dsimp only at he
    rw [Res.bind_eq_ok] at he
    obtain ⟨⟨s1, bc⟩, e1, he⟩ := he
    dsimp only at he
    have hd := determineStepDirection_spec h0.facs hp0.options.iterRef hp0.options.refSteps (s0.dataShift gNew lbNew ubNew lbANew ubANew) _ _ ed
    obtain ⟨hG, hS, hst, hA, t0, t1, hfull⟩ := performStep_spec (gN := gNew) h0 hp0 hT0 hd hc.shiftB hc.shiftC (hc.tiny d ed) (hc.length d ed) e1
    have hchg := hc.change d ed s1 bc e1
    by_cases hlen : s1.homotopyLength gNew lbNew ubNew lbANew ubANew ≤ s1.options.terminationTolerance
    · rw [if_pos hlen] at he
      simp only [Res.ok.injEq] at he
      subst he
      refine ⟨fun o ho => ?_, fun s' hs' => by cases hs'⟩
      cases ho
      refine ⟨by rw [finish_rv]; decide, fun _ => ?_⟩
      obtain ⟨k, ek⟩ := finish_frame ({ s1 with status := QPS_SOLVED } : QPC K) SUCCESSFUL_RETURN iter cputime starttime
      rw [ek]
      refine ⟨⟨hG.frame s1.tau s1.infeasible s1.unbounded _ s1.count s1.rampOffset k s1.haveCholesky rfl, rfl, hlen, hfull⟩,
        (Same.frame' (s := s1) s1.tau s1.infeasible s1.unbounded QPS_SOLVED s1.count s1.rampOffset k rfl).trans (hS.trans hS0)⟩
    · rw [if_neg hlen] at he
      obtain ⟨c1, c2⟩ := hchg hlen
      obtain ⟨k1, k2⟩ := endIteration_spec hG (hp0.same hS) hA c1 c2 he
      exact ⟨fun o ho => ⟨(k1 o ho).2, fun hrv => absurd hrv (k1 o ho).1⟩, fun s' hs' => ⟨(k2 s' hs').1, (k2 s' hs').2.trans (hS.trans hS0)⟩⟩

/-! ### the loop -/

/-- Every iteration of the loop from `s` is clean. -/
def LoopClean (sq : K → K) (gNew : Nat → K) (lbNew ubNew lbANew ubANew : Option (Nat → K)) (nWSR performed : Int)
    (cputime : Option K) (starttime : K) : (m : Nat) → (iter : Int) → QPC K → Prop
  | 0, _, _ => True
  | m+1, iter, s =>
    let s1 : QPC K := { s with toQPB := (s.toQPB.isCPUtimeLimitExceeded cputime starttime (iter - performed)).2 }
    IterClean sq { s1 with status := QPS_PERFORMINGHOMOTOPY } gNew lbNew ubNew lbANew ubANew iter ∧
    ∀ s', iteration sq s1 gNew lbNew ubNew lbANew ubANew iter nWSR cputime starttime = .ok (.ok s') →
      LoopClean sq gNew lbNew ubNew lbANew ubANew nWSR performed cputime starttime m (iter+1) s'

theorem solveLoop_spec {sq : K → K} {gNew : Nat → K} {lbNew ubNew lbANew ubANew : Option (Nat → K)} (nWSR performed : Int)
    (cputime : Option K) (starttime : K) : ∀ (m : Nat) (iter : Int) (s : QPC K) (o : OutC K), s.Good → s.Params →
      Target s (lowerOf lbNew) (upperOf ubNew) (lowerOf lbANew) (upperOf ubANew) →
      LoopClean sq gNew lbNew ubNew lbANew ubANew nWSR performed cputime starttime m iter s →
      solveLoop sq gNew lbNew ubNew lbANew ubANew nWSR performed cputime starttime m iter s = .ok o →
      (o.rv = SUCCESSFUL_RETURN → Solved o.s gNew lbNew ubNew lbANew ubANew ∧ Same o.s s) ∧
      (o.rv = RET_MAX_NWSR_REACHED → o.s.Good ∧ Same o.s s) := by
  have fin : ∀ (s : QPC K) (n : Int) (t : K) (c : Option K), s.Good →
      ((s.finish RET_MAX_NWSR_REACHED n c t).rv = SUCCESSFUL_RETURN →
        Solved (s.finish RET_MAX_NWSR_REACHED n c t).s gNew lbNew ubNew lbANew ubANew ∧ Same (s.finish RET_MAX_NWSR_REACHED n c t).s s) ∧
      ((s.finish RET_MAX_NWSR_REACHED n c t).rv = RET_MAX_NWSR_REACHED →
        (s.finish RET_MAX_NWSR_REACHED n c t).s.Good ∧ Same (s.finish RET_MAX_NWSR_REACHED n c t).s s) := by
    intro s n t c hG
    obtain ⟨k, ek⟩ := finish_frame s RET_MAX_NWSR_REACHED n c t
    refine ⟨fun h => (by rw [finish_rv] at h; cases h), fun _ => ?_⟩
    exact ⟨hG.frame s.tau s.infeasible s.unbounded s.status s.count s.rampOffset k s.haveCholesky ek,
      Same.frame' s.tau s.infeasible s.unbounded s.status s.count s.rampOffset k ek⟩
  intro m
  induction m with
  | zero =>
    intro iter s o hG _ _ _ he
    simp only [solveLoop, Res.ok.injEq] at he
    subst he
    exact fin s nWSR starttime cputime hG
  | succ m ih =>
    intro iter s o h hp hT hc he
    rw [solveLoop] at he
    obtain ⟨k, ek⟩ := QPB.isCPU_frame s.toQPB cputime starttime (iter - performed)
    rw [LoopClean] at hc
    rcases hpp : s.toQPB.isCPUtimeLimitExceeded cputime starttime (iter - performed) with ⟨b, s'⟩
    rw [hpp] at ek hc he
    dsimp only at ek hc he
    subst ek
    have h' : ({ s with now := k } : QPC K).Good :=
      h.frame s.tau s.infeasible s.unbounded s.status s.count s.rampOffset k s.haveCholesky rfl
    have hS' : Same ({ s with now := k } : QPC K) s := Same.frame' s.tau s.infeasible s.unbounded s.status s.count s.rampOffset k rfl
    cases b with
    | true =>
      simp only [Res.ok.injEq] at he
      subst he
      obtain ⟨f1, f2⟩ := fin { s with now := k } iter starttime cputime h'
      exact ⟨fun hrv => ⟨(f1 hrv).1, (f1 hrv).2.trans hS'⟩, fun hrv => ⟨(f2 hrv).1, (f2 hrv).2.trans hS'⟩⟩
    | false =>
      dsimp only at he
      rw [Res.bind_eq_ok] at he
      obtain ⟨e, e1, he⟩ := he
      obtain ⟨k1, k2⟩ := iteration_spec h' (hp.same hS') (hT.same hS') hc.1 e1
      cases e with
      | error o' =>
        simp only [Res.ok.injEq] at he
        subst he
        obtain ⟨n1, n2⟩ := k1 o' rfl
        exact ⟨fun hrv => ⟨(n2 hrv).1, (n2 hrv).2.trans hS'⟩, fun hrv => absurd hrv n1⟩
      | ok s1 =>
        dsimp only at he
        obtain ⟨i1, i2⟩ := k2 s1 rfl
        have i2' := i2.trans hS'
        obtain ⟨o2, o3⟩ := ih (iter+1) s1 o i1 (hp.same i2') (hT.same i2') (hc.2 s1 e1) he
        exact ⟨fun hrv => ⟨(o2 hrv).1, (o2 hrv).2.trans i2'⟩, fun hrv => ⟨(o3 hrv).1, (o3 hrv).2.trans i2'⟩⟩

end QPC
end QpOASES
