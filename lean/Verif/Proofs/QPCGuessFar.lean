import Verif.Proofs.QPCUpdate
import Verif.Proofs.QPCFar

/-!
Hotstarts with far bounds and a guess.
-/
namespace QpOASES
namespace QPC
open Props Spec ReturnValue SubjectToStatus SubjectToType HessianType QProblemStatus
open QPB (lowerOf upperOf Proper)

set_option linter.unusedSectionVars false

variable {K : Type} [Field K] [LinearOrder K] [IsStrictOrderedRing K]

/-- The hypotheses on the run with far bounds that follows after a guess has been installed -/
def FarAfter (sq : K → K) (fuel : Nat) (s : QPC K) (wB wC : WS) (gNew : Nat → K) (lbNew ubNew lbANew ubANew : Option (Nat → K)) (nWSR : Int)
    (cputime : Option K) : Prop :=
  ∀ s1, setupAuxiliaryQP sq (s.guessStart cputime) (some wB) (some wC) = .ok (SUCCESSFUL_RETURN, s1) →
    FarRunClean sq fuel { (s.guessReady s1 cputime) with count := (s.guessReady s1 cputime).count + 1 } gNew lbNew ubNew lbANew ubANew nWSR
      (cputime.map fun c => c - s.guessTime s1 cputime)

instance (sq : K → K) (fuel : Nat) (s : QPC K) (wB wC : WS) (gNew : Nat → K) (lbNew ubNew lbANew ubANew : Option (Nat → K)) (nWSR : Int) (cputime : Option K) :
    Decidable (FarAfter sq fuel s wB wC gNew lbNew ubNew lbANew ubANew nWSR cputime) := by unfold FarAfter; infer_instance

/-- The homotopy after a guess has been installed, with far bounds -/
theorem Live.resumeFar {sq : K → K} (fuel : Nat) {n m : Nat} {M A : Nat → Nat → K} {l0 u0 : Nat → K} {s s1 : QPC K} (l1 : Live n m M A l0 u0 s1)
    (l2 : s1.options = s.options) (hf : FarOptions s.options)
    {g : Nat → K} {lb ub lbA ubA : Option (Nat → K)} {nWSR : Int} {cputime : Option K}
    (hbox : ∀ i < n, lowerOf lb i ≤ upperOf ub i) (hboxA : ∀ k < m, lowerOf lbA k ≤ upperOf ubA k)
    (c4 : FarRunClean sq fuel { (s.guessReady s1 cputime) with count := (s.guessReady s1 cputime).count + 1 } g lb ub lbA ubA nWSR
      (cputime.map fun c => c - s.guessTime s1 cputime)) {o : OutC K}
    (e2 : hotstartMain sq fuel (s.guessReady s1 cputime) g lb ub lbA ubA nWSR (cputime.map fun c => c - s.guessTime s1 cputime)
      (s.guessTime s1 cputime) = .ok o) :
    FarEnd n m M A l0 u0 s.options g lb ub lbA ubA o := by
  obtain ⟨k2, ek2⟩ := QPB.stopClock_frame ({ s1 with status := QPS_AUXILIARYQPSOLVED } : QPC K).toQPB cputime (s.toQPB.startClock cputime).1
  have er : s.guessReady s1 cputime = { s1 with status := QPS_AUXILIARYQPSOLVED, now := k2 } := by unfold guessReady; rw [ek2]
  rw [er] at c4 e2
  have lv : Live n m M A _ _ ({ s1 with status := QPS_AUXILIARYQPSOLVED, now := k2 } : QPC K) :=
    ⟨l1.good.frame s1.tau s1.infeasible s1.unbounded QPS_AUXILIARYQPSOLVED s1.count s1.rampOffset k2 s1.haveCholesky rfl, l1.nV, l1.nC, l1.mat, l1.pos, l1.chol,
      ⟨l1.params.options, l1.params.ramp⟩, l1.relax, l1.reg, l1.hess, l1.types, l1.unbounded, l1.equal, l1.noLower, l1.noUpper⟩
  generalize hs3 : ({ s1 with status := QPS_AUXILIARYQPSOLVED, now := k2 } : QPC K) = s3 at *
  have l2' : s3.options = s.options := by rw [← hs3]; exact l2
  unfold hotstartMain at e2
  rw [if_neg (by rw [consistent_of_target (s := s3) (by rw [lv.nV]; exact hbox) (by rw [lv.nC]; exact hboxA)]; decide)] at e2
  dsimp only at e2
  rw [if_neg (by rw [lv.chol]; decide), Res.bind_ok] at e2
  dsimp only at e2
  rw [if_neg (by simp)] at e2
  have := runOn_far (s := { s3 with count := s3.count + 1 }) fuel (lv.frame s3.infeasible s3.unbounded s3.status (s3.count + 1) s3.rampOffset s3.now)
    (by show FarOptions s3.options; rw [l2']; exact hf) c4 e2
  have ho : ({ s3 with count := s3.count + 1 } : QPC K).options = s.options := l2'
  rw [ho] at this
  exact this

/-- A guess installed from scratch, with far bounds -/
theorem Live.guessedFar {sq : K → K} (fuel : Nat) {n m : Nat} {M A : Nat → Nat → K} {l0 u0 : Nat → K} {s : QPC K} (h : Live n m M A l0 u0 s) {wB wC : WS}
    (hg : GuessOK s wB wC) (hr : s.shallRefactorise wB wC = true) (hx : ∀ i < n, s.lb i ≤ s.x i ∧ s.x i ≤ s.ub i)
    (hxA : ∀ k < m, s.lbA k ≤ s.prodA s.x k ∧ s.prodA s.x k ≤ s.ubA k) (hf : FarOptions s.options)
    {g : Nat → K} {lb ub lbA ubA : Option (Nat → K)} {nWSR : Int} {cputime : Option K}
    (hbox : ∀ i < n, lowerOf lb i ≤ upperOf ub i) (hboxA : ∀ k < m, lowerOf lbA k ≤ upperOf ubA k)
    (hc : AfreshClean sq (s.guessStart cputime) wB wC) (hc2 : FarAfter sq fuel s wB wC g lb ub lbA ubA nWSR cputime) {o : OutC K}
    (e : QPC.hotstart sq fuel s g lb ub lbA ubA nWSR cputime (.other wB) (.other wC) = .ok o) (hrv : o.rv ≠ RET_QPOBJECT_NOT_SETUP ∧ o.rv ≠ RET_SETUP_AUXILIARYQP_FAILED) :
    FarEnd n m M A s.lbA s.ubA s.options g lb ub lbA ubA o := by
  obtain ⟨s1, e1, e2⟩ := hotstart_guessed e hrv
  have c4 := hc2 s1 e1
  obtain ⟨k, ek⟩ := startClock_frame s.toQPB cputime
  have es : s.guessStart cputime = { s with now := k } := by unfold guessStart; rw [ek]
  rw [es] at hc e1
  have hg' : GuessOK ({ s with now := k } : QPC K) wB wC := ⟨hg.properB, hg.properC, hg.limitB, hg.limitC, hg.signB, hg.signC⟩
  obtain ⟨l1, l2, l3⟩ := (h.clock k).afresh hg' hr hx hxA hc e1
  exact l1.resumeFar (s := s) fuel l2 hf hbox hboxA c4 e2

/-- A guess installed by updates, with far bounds -/
theorem Live.guessedUpdateFar {sq : K → K} (fuel : Nat) {n m : Nat} {M A : Nat → Nat → K} {l0 u0 : Nat → K} {s : QPC K} (h : Live n m M A l0 u0 s) {wB wC : WS}
    (hg : UpdateOK s wB wC) (hr : s.shallRefactorise wB wC = false) (hx : ∀ i < n, s.lb i ≤ s.x i ∧ s.x i ≤ s.ub i)
    (hxA : ∀ k < m, s.lbA k ≤ s.prodA s.x k ∧ s.prodA s.x k ≤ s.ubA k) (hf : FarOptions s.options)
    {g : Nat → K} {lb ub lbA ubA : Option (Nat → K)} {nWSR : Int} {cputime : Option K}
    (hbox : ∀ i < n, lowerOf lb i ≤ upperOf ub i) (hboxA : ∀ k < m, lowerOf lbA k ≤ upperOf ubA k)
    (hc : UpdatedClean sq (s.guessStart cputime) wB wC) (hc2 : FarAfter sq fuel s wB wC g lb ub lbA ubA nWSR cputime) {o : OutC K}
    (e : QPC.hotstart sq fuel s g lb ub lbA ubA nWSR cputime (.other wB) (.other wC) = .ok o) (hrv : o.rv ≠ RET_QPOBJECT_NOT_SETUP ∧ o.rv ≠ RET_SETUP_AUXILIARYQP_FAILED) :
    FarEnd n m M A l0 u0 s.options g lb ub lbA ubA o := by
  obtain ⟨s1, e1, e2⟩ := hotstart_guessed e hrv
  have c4 := hc2 s1 e1
  obtain ⟨k, ek⟩ := startClock_frame s.toQPB cputime
  have es : s.guessStart cputime = { s with now := k } := by unfold guessStart; rw [ek]
  rw [es] at hc e1
  have hg' : UpdateOK ({ s with now := k } : QPC K) wB wC := ⟨hg.properB, hg.properC, hg.signB, hg.signC⟩
  obtain ⟨l1, l2, l3⟩ := (h.clock k).updated hg' hr hx hxA hc e1
  exact l1.resumeFar (s := s) fuel l2 hf hbox hboxA c4 e2

end QPC
end QpOASES
