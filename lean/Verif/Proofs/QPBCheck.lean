import Verif.Proofs.QPBKkt

/-!
Deciding by evaluation that a run of the bound-constrained solver meets the hypotheses of its specification.
-/
namespace QpOASES
open Finset Props Spec SubjectToStatus SubjectToType ReturnValue HessianType QProblemStatus

set_option linter.unusedSectionVars false

variable {K : Type} [Field K] [LinearOrder K] [IsStrictOrderedRing K]

instance (e d : K) : Decidable (QPB.DenOK e d) := by unfold QPB.DenOK; infer_instance
instance (n : Nat) (R : Nat → Nat → K) : Decidable (DiagOK n R) := by unfold DiagOK; infer_instance
instance (s : QPB K) : Decidable s.scalarH := by unfold QPB.scalarH; infer_instance

namespace QPB

def noTinyB (s : QPB K) (dlb dub : Nat → K) (d : Dir K) : Bool :=
  decide (∀ k < s.bounds.nFX, s.bounds.type (s.bounds.fx k) ≠ ST_EQUALITY →
    DenOK s.options.epsDen (sg s.bounds (s.bounds.fx k) (-d.yFX k))) &&
  (s.bounds.noLower || decide (∀ k < s.bounds.nFR, DenOK s.options.epsDen (dlb (s.bounds.fr k) - d.xFR k))) &&
  (s.bounds.noUpper || decide (∀ k < s.bounds.nFR, DenOK s.options.epsDen (d.xFR k - dub (s.bounds.fr k))))

theorem noTinyB_spec {s : QPB K} {dlb dub : Nat → K} {d : Dir K} (h : noTinyB s dlb dub d = true) : NoTiny s dlb dub d := by
  unfold noTinyB at h
  rw [Bool.and_eq_true, Bool.and_eq_true, Bool.or_eq_true, Bool.or_eq_true] at h
  obtain ⟨⟨h1, h2⟩, h3⟩ := h
  refine ⟨of_decide_eq_true h1, fun hl => ?_, fun hl => ?_⟩
  · rcases h2 with h2 | h2
    · rw [hl] at h2; cases h2
    · exact of_decide_eq_true h2
  · rcases h3 with h2 | h2
    · rw [hl] at h2; cases h2
    · exact of_decide_eq_true h2

def refacB (sq : K → K) (s : QPB K) (iter : Int) : Bool :=
  if s.options.enableCholeskyRefactorisation > 0 ∧ iter % s.options.enableCholeskyRefactorisation = 0 then
    match computeCholesky sq s with
    | .ok (SUCCESSFUL_RETURN, s') => decide (DiagOK s'.bounds.nFR s'.R)
    | _ => true
  else true

theorem refacB_spec {sq : K → K} {s : QPB K} {iter : Int} (h : refacB sq s iter = true) : RefacClean sq s iter := by
  intro hc s' e
  unfold refacB at h
  rw [if_pos hc, e] at h
  exact of_decide_eq_true h

def iterB (sq : K → K) (s : QPB K) (gNew lbN ubN : Nat → K) (iter : Int) : Bool :=
  let dlb := fun i => lbN i - s.lb i
  let dub := fun i => ubN i - s.ub i
  let dg := fun i => gNew i - s.g i
  let z := s.deltaIsZero dlb dub
  (!z || s.bounds.fixed.all fun i => decide ((if s.bounds.status i = ST_LOWER then lbN i - s.lb i else ubN i - s.ub i) = 0)) &&
  (match determineStepDirection s dg dlb dub z with
   | .ok (some d) =>
     noTinyB s dlb dub d &&
     (match stepLength s dlb dub d with
      | .ok (tau, _) => decide (tau = 0 ∨ ZERO < tau)
      | _ => true) &&
     (match performStep s dg dlb dub d with
      | .ok (s1, bc) =>
        (match changeActiveSet sq s1 bc with
         | .ok (SUCCESSFUL_RETURN, s2) => refacB sq s2 iter
         | _ => true)
      | _ => true)
   | _ => true)

theorem iterB_spec {sq : K → K} {s : QPB K} {gNew lbN ubN : Nat → K} {iter : Int} (h : iterB sq s gNew lbN ubN iter = true) :
    IterClean sq s gNew lbN ubN iter := by
  unfold iterB at h
  dsimp only at h
  rw [Bool.and_eq_true, Bool.or_eq_true] at h
  obtain ⟨h1, h2⟩ := h
  have key : ∀ d, determineStepDirection s (fun i => gNew i - s.g i) (fun i => lbN i - s.lb i) (fun i => ubN i - s.ub i)
      (s.deltaIsZero (fun i => lbN i - s.lb i) (fun i => ubN i - s.ub i)) = .ok (some d) →
      noTinyB s (fun i => lbN i - s.lb i) (fun i => ubN i - s.ub i) d = true ∧
      (∀ tau bc, stepLength s (fun i => lbN i - s.lb i) (fun i => ubN i - s.ub i) d = .ok (tau, bc) → tau = 0 ∨ ZERO < tau) ∧
      (∀ s1 bc, performStep s (fun i => gNew i - s.g i) (fun i => lbN i - s.lb i) (fun i => ubN i - s.ub i) d = .ok (s1, bc) →
        ∀ s2, changeActiveSet sq s1 bc = .ok (SUCCESSFUL_RETURN, s2) → RefacClean sq s2 iter) := by
    intro d hd
    rw [hd] at h2
    dsimp only at h2
    rw [Bool.and_eq_true, Bool.and_eq_true] at h2
    obtain ⟨⟨k1, k2⟩, k3⟩ := h2
    refine ⟨k1, fun tau bc e => ?_, fun s1 bc e s2 e2 => ?_⟩
    · rw [e] at k2; exact of_decide_eq_true k2
    · rw [e] at k3
      dsimp only at k3
      rw [e2] at k3
      exact refacB_spec k3
  refine ⟨fun hz i hi => ?_, fun d hd => noTinyB_spec (key d hd).1, fun d hd => (key d hd).2.1, fun d hd => (key d hd).2.2⟩
  rcases h1 with h1 | h1
  · rw [hz] at h1; cases h1
  · rw [List.all_eq_true] at h1
    exact of_decide_eq_true (h1 i hi)

def loopB (sq : K → K) (gNew : Nat → K) (lbNew ubNew : Option (Nat → K)) (nWSR performed : Int) (cputime : Option K)
    (starttime : K) : (m : Nat) → (iter : Int) → QPB K → Bool
  | 0, _, _ => true
  | m+1, iter, s =>
    let s0 := (s.isCPUtimeLimitExceeded cputime starttime (iter - performed)).2
    iterB sq { s0 with status := QPS_PERFORMINGHOMOTOPY } gNew (lowerOf lbNew) (upperOf ubNew) iter &&
    (match iteration sq s0 gNew lbNew ubNew iter nWSR cputime starttime with
     | .ok (.ok s') => loopB sq gNew lbNew ubNew nWSR performed cputime starttime m (iter+1) s'
     | _ => true)

theorem loopB_spec {sq : K → K} {gNew : Nat → K} {lbNew ubNew : Option (Nat → K)} {nWSR performed : Int} {cputime : Option K}
    {starttime : K} : ∀ (m : Nat) (iter : Int) (s : QPB K), loopB sq gNew lbNew ubNew nWSR performed cputime starttime m iter s = true →
    LoopClean sq gNew lbNew ubNew nWSR performed cputime starttime m iter s := by
  intro m
  induction m with
  | zero => intro iter s _; trivial
  | succ m ih =>
    intro iter s h
    unfold loopB at h
    dsimp only at h
    rw [Bool.and_eq_true] at h
    refine ⟨iterB_spec h.1, fun s' e => ih _ _ ?_⟩
    have h2 := h.2
    rw [e] at h2
    exact h2

def runB (sq : K → K) (s : QPB K) (gNew : Nat → K) (lbNew ubNew : Option (Nat → K)) (nWSR : Int) (cputime : Option K)
    (performed : Int) : Bool :=
  loopB sq gNew lbNew ubNew nWSR performed cputime (s.loopStart lbNew ubNew cputime).1 (nWSR - performed).toNat performed
    (s.loopStart lbNew ubNew cputime).2

theorem runB_spec {sq : K → K} {s : QPB K} {gNew : Nat → K} {lbNew ubNew : Option (Nat → K)} {nWSR : Int} {cputime : Option K}
    {performed : Int} (h : runB sq s gNew lbNew ubNew nWSR cputime performed = true) :
    RunClean sq s gNew lbNew ubNew nWSR cputime performed := loopB_spec _ _ _ h

def coldB (sq : K → K) (s : QPB K) (xOpt yOpt : Option (Nat → K)) (guess : Option WS) (nWSR : Int) (cputime : Option K) : Bool :=
  match prepareInitialQP sq (s.startClock cputime).2 xOpt yOpt guess none nWSR cputime with
  | .ok (.ok s') =>
    let q := s'.stopClock cputime (s.startClock cputime).1
    match setupInitialCholesky sq { q.2 with count := q.2.count + 1 } with
    | .ok (SUCCESSFUL_RETURN, s'') =>
      decide (s''.scalarH ∨ DiagOK s''.bounds.nFR s''.R) &&
      runB sq s'' s.g (some s.lb) (some s.ub) nWSR (cputime.map fun c => c - q.1.getD 0) 0
    | _ => true
  | _ => true

theorem coldB_spec {sq : K → K} {s : QPB K} {xOpt yOpt : Option (Nat → K)} {guess : Option WS} {nWSR : Int} {cputime : Option K}
    (h : coldB sq s xOpt yOpt guess nWSR cputime = true) : ColdClean sq s xOpt yOpt guess nWSR cputime := by
  intro s' e q s'' e2
  unfold coldB at h
  rw [e] at h
  dsimp only at h
  rw [e2] at h
  dsimp only at h
  rw [Bool.and_eq_true] at h
  exact ⟨of_decide_eq_true h.1, runB_spec h.2⟩

end QPB
end QpOASES
