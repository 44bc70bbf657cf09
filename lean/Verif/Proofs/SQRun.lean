import Verif.Proofs.SQNew
import Verif.Proofs.QPCCheck

/-!
A hotstart with new matrices as a whole: new auxiliary QP, then the hotstart with the new vectors.
-/
namespace QpOASES
namespace QPC
open Finset Props Spec ReturnValue SubjectToStatus SubjectToType HessianType QProblemStatus
open QPB (lowerOf upperOf EqualitiesOK)

set_option linter.unusedSectionVars false

variable {K : Type} [Field K] [LinearOrder K] [IsStrictOrderedRing K]

theorem workingSetClean_iff (sq : K → K) (s : QPC K) (lbNew ubNew lbANew ubANew : Option (Nat → K)) : WorkingSetClean sq s lbNew ubNew lbANew ubANew ↔
    ((s.freshWS lbNew ubNew lbANew ubANew).isTrivial (some (s.formerB lbNew ubNew lbANew ubANew s.bounds)) (some (s.formerC lbNew ubNew lbANew ubANew s.cons)) = false →
      LoopsClean sq (s.freshWS lbNew ubNew lbANew ubANew).plainLI (s.formerB lbNew ubNew lbANew ubANew s.bounds) (s.formerC lbNew ubNew lbANew ubANew s.cons)) ∧
    ∀ s3, setupAuxiliaryWorkingSet sq (s.freshWS lbNew ubNew lbANew ubANew) (some (s.formerB lbNew ubNew lbANew ubANew s.bounds))
        (some (s.formerC lbNew ubNew lbANew ubANew s.cons)) true = .ok (SUCCESSFUL_RETURN, s3) →
      KeptWith s.bounds (s.freshWS lbNew ubNew lbANew ubANew).bounds s3.bounds s3.y s3.nV ∧
      KeptWith s.cons (s.freshWS lbNew ubNew lbANew ubANew).cons s3.cons (fun k => s3.y (s3.nV + k)) s3.nC ∧
      (s3.general = true → ∀ H, s3.H = some H → PivotsOK sq s3.nZ s3.nV s3.nZ 0 (fun q => s3.cholInput H (q % s3.nV) (q / s3.nV))) ∧
      ∀ r s4, computeProjectedCholesky sq s3 = .ok (r, s4) → r = SUCCESSFUL_RETURN := Iff.rfl

instance (old w0 w : WS) (y : Nat → K) (n : Nat) : Decidable (KeptWith old w0 w y n) := by unfold KeptWith; infer_instance

instance (sq : K → K) (s : QPC K) (lbNew ubNew lbANew ubANew : Option (Nat → K)) : Decidable (WorkingSetClean sq s lbNew ubNew lbANew ubANew) :=
  decidable_of_iff' _ (workingSetClean_iff sq s lbNew ubNew lbANew ubANew)

instance (sq : K → K) (s : QPC K) (H A lbNew ubNew lbANew ubANew : Option (Nat → K)) : Decidable (NewClean sq s H A lbNew ubNew lbANew ubANew) := by
  unfold NewClean; infer_instance

/-- The hypotheses on exact arithmetic for a whole hotstart with new matrices. -/
def NewRunClean (sq : K → K) (s : QPC K) (H : Option (Nat → K)) (gNew : Nat → K) (A lbNew ubNew lbANew ubANew : Option (Nat → K)) (nWSR : Int)
    (cputime : Option K) : Prop :=
  NewClean sq { s with toQPB := (s.toQPB.startClock cputime).2 } H A lbNew ubNew lbANew ubANew ∧
  ∀ s1, setupNewAuxiliaryQP sq { s with toQPB := (s.toQPB.startClock cputime).2 } H A lbNew ubNew lbANew ubANew = .ok (SUCCESSFUL_RETURN, s1) →
    RunClean sq { s1 with toQPB := { (s1.toQPB.stopClock cputime (s.toQPB.startClock cputime).1).2 with
      count := (s1.toQPB.stopClock cputime (s.toQPB.startClock cputime).1).2.count + 1 } } gNew lbNew ubNew lbANew ubANew nWSR
      (cputime.map fun c => c - (s1.toQPB.stopClock cputime (s.toQPB.startClock cputime).1).1.getD 0) 0

instance (sq : K → K) (s : QPC K) (H : Option (Nat → K)) (gNew : Nat → K) (A lbNew ubNew lbANew ubANew : Option (Nat → K)) (nWSR : Int)
    (cputime : Option K) : Decidable (NewRunClean sq s H gNew A lbNew ubNew lbANew ubANew nWSR cputime) := by
  unfold NewRunClean; infer_instance

theorem Live.clock {n m : Nat} {M A : Nat → Nat → K} {l0 u0 : Nat → K} {s : QPC K} (h : Live n m M A l0 u0 s) (k : Nat) :
    Live n m M A l0 u0 { s with now := k } :=
  ⟨h.good.frame s.tau s.infeasible s.unbounded s.status s.count s.rampOffset k s.haveCholesky rfl, h.nV, h.nC, h.mat, h.pos, h.chol,
    ⟨h.params.options, h.params.ramp⟩, h.relax, h.reg, h.hess, h.types, h.unbounded, h.equal, h.noLower, h.noUpper⟩

theorem hotstartNew_cases {sq : K → K} {fuel : Nat} {s : QPC K} {H : Option (Nat → K)} {gNew : Nat → K} {A lbNew ubNew lbANew ubANew : Option (Nat → K)}
    {nWSR : Int} {cputime : Option K} {gB gC : QPB.Guess} {o : OutC K}
    (e : hotstartNew sq fuel s H gNew A lbNew ubNew lbANew ubANew nWSR cputime gB gC = .ok o)
    (hr : o.rv = SUCCESSFUL_RETURN ∨ o.rv = RET_MAX_NWSR_REACHED) :
    ∃ s1 o', setupNewAuxiliaryQP sq { s with toQPB := (s.toQPB.startClock cputime).2 } H A lbNew ubNew lbANew ubANew = .ok (SUCCESSFUL_RETURN, s1) ∧
      hotstart sq fuel { s1 with toQPB := (s1.toQPB.stopClock cputime (s.toQPB.startClock cputime).1).2 } gNew lbNew ubNew lbANew ubANew nWSR
        (cputime.map fun c => c - (s1.toQPB.stopClock cputime (s.toQPB.startClock cputime).1).1.getD 0) gB gC = .ok o' ∧
      o.rv = o'.rv ∧ ∃ k, o.s = { o'.s with now := k } := by
  unfold hotstartNew at e
  split at e
  · simp only [Res.ok.injEq] at e
    subst e
    simp at hr
  · dsimp only at e
    rw [Res.bind_eq_ok] at e
    obtain ⟨⟨r, s1⟩, e1, e⟩ := e
    dsimp only at e
    split at e
    · simp only [Res.ok.injEq] at e
      subst e
      simp at hr
    · rename_i hne
      obtain rfl : r = SUCCESSFUL_RETURN := not_not.1 hne
      rw [Res.bind_eq_ok] at e
      obtain ⟨o', e2, e⟩ := e
      simp only [Res.ok.injEq] at e
      obtain ⟨k, ek⟩ := QPB.stopClock_frame o'.s.toQPB cputime (s.toQPB.startClock cputime).1
      subst e
      refine ⟨s1, o', e1, e2, rfl, k, ?_⟩
      dsimp only
      rw [ek]

/-- Old state and new data for which a hotstart with new matrices is claimed to work: the point is feasible for the limits the object
holds, limits that count as equal are equal, the new Hessian is symmetric and not zero. -/
structure NewOK (n m : Nat) (s : QPC K) (H Anew : Option (Nat → K)) (M' : Nat → Nat → K) (a l u lA uA : Nat → K) : Prop where
  matrix : Anew = some a ∨ Anew = none ∧ m = 0
  hessian : NewHessian s H M'
  symmetric : QP.Symmetric n M'
  bounds : ∀ i < n, s.lb i ≤ s.x i ∧ s.x i ≤ s.ub i
  cons : ∀ k < m, 0 ≤ s.Axl k ∧ 0 ≤ s.Axu k
  absent : ∀ k < m, s.cons.type k = ST_UNBOUNDED → s.cons.status k = ST_INACTIVE
  equal : s.options.enableEqualities = true → ∀ i < n, s.lb i > s.ub i - s.options.boundTolerance → s.lb i = s.ub i
  equalA : s.options.enableEqualities = true → ∀ k < m, -s.Axl k > s.Axu k - s.options.boundTolerance → -s.Axl k = s.Axu k
  box : ∀ i < n, l i ≤ u i
  boxA : ∀ k < m, lA k ≤ uA k
  newEqual : s.options.enableEqualities = true → ∀ i < n, l i > u i - s.options.boundTolerance → l i = u i
  kind : SameKind (s.options.enableEqualities = true) s.options.boundTolerance m lA uA lA uA

/-- The state in which the inner hotstart is called. -/
theorem Live.newStart {sq : K → K} {n m : Nat} {M A : Nat → Nat → K} {l0 u0 : Nat → K} {s : QPC K} (h : Live n m M A l0 u0 s)
    {H Anew : Option (Nat → K)} {M' : Nat → Nat → K} {g a l u lA uA : Nat → K} (hd : NewOK n m s H Anew M' a l u lA uA) {nWSR : Int} {cputime : Option K}
    (hc : NewRunClean sq s H g Anew (some l) (some u) (some lA) (some uA) nWSR cputime) {s1 : QPC K}
    (e : setupNewAuxiliaryQP sq { s with toQPB := (s.toQPB.startClock cputime).2 } H Anew (some l) (some u) (some lA) (some uA) = .ok (SUCCESSFUL_RETURN, s1)) :
    ∃ s2 : QPC K, s2 = { s1 with toQPB := (s1.toQPB.stopClock cputime (s.toQPB.startClock cputime).1).2 } ∧
      Live n m M' (fun k j => a (k * n + j)) lA uA s2 ∧ s2.options = s.options ∧ (∀ i < n, s2.lb i ≤ s2.x i ∧ s2.x i ≤ s2.ub i) ∧
      EqualitiesOK s2.toQPB (some l) (some u) ∧
      RunClean sq { s2 with count := s2.count + 1 } g (some l) (some u) (some lA) (some uA) nWSR
        (cputime.map fun c => c - (s1.toQPB.stopClock cputime (s.toQPB.startClock cputime).1).1.getD 0) 0 := by
  refine ⟨_, rfl, ?_⟩
  have hr := hc.2 _ e
  have hcl := hc.1
  obtain ⟨k, ek⟩ := startClock_frame s.toQPB cputime
  obtain ⟨k2, ek2⟩ := QPB.stopClock_frame s1.toQPB cputime (s.toQPB.startClock cputime).1
  rw [ek] at hcl e
  generalize (s1.toQPB.stopClock cputime (s.toQPB.startClock cputime).1) = q at *
  obtain ⟨c1, q2⟩ := q
  dsimp only at *
  subst ek2
  obtain ⟨hl, hst, ho, hx, hy, hlb, hub, heq⟩ := (h.clock k).newMatrices hd.matrix hd.hessian hd.symmetric hd.bounds hd.cons hd.absent hd.equal hd.equalA hcl e
  have he := heq hd.newEqual
  refine ⟨hl.clock k2, ho, fun i hi => ?_, ⟨he.1, he.2⟩, hr⟩
  show s1.lb i ≤ s1.x i ∧ s1.x i ≤ s1.ub i
  rw [hlb, hub, hx]
  exact hd.bounds i hi

end QPC
end QpOASES
