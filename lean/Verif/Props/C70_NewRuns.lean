import Verif.Props.C38_C44_General
import Verif.Props.C54_NewMatrices

/-!
C70: hotstarts with new matrices keep the budget of working set recalculations and the status protocol.

No assumption is made about the state of the object, the matrices and the options.
-/
namespace QpOASES.Props.General
open Spec QpOASES.QPC ReturnValue SubjectToStatus SubjectToType HessianType QProblemStatus

set_option linter.unusedSectionVars false

variable {K : Type} [Field K] [LinearOrder K] [IsStrictOrderedRing K]

/-! ### The change of the matrices -/

theorem changeMatrix_frame (sq : K → K) (s : QPC K) (A : Option (Nat → K)) :
    (changeMatrix sq s A).nV = s.nV ∧ (changeMatrix sq s A).nC = s.nC ∧ (changeMatrix sq s A).status = s.status := by
  unfold changeMatrix
  split
  · split <;> exact ⟨rfl, rfl, rfl⟩
  · exact ⟨rfl, rfl, rfl⟩

theorem changeHessian_frame {sq : K → K} {s s' : QPC K} {H : Option (Nat → K)} {r : ReturnValue} (e : changeHessian sq s H = .ok (r, s')) :
    s'.nV = s.nV ∧ s'.nC = s.nC ∧ s'.status = s.status := by
  unfold changeHessian at e
  split at e
  · cases e; exact ⟨rfl, rfl, rfl⟩
  · rename_i H
    dsimp only at e
    have k : ∀ b : QPB K, b.determineHessianType.2.nV = b.nV ∧ b.determineHessianType.2.status = b.status := by
      intro b
      unfold QPB.determineHessianType QPB.ensureRegularisation
      dsimp only
      repeat' split
      all_goals exact ⟨rfl, rfl⟩
    have k := k ({ s.toQPB with H := some fun i j => H (i * s.nV + j), hessianType := HST_UNKNOWN } : QPB K)
    generalize ({ s.toQPB with H := some fun i j => H (i * s.nV + j), hessianType := HST_UNKNOWN } : QPB K).determineHessianType = p at e k
    split at e
    · cases e; exact ⟨k.1, rfl, k.2⟩
    · split at e
      · obtain ⟨⟨r1, s1⟩, e1, e⟩ := Res.bind_eq_ok.1 e
        obtain ⟨H', v, f⟩ := regulariseHessian_fields e1
        cases e
        rw [f]
        exact ⟨k.1, rfl, k.2⟩
      · cases e; exact ⟨k.1, rfl, k.2⟩

theorem newFactors_status {sq : K → K} {s : QPC K} {lbNew ubNew lbANew ubANew : Option (Nat → K)} {p : ReturnValue × QPC K}
    (e : newFactors sq s lbNew ubNew lbANew ubANew = .ok p) : p.1 ≠ SUCCESSFUL_RETURN → p.2.status = s.status := by
  intro hp
  have ks : ∀ {a b : QPC K}, Keeps a b → a.status = b.status := by
    rintro a b ⟨T, Q, R, wB, wC, o, t, rfl⟩
    rfl
  unfold newFactors at e
  rw [Res.bind_eq_ok] at e
  obtain ⟨⟨r, s1, oB, oC⟩, e1, e⟩ := e
  have k1 : Keeps s1 s := tryWorkingSet_keeps e1
  dsimp only at e
  split at e
  · cases e; exact ks k1
  · cases e; exact absurd rfl hp
  rw [Res.bind_eq_ok] at e
  obtain ⟨⟨r2, s2, _, _⟩, e2, e⟩ := e
  have k2 : Keeps s2 s := (tryWorkingSet_keeps e2).trans k1
  dsimp only at e
  split at e
  · cases e; exact ks k2
  · cases e; exact absurd rfl hp

/-- How the change of the matrices ends: refused, without anything being changed; failed; done. -/
theorem setupNewAuxiliaryQP_status {sq : K → K} {s s1 : QPC K} {H A lbNew ubNew lbANew ubANew : Option (Nat → K)} {r : ReturnValue}
    (hi : ¬ Props.NotInitialised s.toQPB) (e : setupNewAuxiliaryQP sq s H A lbNew ubNew lbANew ubANew = .ok (r, s1)) :
    s1.nV = s.nV ∧ s1.nC = s.nC ∧ (r = SUCCESSFUL_RETURN → s1.status = QPS_AUXILIARYQPSOLVED) ∧
      (r ≠ SUCCESSFUL_RETURN → (A = none ∧ s.nC ≠ 0 ∧ s1 = s) ∨ s1.status = QPS_PREPARINGAUXILIARYQP) := by
  unfold setupNewAuxiliaryQP at e
  split at e
  · rename_i h
    cases e
    exact ⟨rfl, rfl, fun h => (by cases h), fun _ => Or.inl ⟨by simpa using h.1, by omega, rfl⟩⟩
  rw [if_neg (show ¬ (s.status = QPS_NOTINITIALISED ∨ s.status = QPS_PREPARINGAUXILIARYQP ∨ s.status = QPS_PERFORMINGHOMOTOPY) from hi)] at e
  dsimp only at e
  rw [Res.bind_eq_ok] at e
  obtain ⟨⟨r1, s2⟩, e1, e⟩ := e
  obtain ⟨a1, a2, a3⟩ := changeHessian_frame e1
  obtain ⟨b1, b2, b3⟩ := changeMatrix_frame sq ({ s with status := QPS_PREPARINGAUXILIARYQP } : QPC K) A
  have c1 : s2.nV = s.nV := a1.trans b1
  have c2 : s2.nC = s.nC := a2.trans b2
  have c3 : s2.status = QPS_PREPARINGAUXILIARYQP := a3.trans b3
  dsimp only at e
  split at e
  · rename_i hr
    cases e
    exact ⟨c1, c2, fun h => absurd h hr, fun _ => Or.inr c3⟩
  · rw [Res.bind_eq_ok] at e
    obtain ⟨s3, e3, e⟩ := e
    obtain ⟨g, f3⟩ := setupAuxiliaryQPgradient_fields e3
    obtain ⟨k, ks⟩ := newFactors_samePoint e
    have kf := newFactors_status e
    dsimp only at k ks kf
    rw [k.nV, k.nC]
    rw [f3] at kf ⊢
    exact ⟨c1, c2, ks, fun h => Or.inr ((kf h).trans c3)⟩

/-- The object `s1` in which the homotopy towards the new problem starts, after the matrices have been exchanged and, if there are
guesses, the guessed working sets have been installed. -/
def NewStart (sq : K → K) (s : QPC K) (H A lbNew ubNew lbANew ubANew : Option (Nat → K)) (c : Option K) (gB gC : QPB.Guess) (s1 : QPC K) : Prop :=
  ∃ s0 t, setupNewAuxiliaryQP sq { s with toQPB := (s.toQPB.startClock c).2 } H A lbNew ubNew lbANew ubANew = .ok (SUCCESSFUL_RETURN, s0) ∧
    StartsFrom sq { s0 with toQPB := (s0.toQPB.stopClock c (s.toQPB.startClock c).1).2 } t gB gC s1

/-- All calls of `hotstart` with new matrices on an object that has been initialised. -/
theorem hotstartNew_outcome {sq : K → K} {fuel : Nat} {s : QPC K} {H : Option (Nat → K)} {gNew : Nat → K} {A lbNew ubNew lbANew ubANew : Option (Nat → K)}
    {nWSR : Int} {c : Option K} {gB gC : QPB.Guess} {o : OutC K} (hi : ¬ Props.NotInitialised s.toQPB)
    (h : hotstartNew sq fuel s H gNew A lbNew ubNew lbANew ubANew nWSR c gB gC = .ok o) :
    (o.rv = RET_SETUP_AUXILIARYQP_FAILED ∧ o.nWSR = nWSR ∧
      ((A = none ∧ s.nC ≠ 0 ∧ ∃ k, o.s = { s with now := k }) ∨ o.s.status = QPS_PREPARINGAUXILIARYQP)) ∨
    ∃ s0 s1 t o1, setupNewAuxiliaryQP sq { s with toQPB := (s.toQPB.startClock c).2 } H A lbNew ubNew lbANew ubANew = .ok (SUCCESSFUL_RETURN, s0) ∧
      s1 = { s0 with toQPB := (s0.toQPB.stopClock c (s.toQPB.startClock c).1).2 } ∧
      s1.nV = s.nV ∧ s1.nC = s.nC ∧ s1.status = QPS_AUXILIARYQPSOLVED ∧ (c = none → t = none) ∧
      hotstart sq fuel s1 gNew lbNew ubNew lbANew ubANew nWSR t gB gC = .ok o1 ∧
      o.rv = o1.rv ∧ o.nWSR = o1.nWSR ∧ ∃ k, o.s = { o1.s with now := k } := by
  unfold hotstartNew at h
  rw [if_neg (show ¬ (s.status = QPS_NOTINITIALISED ∨ s.status = QPS_PREPARINGAUXILIARYQP ∨ s.status = QPS_PERFORMINGHOMOTOPY) from hi)] at h
  dsimp only at h
  rw [Res.bind_eq_ok] at h
  obtain ⟨⟨r, s0⟩, e0, h⟩ := h
  obtain ⟨k0, ek0⟩ := startClock_fields s c
  have hi0 : ¬ Props.NotInitialised ({ s with toQPB := (s.toQPB.startClock c).2 } : QPC K).toQPB := by rw [ek0]; exact hi
  obtain ⟨a1, a2, a3, a4⟩ := setupNewAuxiliaryQP_status hi0 e0
  have a1 : s0.nV = s.nV := a1.trans (by rw [ek0])
  have a2 : s0.nC = s.nC := a2
  dsimp only at h
  split at h
  · rename_i hr
    cases h
    refine Or.inl ⟨rfl, rfl, ?_⟩
    rcases a4 hr with ⟨b1, b2, b3⟩ | b
    · exact Or.inl ⟨b1, b2, k0, b3.trans ek0⟩
    · exact Or.inr b
  · rename_i hr
    obtain rfl : r = SUCCESSFUL_RETURN := not_not.1 hr
    rw [Res.bind_eq_ok] at h
    obtain ⟨o1, e1, h⟩ := h
    cases h
    obtain ⟨k1, ek1⟩ := stopClock_fields s0 c (s.toQPB.startClock c).1
    obtain ⟨k2, ek2⟩ := stopClock_fields o1.s c (s.toQPB.startClock c).1
    refine Or.inr ⟨s0, _, _, o1, e0, rfl, ?_, ?_, ?_, ?_, e1, rfl, rfl, k2, ek2⟩
    · rw [ek1]; exact a1
    · rw [ek1]; exact a2
    · rw [ek1]; exact a3 rfl
    · rintro rfl; rfl

/-! ### C70 -/

/-- C70, refusal: a hotstart with new matrices on an object that has never been initialised, whose initialisation or last change of
matrices has failed, or whose last homotopy has been aborted changes nothing and says so, also if working sets are guessed. -/
theorem C70_refused (sq : K → K) (fuel : Nat) {s : QPC K} (H : Option (Nat → K)) (gNew : Nat → K) (A lbNew ubNew lbANew ubANew : Option (Nat → K))
    (nWSR : Int) (c : Option K) (gB gC : QPB.Guess) (hu : Props.NotInitialised s.toQPB) :
    hotstartNew sq fuel s H gNew A lbNew ubNew lbANew ubANew nWSR c gB gC = .ok ⟨RET_HOTSTART_FAILED_AS_QP_NOT_INITIALISED, nWSR, c, s⟩ := by
  unfold hotstartNew
  exact if_pos hu

/-- C70, budget: no more recalculations of the working set are reported than allowed, nor made after the matrices have been exchanged.
The number reported is the number made when the problem is reported to be solved or the maximum to be reached (calls with
crossing limits excepted). -/
theorem C70_budget {sq : K → K} {fuel : Nat} {s : QPC K} {H : Option (Nat → K)} {gNew : Nat → K} {A lbNew ubNew lbANew ubANew : Option (Nat → K)}
    {nWSR : Int} {c : Option K} {gB gC : QPB.Guess} {o : OutC K} (hb : 0 ≤ nWSR)
    (h : hotstartNew sq fuel s H gNew A lbNew ubNew lbANew ubANew nWSR c gB gC = .ok o) :
    o.nWSR ≤ nWSR ∧
    (o.rv ≠ RET_HOTSTART_FAILED_AS_QP_NOT_INITIALISED → o.rv ≠ RET_SETUP_AUXILIARYQP_FAILED → o.rv ≠ RET_QPOBJECT_NOT_SETUP →
      ∃ s1, NewStart sq s H A lbNew ubNew lbANew ubANew c gB gC s1 ∧ ∃ k : Nat, Recalcs sq k s1 o.s ∧ (k : Int) ≤ nWSR ∧
        (Exact o.rv → o.s.infeasible = false → (k : Int) = o.nWSR)) := by
  by_cases hi : Props.NotInitialised s.toQPB
  · rw [C70_refused sq fuel H gNew A lbNew ubNew lbANew ubANew nWSR c gB gC hi] at h
    cases h
    exact ⟨le_refl _, fun h => absurd rfl h⟩
  rcases hotstartNew_outcome hi h with ⟨rv, n, _⟩ | ⟨s0, s1, t, o1, e0, es, d1, d2, st, _, e1, rv, n, k, ek⟩
  · exact ⟨n.le, fun _ h => absurd rv h⟩
  · by_cases hn : s1.nV = 0
    · rw [hotstart_empty hn] at e1
      cases e1
      exact ⟨n.le, fun _ _ h => absurd rv h⟩
    · obtain ⟨m1, s2, hs, j, m2, m3, m4⟩ := C38_hotstart hn hb e1
      refine ⟨n.le.trans m1, fun _ _ _ => ⟨s2, ⟨s0, t, e0, es ▸ hs⟩, j, m2.after (by rw [ek]; rfl), m3, fun a b => ?_⟩⟩
      rw [n]
      exact m4 (rv ▸ a) (by rw [ek] at b; exact b)

/-- C70, success: it is reported only if the object is left in the state `QPS_SOLVED` with neither flag set. -/
theorem C70_success {sq : K → K} {fuel : Nat} {s : QPC K} {H : Option (Nat → K)} {gNew : Nat → K} {A lbNew ubNew lbANew ubANew : Option (Nat → K)}
    {nWSR : Int} {c : Option K} {gB gC : QPB.Guess} {o : OutC K} (hb : 0 ≤ nWSR) (hc : Ordered s lbNew ubNew lbANew ubANew)
    (h : hotstartNew sq fuel s H gNew A lbNew ubNew lbANew ubANew nWSR c gB gC = .ok o) (hs : o.rv = SUCCESSFUL_RETURN) :
    o.s.status = QPS_SOLVED ∧ o.s.infeasible = false ∧ o.s.unbounded = false := by
  by_cases hi : Props.NotInitialised s.toQPB
  · rw [C70_refused sq fuel H gNew A lbNew ubNew lbANew ubANew nWSR c gB gC hi] at h
    cases h
    cases hs
  rcases hotstartNew_outcome hi h with ⟨rv, _⟩ | ⟨s0, s1, t, o1, e0, es, d1, d2, st, _, e1, rv, n, k, ek⟩
  · rw [rv] at hs; cases hs
  · rw [ek]
    exact C39_success_partial hb e1 (by unfold Ordered; rw [d1, d2]; exact hc) (rv.symm.trans hs)

/-- C70, protocol without guesses, for limits that do not cross: return value, status and flags agree in one of the following ways.
The matrices could not be exchanged: the object is as before, if the matrix of the constraints is missing, or it has to be
initialised again; nothing is counted.  The factorisation fails after that.  Success, maximum reached, infeasible, unbounded, aborted: as for hotstarts with
the same matrices. -/
theorem C70_protocol {sq : K → K} {fuel : Nat} {s : QPC K} {H : Option (Nat → K)} {gNew : Nat → K} {A lbNew ubNew lbANew ubANew : Option (Nat → K)}
    {nWSR : Int} {c : Option K} {o : OutC K} (hn : s.nV ≠ 0) (hb : 0 ≤ nWSR) (hi : ¬ Props.NotInitialised s.toQPB)
    (hc : Ordered s lbNew ubNew lbANew ubANew) (h : hotstartNew sq fuel s H gNew A lbNew ubNew lbANew ubANew nWSR c .null .null = .ok o) :
    (o.rv = RET_SETUP_AUXILIARYQP_FAILED ∧ o.nWSR = nWSR ∧
      ((A = none ∧ s.nC ≠ 0 ∧ ∃ k, o.s = { s with now := k }) ∨ Props.NotInitialised o.s.toQPB)) ∨
    ((o.rv = RET_INIT_FAILED_REGULARISATION ∨ o.rv = RET_INIT_FAILED_CHOLESKY) ∧ o.s.status = QPS_AUXILIARYQPSOLVED ∧ o.nWSR = nWSR) ∨
    (o.rv = SUCCESSFUL_RETURN ∧ o.s.status = QPS_SOLVED ∧ o.s.infeasible = false ∧ o.s.unbounded = false) ∨
    (o.rv = RET_MAX_NWSR_REACHED ∧ o.s.infeasible = false ∧ o.s.unbounded = false ∧
      (o.s.status = QPS_HOMOTOPYQPSOLVED ∨ o.s.status = QPS_PERFORMINGHOMOTOPY)) ∨
    (o.rv = RET_HOTSTART_STOPPED_INFEASIBILITY ∧ o.s.status = QPS_HOMOTOPYQPSOLVED ∧ o.s.infeasible = true ∧ o.s.unbounded = false) ∨
    (o.rv = RET_HOTSTART_STOPPED_UNBOUNDEDNESS ∧ o.s.status = QPS_HOMOTOPYQPSOLVED ∧ o.s.infeasible = false ∧ o.s.unbounded = true) ∨
    (o.rv ≠ SUCCESSFUL_RETURN ∧ o.rv ≠ RET_MAX_NWSR_REACHED ∧ o.rv ≠ RET_HOTSTART_FAILED_AS_QP_NOT_INITIALISED ∧
      o.s.status = QPS_PERFORMINGHOMOTOPY) := by
  rcases hotstartNew_outcome hi h with ⟨rv, n, st⟩ | ⟨s0, s1, t, o1, e0, es, d1, d2, st, _, e1, rv, n, k, ek⟩
  · exact Or.inl ⟨rv, n, st.imp_right fun h => Or.inr (Or.inl h)⟩
  · refine Or.inr ?_
    rw [rv, n, ek]
    have hi1 : ¬ Props.NotInitialised s1.toQPB := by unfold Props.NotInitialised; rw [st]; simp
    rcases C39_protocol (by rw [d1]; exact hn) hb hi1 (by unfold Ordered; rw [d1, d2]; exact hc) e1 with ⟨a, b, c⟩ | h
    · exact Or.inl ⟨a, b.trans st, c⟩
    · exact Or.inr h

/-- C70, time: without limit on the CPU time, the maximum is said to be reached only if the number reported is the maximum given. -/
theorem C70_unlimited {sq : K → K} {fuel : Nat} {s : QPC K} {H : Option (Nat → K)} {gNew : Nat → K} {A lbNew ubNew lbANew ubANew : Option (Nat → K)}
    {nWSR : Int} {gB gC : QPB.Guess} {o : OutC K} (hb : 0 ≤ nWSR)
    (h : hotstartNew sq fuel s H gNew A lbNew ubNew lbANew ubANew nWSR none gB gC = .ok o) (hm : o.rv = RET_MAX_NWSR_REACHED) : o.nWSR = nWSR := by
  by_cases hi : Props.NotInitialised s.toQPB
  · rw [C70_refused sq fuel H gNew A lbNew ubNew lbANew ubANew nWSR none gB gC hi] at h
    cases h
    rfl
  rcases hotstartNew_outcome hi h with ⟨_, n, _⟩ | ⟨s0, s1, t, o1, e0, es, d1, d2, st, ht, e1, rv, n, k, ek⟩
  · exact n
  · rw [ht rfl] at e1
    exact n.trans (C44_unlimited hb e1 (rv.symm.trans hm))

/-! ### Examples -/
section Examples
open QpOASES.Runs

/-- After the cold start of C34: solved with new matrices, with one recalculation; stopped by the maximum; a missing Hessian
is not accepted, and after that the object is not either. -/
example :
    holds sq2 (fun o => o.rv = SUCCESSFUL_RETURN ∧ o.nWSR = 1 ∧ o.s.status = QPS_SOLVED ∧ o.s.nV = 2 ∧ o.s.nC = 1) = true ∧
    holds (newC gen1 (some [25,0,0,4]) [40,-100] [4,3] [-2,-100] [100,100] [-50] [5] 0) (fun o => o.rv = RET_MAX_NWSR_REACHED ∧ o.nWSR = 0) = true ∧
    holds (newC gen1 none [40,-100] [4,3] [-2,-100] [100,100] [-50] [5])
      (fun o => o.rv = RET_SETUP_AUXILIARYQP_FAILED ∧ o.nWSR = 10 ∧ o.s.status = QPS_PREPARINGAUXILIARYQP) = true ∧
    holds (newC (newC gen1 none [40,-100] [4,3] [-2,-100] [100,100] [-50] [5]) (some [25,0,0,4]) [40,-100] [4,3] [-2,-100] [100,100] [-50] [5])
      (fun o => o.rv = RET_HOTSTART_FAILED_AS_QP_NOT_INITIALISED ∧ o.nWSR = 10) = true := by
  refine ⟨?_, ?_, ?_, ?_⟩ <;> decide +kernel

/-- Crossing limits give success, the new matrices are in place, the new limits are not. -/
theorem C70_crossing_violated : ∃ o o', gen1 = .ok o ∧ newC gen1 (some [25,0,0,4]) [40,-100] [4,3] [-2,-100] [100,100] [6] [5] = .ok o' ∧
    o'.rv = SUCCESSFUL_RETURN ∧ o'.s.status = QPS_AUXILIARYQPSOLVED ∧ o'.s.infeasible = true ∧ o'.nWSR = 10 ∧ o'.s.A 0 0 = 4 ∧ o'.s.x 0 = o.s.x 0 ∧
    o'.s.x 1 = o.s.x 1 := by
  obtain ⟨o, e, h⟩ := of_holds (r := gen1) (p := fun o => holds (newC gen1 (some [25,0,0,4]) [40,-100] [4,3] [-2,-100] [100,100] [6] [5]) fun o' =>
    decide (o'.rv = SUCCESSFUL_RETURN ∧ o'.s.status = QPS_AUXILIARYQPSOLVED ∧ o'.s.infeasible = true ∧ o'.nWSR = 10 ∧ o'.s.A 0 0 = 4 ∧
      o'.s.x 0 = o.s.x 0 ∧ o'.s.x 1 = o.s.x 1)) (by decide +kernel)
  obtain ⟨o', e', h'⟩ := of_holds h
  exact ⟨o, o', e, e', of_decide_eq_true h'⟩

end Examples

end QpOASES.Props.General
