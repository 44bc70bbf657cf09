import Verif.Proofs.QPCFrame
import Verif.Proofs.QPBOutcome

/-!
Outcomes of the solver loops of `QProblem`: return values, status, counters and clock, for any state.
-/
namespace QpOASES
namespace QPC
open ReturnValue SubjectToStatus SubjectToType HessianType QProblemStatus

set_option linter.unusedSectionVars false

variable {K : Type} [Field K] [LinearOrder K] [IsStrictOrderedRing K]

/-- `s'` is reached from `s` by `k` recalculations of the working set.  Otherwise it changes only when it is adapted to the kind of the
new limits, at the beginning of a homotopy. -/
inductive Recalcs (sq : K → K) : Nat → QPC K → QPC K → Prop
  | none {s s' : QPC K} (h : s'.active = s.active) : Recalcs sq 0 s s'
  | one {k : Nat} {s s1 s2 s3 : QPC K} {bc : Option Change} {r : ReturnValue} (h : Recalcs sq k s s1)
      (e : changeActiveSet sq s1 bc = .ok (r, s2)) (h' : s3.active = s2.active) : Recalcs sq (k+1) s s3
  | adapt {k : Nat} {s s1 s2 s3 : QPC K} {l u : Option (Nat → K)} {r : ReturnValue} (h : Recalcs sq k s s1)
      (e : updateActivitiesForHotstart sq s1 l u = .ok (r, s2)) (h' : s3.active = s2.active) : Recalcs sq k s s3

theorem Recalcs.after {sq : K → K} {k : Nat} {s s' s'' : QPC K} (h : Recalcs sq k s s') (e : s''.active = s'.active) :
    Recalcs sq k s s'' := by
  cases h with
  | none h => exact .none (e.trans h)
  | one h e' h' => exact .one h e' (e.trans h')
  | adapt h e' h' => exact .adapt h e' (e.trans h')

theorem Recalcs.trans {sq : K → K} {k k' : Nat} {s s' s'' : QPC K} (h : Recalcs sq k s s') (h' : Recalcs sq k' s' s'') :
    Recalcs sq (k + k') s s'' := by
  induction h' with
  | none e => exact h.after e
  | one _ e e' ih => exact .one (ih h) e e'
  | adapt _ e e' ih => exact .adapt (ih h) e e'

/-- How a solver call ends. -/
inductive Outcome (o : OutC K) : Prop
  | solved (rv : o.rv = SUCCESSFUL_RETURN) (st : o.s.status = QPS_SOLVED) (i : o.s.infeasible = false) (u : o.s.unbounded = false)
  | limit (rv : o.rv = RET_MAX_NWSR_REACHED) (st : o.s.status = QPS_HOMOTOPYQPSOLVED ∨ o.s.status = QPS_PERFORMINGHOMOTOPY) (i : o.s.infeasible = false) (u : o.s.unbounded = false)
  | infeasible (rv : o.rv = RET_HOTSTART_STOPPED_INFEASIBILITY) (st : o.s.status = QPS_HOMOTOPYQPSOLVED) (i : o.s.infeasible = true)
      (u : o.s.unbounded = false)
  | unbounded (rv : o.rv = RET_HOTSTART_STOPPED_UNBOUNDEDNESS) (st : o.s.status = QPS_HOMOTOPYQPSOLVED) (i : o.s.infeasible = false)
      (u : o.s.unbounded = true)
  | failed (rv : Internal o.rv) (ne : o.rv ≠ SUCCESSFUL_RETURN) (st : o.s.status = QPS_PERFORMINGHOMOTOPY)

/-- The result of the last iteration of a loop, entered in `s`. -/
structure Ends (sq : K → K) (s : QPC K) (iter nWSR : Int) (o : OutC K) : Prop where
  lasting : o.s.lasting = s.lasting
  outcome : Outcome o
  rv : o.rv ≠ RET_MAX_NWSR_REACHED
  nWSR : (o.nWSR = iter ∧ Recalcs sq 0 s o.s) ∨
    (o.s.status = QPS_PERFORMINGHOMOTOPY ∧ (o.nWSR = iter ∨ o.nWSR = nWSR) ∧ Recalcs sq 1 s o.s)

theorem still_base {s s' : QPC K} (h : s'.still = s.still) : s'.base = s.base := congrArg Prod.fst h
theorem still_lasting {s s' : QPC K} (h : s'.still = s.still) : s'.lasting = s.lasting := congrArg (fun p => p.1.1) h
theorem still_status {s s' : QPC K} (h : s'.still = s.still) : s'.status = s.status := congrArg (fun p => p.2.1) h
theorem still_infeasible {s s' : QPC K} (h : s'.still = s.still) : s'.infeasible = s.infeasible := congrArg (fun p => p.2.2.1) h
theorem still_unbounded {s s' : QPC K} (h : s'.still = s.still) : s'.unbounded = s.unbounded := congrArg (fun p => p.2.2.2) h
theorem base_now {s s' : QPC K} (h : s'.base = s.base) : s'.now = s.now := congrArg Prod.snd h
theorem base_lasting {s s' : QPC K} (h : s'.base = s.base) : s'.lasting = s.lasting := congrArg Prod.fst h

theorem endIteration_cases {sq : K → K} {s : QPC K} {bc : Option Change} {iter nWSR : Int} {c : Option K} {t : K}
    {e : Except (OutC K) (QPC K)} (hs : s.status = QPS_PERFORMINGHOMOTOPY) (h1 : s.infeasible = false) (h2 : s.unbounded = false)
    (h : endIteration sq s bc iter nWSR c t = .ok e) :
    (∃ o, e = .error o ∧ Ends sq s iter nWSR o) ∨
    (∃ s', e = .ok s' ∧ s'.base = s.base ∧ s'.status = QPS_HOMOTOPYQPSOLVED ∧ s'.infeasible = false ∧ s'.unbounded = false ∧
      Recalcs sq 1 s s') := by
  unfold endIteration at h
  obtain ⟨⟨r, s1⟩, e1, h⟩ := Res.bind_eq_ok.1 h
  have rec1 : ∀ s3 : QPC K, s3.active = s1.active → Recalcs sq 1 s s3 := fun s3 h3 => .one (.none rfl) e1 h3
  have hc := changeActiveSet_still e1
  dsimp only at h
  split at h
  · rename_i hne
    obtain ⟨f1, f2, k, f3⟩ := finish_fields s1 r iter c t
    generalize s1.finish r iter c t = o at h f1 f2 f3
    cases hc with
    | done q cr =>
      have i1 : o.s.infeasible = false := by rw [f3]; exact (still_infeasible q).trans h1
      have i2 : o.s.unbounded = false := by rw [f3]; exact (still_unbounded q).trans h2
      rw [i1, i2] at h
      simp only [Bool.false_eq_true, if_false] at h
      cases h
      have st : o.s.status = QPS_PERFORMINGHOMOTOPY := by rw [f3]; exact (still_status q).trans hs
      refine Or.inl ⟨_, rfl, by rw [f3]; have q := still_lasting q; exact q, .failed (f1 ▸ cr) (f1 ▸ hne) st, f1 ▸ cr.1,
        Or.inr ⟨st, Or.inl f2, rec1 _ (by rw [f3]; rfl)⟩⟩
    | infeasible cr q =>
      subst q
      have i1 : o.s.infeasible = true := by rw [f3]
      rw [i1] at h
      simp only [if_true] at h
      cases h
      refine Or.inl ⟨_, rfl, by rw [f3]; rfl, .infeasible rfl rfl rfl (by rw [f3]; exact h2), by simp, Or.inl ⟨f2, .none (by rw [f3]; rfl)⟩⟩
    | unbounded cr q =>
      subst q
      have i1 : o.s.infeasible = false := by rw [f3]; exact h1
      have i2 : o.s.unbounded = true := by rw [f3]
      rw [i1, i2] at h
      simp only [Bool.false_eq_true, if_false, if_true] at h
      cases h
      have st : o.s.status = QPS_PERFORMINGHOMOTOPY := by rw [f3]; exact hs
      exact Or.inl ⟨_, rfl, by rw [f3]; rfl, .failed ⟨by simp, by simp⟩ (by simp) st, by simp, Or.inl ⟨f2, .none (by rw [f3]; rfl)⟩⟩
  · rename_i hr
    cases hc with
    | infeasible cr q => rw [not_not.1 hr] at cr; rcases cr with cr | cr <;> cases cr
    | unbounded cr q => rw [not_not.1 hr] at cr; cases cr
    | done q cr =>
      have goal2 : ∀ (r2 : ReturnValue) (s2 : QPC K), s2.still = s1.still → s2.active = s1.active → Internal r2 →
          (if r2 ≠ SUCCESSFUL_RETURN then Res.ok (Except.error ⟨r2, nWSR, c, s2⟩) else do
            let s ← if bc.isSome = true ∧ s2.tau ≤ EPS ∧ s2.options.enableRamping = true then
                performRamping { s2 with status := QPS_HOMOTOPYQPSOLVED }
              else if s2.options.enableDriftCorrection > 0 ∧ (iter + 1) % s2.options.enableDriftCorrection = 0 then
                performDriftCorrection { s2 with status := QPS_HOMOTOPYQPSOLVED }
              else .ok { s2 with status := QPS_HOMOTOPYQPSOLVED }
            Res.ok (Except.ok s)) = .ok e →
          (∃ o, e = .error o ∧ Ends sq s iter nWSR o) ∨
          (∃ s', e = .ok s' ∧ s'.base = s.base ∧ s'.status = QPS_HOMOTOPYQPSOLVED ∧ s'.infeasible = false ∧ s'.unbounded = false ∧
            Recalcs sq 1 s s') := by
        intro r2 s2 q2 a2 cr2 h
        have q2 := q2.trans q
        split at h
        · rename_i hne
          cases h
          have st := (still_status q2).trans hs
          exact Or.inl ⟨_, rfl, still_lasting q2, .failed cr2 hne st, cr2.1, Or.inr ⟨st, Or.inr rfl, rec1 _ a2⟩⟩
        · have goal3 : ∀ s3 : QPC K, s3.still = ({ s2 with status := QPS_HOMOTOPYQPSOLVED } : QPC K).still →
              s3.active = ({ s2 with status := QPS_HOMOTOPYQPSOLVED } : QPC K).active →
              (∃ s', Except.ok s3 = (Except.ok s' : Except (OutC K) (QPC K)) ∧ s'.base = s.base ∧ s'.status = QPS_HOMOTOPYQPSOLVED ∧ s'.infeasible = false ∧
                s'.unbounded = false ∧ Recalcs sq 1 s s') := by
            intro s3 q3 a3
            have b2 := still_base q2
            have b3 := still_base q3
            have i2 := still_infeasible q2
            have u2 := still_unbounded q2
            have i3 := still_infeasible q3
            have u3 := still_unbounded q3
            exact ⟨s3, rfl, b3.trans b2, still_status q3,
              i3.trans (i2.trans h1), u3.trans (u2.trans h2),
              rec1 _ (a3.trans a2)⟩
          right
          split at h
          · obtain ⟨s3, e3, h⟩ := Res.bind_eq_ok.1 h
            cases h
            exact goal3 s3 (performRamping_still e3).1 (performRamping_still e3).2
          · split at h
            · obtain ⟨s3, e3, h⟩ := Res.bind_eq_ok.1 h
              cases h
              exact goal3 s3 (performDriftCorrection_still e3).1 (performDriftCorrection_still e3).2
            · cases h; exact goal3 _ rfl rfl
      split at h
      · obtain ⟨⟨r2, s2⟩, e2, h⟩ := Res.bind_eq_ok.1 h
        obtain ⟨a, b, d⟩ := computeProjectedCholesky_still e2
        exact goal2 r2 s2 a b d h
      · exact goal2 SUCCESSFUL_RETURN s1 rfl rfl internal_success h

theorem iteration_cases {sq : K → K} {s : QPC K} {gNew : Nat → K} {lbNew ubNew lbANew ubANew : Option (Nat → K)} {iter nWSR : Int}
    {c : Option K} {t : K} {e : Except (OutC K) (QPC K)} (h1 : s.infeasible = false) (h2 : s.unbounded = false)
    (h : iteration sq s gNew lbNew ubNew lbANew ubANew iter nWSR c t = .ok e) :
    (∃ o, e = .error o ∧ Ends sq s iter nWSR o) ∨
    (∃ s', e = .ok s' ∧ s'.base = s.base ∧ s'.status = QPS_HOMOTOPYQPSOLVED ∧ s'.infeasible = false ∧ s'.unbounded = false ∧
      Recalcs sq 1 s s') := by
  unfold iteration at h
  dsimp only at h
  obtain ⟨d, hd, h⟩ := Res.bind_eq_ok.1 h
  cases d with
  | error r =>
    cases h
    obtain ⟨cr, hne⟩ := determineStepDirection_code hd
    obtain ⟨f1, f2, k, f3⟩ := finish_fields ({ s with status := QPS_PERFORMINGHOMOTOPY } : QPC K) r iter c t
    exact Or.inl ⟨_, rfl, by rw [f3]; rfl, .failed (f1 ▸ cr) (f1 ▸ hne) (by rw [f3]), f1 ▸ cr.1, Or.inl ⟨f2, .none (by rw [f3]; rfl)⟩⟩
  | ok d =>
    dsimp only at h
    obtain ⟨⟨s1, bc⟩, e1, h⟩ := Res.bind_eq_ok.1 h
    obtain ⟨q1, a1⟩ := performStep_still e1
    have b1 := still_base q1
    have i1 := still_infeasible q1
    have u1 := still_unbounded q1
    have l1 : s1.base = s.base := b1
    have i1 : s1.infeasible = false := i1.trans h1
    have u1 : s1.unbounded = false := u1.trans h2
    have st1 : s1.status = QPS_PERFORMINGHOMOTOPY := still_status q1
    have a1 : s1.active = s.active := a1
    dsimp only at h
    split at h
    · cases h
      obtain ⟨f1, f2, k, f3⟩ := finish_fields ({ s1 with status := QPS_SOLVED } : QPC K) SUCCESSFUL_RETURN iter c t
      exact Or.inl ⟨_, rfl, by rw [f3]; have q := base_lasting l1; exact q, .solved f1 (by rw [f3]) (by rw [f3]; exact i1) (by rw [f3]; exact u1),
        by rw [f1]; decide, Or.inl ⟨f2, .none (by rw [f3]; exact a1)⟩⟩
    · have base : Recalcs sq 0 s s1 := .none a1
      rcases endIteration_cases st1 i1 u1 h with ⟨o, rfl, f⟩ | ⟨s', rfl, k2, st2, i2, u2, rc⟩
      · refine Or.inl ⟨o, rfl, f.lasting.trans (base_lasting l1), f.outcome, f.rv, ?_⟩
        rcases f.nWSR with ⟨a, b⟩ | ⟨a, b, d⟩
        · exact Or.inl ⟨a, base.trans b⟩
        · exact Or.inr ⟨a, b, (base.trans d : Recalcs sq (0 + 1) s o.s)⟩
      · exact Or.inr ⟨s', rfl, k2.trans l1, st2, i2, u2, (base.trans rc : Recalcs sq (0 + 1) s s')⟩

/-- Outcome of a solver call starting in `s` when `p` recalculations of `nWSR` have been performed. -/
structure Solve (sq : K → K) (s : QPC K) (p nWSR : Int) (o : OutC K) : Prop where
  count : ∃ k : Nat, Recalcs sq k s o.s ∧ (k : Int) ≤ nWSR - p ∧
    (o.s.status ≠ QPS_PERFORMINGHOMOTOPY ∨ o.rv = RET_MAX_NWSR_REACHED → (k : Int) = o.nWSR - p)
  lower : p ≤ o.nWSR
  upper : o.nWSR ≤ nWSR
  lasting : o.s.lasting = s.lasting
  outcome : Outcome o

theorem cpuLimit_fields (s : QPC K) (c : Option K) (t : K) (n : Int) :
    ∃ k, ({ s with toQPB := (s.toQPB.isCPUtimeLimitExceeded c t n).2 } : QPC K) = { s with now := k } := by
  obtain ⟨k, e⟩ := QPB.cpuLimit_keep s.toQPB c t n
  exact ⟨k, by rw [e]⟩

theorem Ends.solve {sq : K → K} {s s0 : QPC K} {iter nWSR : Int} {o : OutC K} (h : Ends sq s iter nWSR o) (hi : iter < nWSR)
    (hl : s.lasting = s0.lasting) (ha : s.active = s0.active) : Solve sq s0 iter nWSR o := by
  have base : Recalcs sq 0 s0 s := .none ha
  refine ⟨?_, ?_, ?_, h.lasting.trans hl, h.outcome⟩
  · rcases h.nWSR with ⟨a, b⟩ | ⟨a, b, d⟩
    · exact ⟨0, base.trans b, by omega, fun _ => by rw [a]; omega⟩
    · exact ⟨1, (base.trans d : Recalcs sq (0 + 1) s0 o.s), by omega, fun h' => absurd h' (not_or.2 ⟨fun h' => h' a, h.rv⟩)⟩
  · rcases h.nWSR with ⟨a, _⟩ | ⟨_, a | a, _⟩ <;> omega
  · rcases h.nWSR with ⟨a, _⟩ | ⟨_, a | a, _⟩ <;> omega

/-- The loop only ends at its limit in the status of a run that cannot be continued when it has not performed any iteration. -/
theorem solveLoop_cases (sq : K → K) (gNew : Nat → K) (lbNew ubNew lbANew ubANew : Option (Nat → K)) (nWSR performed : Int) (c : Option K)
    (t : K) :
    ∀ (m : Nat) (iter : Int) (s : QPC K) (o : OutC K), s.infeasible = false → s.unbounded = false → iter + m = nWSR →
      (s.status = QPS_HOMOTOPYQPSOLVED ∨ s.status = QPS_PERFORMINGHOMOTOPY ∧ iter = performed) →
      solveLoop sq gNew lbNew ubNew lbANew ubANew nWSR performed c t m iter s = .ok o →
      Solve sq s iter nWSR o ∧ (o.rv = RET_MAX_NWSR_REACHED → o.s.status = QPS_HOMOTOPYQPSOLVED ∨ performed = nWSR) := by
  intro m
  induction m with
  | zero =>
    intro iter s o h1 h2 hm hst h
    cases h
    obtain ⟨f1, f2, k, f3⟩ := finish_fields s RET_MAX_NWSR_REACHED nWSR c t
    refine ⟨⟨⟨0, .none (by rw [f3]; rfl), by omega, fun _ => by rw [f2]; omega⟩, by rw [f2]; omega, by rw [f2], by rw [f3]; rfl,
      .limit f1 ?_ (by rw [f3]; exact h1) (by rw [f3]; exact h2)⟩, fun _ => ?_⟩
    · rw [f3]
      rcases hst with h | h
      · exact Or.inl h
      · exact Or.inr h.1
    · rw [f3]
      rcases hst with h | h
      · exact Or.inl h
      · exact Or.inr (by have := h.2; omega)
  | succ m ih =>
    intro iter s o h1 h2 hm hst h
    rw [solveLoop] at h
    obtain ⟨k0, e0⟩ := cpuLimit_fields s c t (iter - performed)
    have hfirst : iter = performed → (s.toQPB.isCPUtimeLimitExceeded c t (iter - performed)).1 = false := by
      intro hi
      subst hi
      unfold QPB.isCPUtimeLimitExceeded
      cases c with
      | none => rfl
      | some c => simp
    generalize s.toQPB.isCPUtimeLimitExceeded c t (iter - performed) = p at h e0 hfirst
    obtain ⟨b, s0⟩ := p
    dsimp only at e0 hfirst
    cases b with
    | true =>
      dsimp only at h
      rw [e0] at h
      cases h
      obtain ⟨f1, f2, k, f3⟩ := finish_fields ({ s with now := k0 } : QPC K) RET_MAX_NWSR_REACHED iter c t
      have hs : s.status = QPS_HOMOTOPYQPSOLVED := by
        rcases hst with h | h
        · exact h
        · exact absurd (hfirst h.2) (by simp)
      exact ⟨⟨⟨0, .none (by rw [f3]; rfl), by omega, fun _ => by rw [f2]; omega⟩, by rw [f2], by rw [f2]; omega, by rw [f3]; rfl,
        .limit f1 (Or.inl (by rw [f3]; exact hs)) (by rw [f3]; exact h1) (by rw [f3]; exact h2)⟩, fun _ => Or.inl (by rw [f3]; exact hs)⟩
    | false =>
      dsimp only at h
      rw [e0] at h
      obtain ⟨e, ei, h⟩ := Res.bind_eq_ok.1 h
      rcases iteration_cases (s := { s with now := k0 }) h1 h2 ei with ⟨o', rfl, f⟩ | ⟨s', rfl, k2, st2, i2, u2, rc⟩
      · cases h
        exact ⟨f.solve (by omega) rfl rfl, fun h => absurd h f.rv⟩
      · dsimp only at h
        obtain ⟨hl, hl'⟩ := ih (iter + 1) s' o i2 u2 (by omega) (Or.inl st2) h
        obtain ⟨k, rk, hk, he⟩ := hl.count
        have base : Recalcs sq 0 s ({ s with now := k0 } : QPC K) := .none rfl
        have r1 := base.trans (rc.trans rk)
        have l2 := base_lasting k2
        exact ⟨⟨⟨0 + (1 + k), r1, by omega, fun h => by have := he h; omega⟩, by have := hl.lower; omega, hl.upper, hl.lasting.trans l2,
          hl.outcome⟩, hl'⟩

theorem solveQP_notReady {s : QPC K} (h : QPB.NotReady s.toQPB) (sq : K → K) (gNew : Nat → K) (lbNew ubNew lbANew ubANew : Option (Nat → K))
    (nWSR : Int) (c : Option K) (performed : Int) :
    solveQP sq s gNew lbNew ubNew lbANew ubANew nWSR c performed = .ok ⟨RET_HOTSTART_FAILED_AS_QP_NOT_INITIALISED, nWSR, c, s⟩ := by
  unfold solveQP
  unfold QPB.NotReady at h
  rw [if_pos h]

theorem startClock_fields (s : QPC K) (c : Option K) :
    ∃ k, ({ s with toQPB := (s.toQPB.startClock c).2 } : QPC K) = { s with now := k } := by
  obtain ⟨k, e⟩ := QPB.startClock_keep s.toQPB c
  exact ⟨k, by rw [e]⟩

theorem stopClock_fields (s : QPC K) (c : Option K) (t : K) :
    ∃ k, ({ s with toQPB := (s.toQPB.stopClock c t).2 } : QPC K) = { s with now := k } := by
  obtain ⟨k, e⟩ := QPB.stopClock_keep s.toQPB c t
  exact ⟨k, by rw [e]⟩

theorem solveQP_cases {sq : K → K} {s : QPC K} {gNew : Nat → K} {lbNew ubNew lbANew ubANew : Option (Nat → K)} {nWSR : Int} {c : Option K}
    {performed : Int} {o : OutC K} (hr : ¬ QPB.NotReady s.toQPB) (hp : performed ≤ nWSR)
    (h : solveQP sq s gNew lbNew ubNew lbANew ubANew nWSR c performed = .ok o) :
    Solve sq s performed nWSR o ∧ (o.rv = RET_MAX_NWSR_REACHED → o.s.status = QPS_HOMOTOPYQPSOLVED ∨ performed = nWSR) := by
  unfold solveQP at h
  unfold QPB.NotReady at hr
  rw [if_neg hr] at h
  dsimp only at h
  obtain ⟨k0, ek⟩ := QPB.startClock_keep s.toQPB c
  rw [ek] at h
  obtain ⟨⟨r, s1⟩, e1, h⟩ := Res.bind_eq_ok.1 h
  have ad := updateActivities_adapted e1
  have l1 := base_lasting ad.base
  have l1 : s1.lasting = s.lasting := l1
  have st1 := ad.status
  have st1 : s1.status = QPS_PERFORMINGHOMOTOPY := st1
  have base : Recalcs sq 0 s ({ s with now := k0, status := QPS_PERFORMINGHOMOTOPY } : QPC K) := .none rfl
  have ad1 : ∀ s3 : QPC K, s3.active = s1.active → Recalcs sq 0 s s3 := fun s3 h3 => .adapt base e1 h3
  dsimp only at h
  split at h
  · rename_i hne
    cases h
    have cr := ad.code
    refine ⟨⟨⟨0, ad1 _ rfl, by omega, fun h => absurd h (not_or.2 ⟨fun h => h st1, cr.1⟩)⟩, hp, le_refl _, l1, .failed cr hne st1⟩,
      fun h => absurd h cr.1⟩
  · obtain ⟨hl, hl'⟩ := solveLoop_cases sq gNew lbNew ubNew lbANew ubANew nWSR performed c _ _ _
      { s1 with infeasible := false, unbounded := false } o rfl rfl (by omega) (Or.inr ⟨st1, rfl⟩) h
    obtain ⟨k, rk, hk, he⟩ := hl.count
    have l2 := hl.lasting.trans l1
    exact ⟨⟨⟨0 + k, (ad1 { s1 with infeasible := false, unbounded := false } rfl).trans rk, by omega, fun h => by have := he h; omega⟩,
      hl.lower, hl.upper, l2, hl.outcome⟩, hl'⟩

theorem Solve.trans {sq : K → K} {s s1 : QPC K} {p nWSR : Int} {o o' : OutC K} (h : Solve sq s p nWSR o)
    (hs : o.s.status ≠ QPS_PERFORMINGHOMOTOPY)
    (e : s1.active = o.s.active) (hn : s1.lasting = o.s.lasting)
    (h' : Solve sq s1 o.nWSR nWSR o') : Solve sq s p nWSR o' := by
  obtain ⟨k, rk, hk, he⟩ := h.count
  obtain ⟨k', rk', hk', he'⟩ := h'.count
  have := h.lower
  have := h.upper
  have := h'.lower
  have hkk := he (Or.inl hs)
  exact ⟨⟨k + k', (rk.after e).trans rk', by omega, fun h => by have := he' h; omega⟩, by omega, h'.upper,
    (h'.lasting.trans hn).trans h.lasting, h'.outcome⟩

theorem Outcome.frame {o o' : OutC K} (h : Outcome o) (h1 : o'.rv = o.rv) (h2 : o'.s.status = o.s.status)
    (h3 : o'.s.infeasible = o.s.infeasible) (h4 : o'.s.unbounded = o.s.unbounded) : Outcome o' := by
  cases h with
  | solved a b c d => exact .solved (h1.trans a) (h2.trans b) (h3.trans c) (h4.trans d)
  | limit a b c d => exact .limit (h1.trans a) (by rw [h2]; exact b) (h3.trans c) (h4.trans d)
  | infeasible a b c d => exact .infeasible (h1.trans a) (h2.trans b) (h3.trans c) (h4.trans d)
  | unbounded a b c d => exact .unbounded (h1.trans a) (h2.trans b) (h3.trans c) (h4.trans d)
  | failed a b c => exact .failed (h1 ▸ a) (h1 ▸ b) (h2.trans c)

/-- Changing only the members not mentioned. -/
theorem Solve.frame {sq : K → K} {s : QPC K} {p nWSR : Int} {o o' : OutC K} (h : Solve sq s p nWSR o) (h1 : o'.rv = o.rv)
    (h2 : o'.nWSR = o.nWSR) (h3 : o'.s.active = o.s.active) (h4 : o'.s.still = o.s.still) : Solve sq s p nWSR o' := by
  obtain ⟨k, a, b, c⟩ := h.count
  refine ⟨⟨k, a.after h3, b, ?_⟩, ?_, ?_, (still_lasting h4).trans h.lasting,
    h.outcome.frame h1 (still_status h4) (still_infeasible h4) (still_unbounded h4)⟩
  · rw [h1, h2, still_status h4]; exact c
  · rw [h2]; exact h.lower
  · rw [h2]; exact h.upper

theorem Outcome.success {o : OutC K} (h : Outcome o) (hs : o.rv = SUCCESSFUL_RETURN) :
    o.s.status = QPS_SOLVED ∧ o.s.infeasible = false ∧ o.s.unbounded = false := by
  cases h with
  | solved a b c d => exact ⟨b, c, d⟩
  | limit a b c d => rw [hs] at a; cases a
  | infeasible a b c d => rw [hs] at a; cases a
  | unbounded a b c d => rw [hs] at a; cases a
  | failed a b c => exact absurd hs b

theorem Outcome.isSolved {o : OutC K} (h : Outcome o) (hs : o.s.status = QPS_SOLVED) : o.rv = SUCCESSFUL_RETURN := by
  cases h with
  | solved a b c d => exact a
  | limit a b c d => rw [hs] at b; rcases b with b | b <;> cases b
  | infeasible a b c d => rw [hs] at b; cases b
  | unbounded a b c d => rw [hs] at b; cases b
  | failed a b c => rw [hs] at c; cases c

/-- A call that reports infeasibility leaves a state from which solving can go on, or has failed. -/
theorem Outcome.isInfeasible {o : OutC K} (h : Outcome o) (hs : o.s.infeasible = true) :
    (o.rv = RET_HOTSTART_STOPPED_INFEASIBILITY ∧ o.s.status = QPS_HOMOTOPYQPSOLVED ∧ o.s.unbounded = false) ∨
    o.s.status = QPS_PERFORMINGHOMOTOPY ∧ o.rv ≠ RET_MAX_NWSR_REACHED := by
  cases h with
  | solved a b c d => rw [hs] at c; cases c
  | limit a b c d => rw [hs] at c; cases c
  | infeasible a b c d => exact Or.inl ⟨a, b, d⟩
  | unbounded a b c d => rw [hs] at c; cases c
  | failed a b c => exact Or.inr ⟨c, a.1⟩

theorem regSteps_cases (sq : K → K) (gNew : Nat → K) (lbNew ubNew lbANew ubANew : Option (Nat → K)) (nWSR p : Int) (c : Option K)
    (s : QPC K) :
    ∀ (m : Nat) (o : OutC K) (total : K) (o' : OutC K), Solve sq s p nWSR o → o.rv = SUCCESSFUL_RETURN →
      regSteps sq gNew lbNew ubNew lbANew ubANew nWSR c m o total = .ok o' → Solve sq s p nWSR o' := by
  intro m
  induction m with
  | zero =>
    intro o total o' hS hs h
    cases h
    exact hS.frame hs.symm rfl rfl rfl
  | succ m ih =>
    intro o total o' hS hs h
    obtain ⟨o1, e1, h⟩ := Res.bind_eq_ok.1 h
    have hst := (hS.outcome.success hs).1
    have h1 := hS.trans (by rw [hst]; decide) rfl rfl (solveQP_cases (QPB.ready_of_solved hst) hS.upper e1).1
    dsimp only at h
    split at h
    · cases h
      exact h1.frame rfl rfl rfl rfl
    · rename_i hne
      exact ih o1 _ o' h1 (not_not.1 hne) h

theorem solveRegularisedQP_cases {sq : K → K} {s : QPC K} {gNew : Nat → K} {lbNew ubNew lbANew ubANew : Option (Nat → K)} {nWSR : Int}
    {c : Option K} {p : Int} {o : OutC K} (hr : ¬ QPB.NotReady s.toQPB) (hp : p ≤ nWSR)
    (h : solveRegularisedQP sq s gNew lbNew ubNew lbANew ubANew nWSR c p = .ok o) :
    Solve sq s p nWSR o := by
  unfold solveRegularisedQP at h
  split at h
  · exact (solveQP_cases hr hp h).1
  · obtain ⟨o1, e1, h⟩ := Res.bind_eq_ok.1 h
    have h1 := (solveQP_cases hr hp e1).1
    dsimp only at h
    split at h
    · cases h
      exact h1.frame rfl rfl rfl rfl
    · rename_i hne
      exact regSteps_cases sq gNew lbNew ubNew lbANew ubANew nWSR p c s _ o1 _ o h1 (not_not.1 hne) h

theorem solveRegularisedQP_notReady {s : QPC K} (h : QPB.NotReady s.toQPB) (sq : K → K) (gNew : Nat → K)
    (lbNew ubNew lbANew ubANew : Option (Nat → K)) (nWSR : Int) (c : Option K) (p : Int) :
    ∃ c', solveRegularisedQP sq s gNew lbNew ubNew lbANew ubANew nWSR c p =
      .ok ⟨RET_HOTSTART_FAILED_AS_QP_NOT_INITIALISED, nWSR, c', s⟩ := by
  unfold solveRegularisedQP
  split
  · exact ⟨c, solveQP_notReady h ..⟩
  · rw [solveQP_notReady h]
    exact ⟨_, rfl⟩

theorem farLoop_refused (sq : K → K) (gNew : Nat → K) (lbNew ubNew lbANew ubANew : Option (Nat → K)) (nWSR : Int) (c : Option K) :
    ∀ (fuel : Nat) (s : QPC K) (far : K) (f : Far K) (p : Int) (needed remaining : K) (o : OutC K) (n : K),
      QPB.NotReady s.toQPB → farLoop sq gNew lbNew ubNew lbANew ubANew nWSR c fuel s far f p needed remaining = .ok (o, n) →
      ((o.rv = RET_HOTSTART_FAILED_AS_QP_NOT_INITIALISED ∧ s.infeasible = false) ∨
        (o.rv = RET_HOTSTART_STOPPED_INFEASIBILITY ∧ s.infeasible = true)) ∧ o.nWSR = nWSR ∧
        ∃ k, o.s = { s with rampOffset := k } := by
  intro fuel
  induction fuel with
  | zero => intro s far f p needed remaining o n _ h; cases h
  | succ fuel ih =>
    intro s far f p needed remaining o n hr h
    have hns : s.status ≠ QPS_SOLVED := fun h => QPB.ready_of_solved h hr
    unfold farLoop at h
    obtain ⟨o1, e1, h⟩ := Res.bind_eq_ok.1 h
    have : ∃ c', o1 = ⟨RET_HOTSTART_FAILED_AS_QP_NOT_INITIALISED, nWSR, c', s⟩ := by
      obtain ⟨c', e⟩ := solveRegularisedQP_notReady hr sq gNew (some f.lb) (some f.ub) (some f.lbA) (some f.ubA) nWSR _ p
      rw [e] at e1
      exact ⟨c', (Res.ok.inj e1).symm⟩
    obtain ⟨c', rfl⟩ := this
    dsimp only at h
    split at h
    · rename_i hi
      split at h
      · cases h
        exact ⟨Or.inr ⟨rfl, hi⟩, rfl, _, rfl⟩
      · obtain ⟨f', _, h⟩ := Res.bind_eq_ok.1 h
        obtain ⟨a, b, k, e⟩ := ih _ _ _ _ _ _ o n (by exact hr) h
        exact ⟨a, b, k, e⟩
    · rename_i hi
      cases h
      exact ⟨Or.inl ⟨rfl, by simpa using hi⟩, rfl, _, rfl⟩

theorem farLoop_cases (sq : K → K) (gNew : Nat → K) (lbNew ubNew lbANew ubANew : Option (Nat → K)) (nWSR : Int) (c : Option K) :
    ∀ (fuel : Nat) (s : QPC K) (far : K) (f : Far K) (p : Int) (needed remaining : K) (o : OutC K) (n : K),
      ¬ QPB.NotReady s.toQPB → p ≤ nWSR → farLoop sq gNew lbNew ubNew lbANew ubANew nWSR c fuel s far f p needed remaining = .ok (o, n) →
      Solve sq s p nWSR o := by
  intro fuel
  induction fuel with
  | zero => intro s far f p needed remaining o n _ _ h; cases h
  | succ fuel ih =>
    intro s far f p needed remaining o n hr hp h
    unfold farLoop at h
    obtain ⟨o1, e1, h⟩ := Res.bind_eq_ok.1 h
    have h1 := solveRegularisedQP_cases hr hp e1
    dsimp only at h
    split at h
    · rename_i hi
      have hc := h1.outcome.isInfeasible hi
      split at h
      · cases h
        obtain ⟨k, a, b, d⟩ := h1.count
        rcases hc with ⟨hrv, hst, hu⟩ | ⟨hst, hne⟩
        · exact ⟨⟨k, a, b, fun _ => d (Or.inl (by rw [hst]; decide))⟩, h1.lower, h1.upper, h1.lasting, .infeasible rfl hst hi hu⟩
        · exact ⟨⟨k, a, b, fun h => absurd h (not_or.2 ⟨fun h => h hst, by simp⟩)⟩, h1.lower, h1.upper, h1.lasting,
            .failed ⟨by simp, by simp⟩ (by simp) hst⟩
      · obtain ⟨f', _, h⟩ := Res.bind_eq_ok.1 h
        rcases hc with ⟨hrv, hst, hu⟩ | ⟨hst, hne⟩
        · have h2 := ih _ _ _ _ _ _ o n (by rintro (h | h | h) <;> exact absurd (hst.symm.trans h) (by decide)) h1.upper h
          refine Solve.trans h1 (by rw [hst]; decide) ?_ ?_ h2 <;> rfl
        · obtain ⟨a1, a2, k', a3⟩ := farLoop_refused _ _ _ _ _ _ _ _ _ _ _ _ _ _ _ _ _ (by exact Or.inr (Or.inr hst)) h
          obtain ⟨k, a, b, d⟩ := h1.count
          have hst' : o.s.status = QPS_PERFORMINGHOMOTOPY := by rw [a3]; exact hst
          have hrv : o.rv = RET_HOTSTART_STOPPED_INFEASIBILITY := by
            rcases a1 with ⟨_, h⟩ | h
            · have h : o1.s.infeasible = false := h
              rw [hi] at h; cases h
            · exact h.1
          exact ⟨⟨k, a.after (by rw [a3]; rfl), b, fun h => absurd h (not_or.2 ⟨fun h => h hst', by rw [hrv]; simp⟩)⟩,
            by rw [a2]; exact hp, by rw [a2], by rw [a3]; exact h1.lasting, .failed ⟨by rw [hrv]; simp, by rw [hrv]; simp⟩ (by rw [hrv]; simp) hst'⟩
    · split at h
      · rename_i hi hsol
        have hni : o1.s.infeasible = false := by simpa using hi
        obtain ⟨q, _, h⟩ := Res.bind_eq_ok.1 h
        split at h
        · cases h; exact h1
        · split at h
          · cases h
            obtain ⟨k, a, b, d⟩ := h1.count
            exact ⟨⟨k, a.after rfl, b, fun _ => d (Or.inl (by rw [hsol]; decide))⟩, h1.lower, h1.upper, h1.lasting, .unbounded rfl rfl hni rfl⟩
          · obtain ⟨f', _, h⟩ := Res.bind_eq_ok.1 h
            have h2 := ih _ _ _ _ _ _ o n (by rintro (h | h | h) <;> cases h) h1.upper h
            refine Solve.trans h1 (by rw [hsol]; decide) ?_ ?_ h2 <;> rfl
      · cases h; exact h1

/-- What is kept until the homotopy starts. -/
structure Untouched (s s' : QPC K) : Prop where
  active : s'.active = s.active
  status : s'.status = s.status
  nV : s'.nV = s.nV
  nC : s'.nC = s.nC
  infeasible : s'.infeasible = s.infeasible
  unbounded : s'.unbounded = s.unbounded

/-- What `hotstart` does after the guess has been processed. -/
inductive Main (sq : K → K) (s : QPC K) (lbNew ubNew lbANew ubANew : Option (Nat → K)) (nWSR : Int) (o : OutC K) : Prop
  | inconsistent (h : s.areBoundsConsistent lbNew ubNew lbANew ubANew = false) (rv : o.rv = SUCCESSFUL_RETURN) (n : o.nWSR = nWSR)
      (e : o.s = { s with infeasible := true })
  | setupFailed (h : s.areBoundsConsistent lbNew ubNew lbANew ubANew = true)
      (rv : o.rv = RET_INIT_FAILED_REGULARISATION ∨ o.rv = RET_INIT_FAILED_CHOLESKY) (n : o.nWSR = nWSR) (k : Untouched s o.s)
  | refused (h : s.areBoundsConsistent lbNew ubNew lbANew ubANew = true) (hr : QPB.NotReady s.toQPB)
      (rv : (o.rv = RET_HOTSTART_FAILED_AS_QP_NOT_INITIALISED) ∨
        (o.rv = RET_HOTSTART_STOPPED_INFEASIBILITY ∧ s.infeasible = true)) (n : o.nWSR = nWSR) (k : Untouched s o.s)
  | solved (h : s.areBoundsConsistent lbNew ubNew lbANew ubANew = true) (hr : ¬ QPB.NotReady s.toQPB) (s1 : QPC K) (k : Untouched s s1)
      (S : Solve sq s1 0 nWSR o)

theorem hotstartMain_cases {sq : K → K} {fuel : Nat} {s : QPC K} {gNew : Nat → K} {lbNew ubNew lbANew ubANew : Option (Nat → K)} {nWSR : Int}
    {c : Option K} {a : K} {o : OutC K} (hn : 0 ≤ nWSR)
    (h : hotstartMain sq fuel s gNew lbNew ubNew lbANew ubANew nWSR c a = .ok o) :
    Main sq s lbNew ubNew lbANew ubANew nWSR o := by
  unfold hotstartMain at h
  split at h
  · cases h; exact .inconsistent ‹_› rfl rfl rfl
  · rename_i hc
    have hc : s.areBoundsConsistent lbNew ubNew lbANew ubANew = true := by simpa using hc
    dsimp only at h
    have goal2 : ∀ (r1 : ReturnValue) (s1 : QPC K), Untouched s s1 →
        (r1 = SUCCESSFUL_RETURN ∨ r1 = RET_INIT_FAILED_REGULARISATION ∨ r1 = RET_INIT_FAILED_CHOLESKY) →
        (if r1 ≠ SUCCESSFUL_RETURN then .ok ⟨r1, nWSR, c, s1⟩
        else if s1.options.enableFarBounds = false then
          solveRegularisedQP sq s1 gNew lbNew ubNew lbANew ubANew nWSR c 0
        else do
          let f ← updateFarBounds s1 (s1.initialFar lbNew ubNew lbANew ubANew) lbNew ubNew lbANew ubANew
            ⟨fun _ => 0, fun _ => 0, fun _ => 0, fun _ => 0⟩
          let (o, needed) ← farLoop sq gNew lbNew ubNew lbANew ubANew nWSR c fuel s1 (s1.initialFar lbNew ubNew lbANew ubANew) f 0 0 INFTY
          .ok { o with cputime := c.map fun _ => needed + a }) = .ok o → Main sq s lbNew ubNew lbANew ubANew nWSR o := by
      intro r1 s1 hk hr1 h
      split at h
      · rename_i hne
        cases h
        refine .setupFailed hc ?_ rfl hk
        rcases hr1 with hr1 | hr1
        · exact absurd hr1 hne
        · exact hr1
      · by_cases hr : QPB.NotReady s.toQPB
        · have hr1 : QPB.NotReady s1.toQPB := by unfold QPB.NotReady at hr ⊢; rw [hk.status]; exact hr
          split at h
          · obtain ⟨c', e⟩ := solveRegularisedQP_notReady hr1 sq gNew lbNew ubNew lbANew ubANew nWSR c 0
            rw [e] at h
            cases h
            exact .refused hc hr (Or.inl rfl) rfl hk
          · obtain ⟨f, _, h⟩ := Res.bind_eq_ok.1 h
            obtain ⟨⟨o1, n⟩, e1, h⟩ := Res.bind_eq_ok.1 h
            cases h
            obtain ⟨b1, b2, k, b3⟩ := farLoop_refused _ _ _ _ _ _ _ _ _ _ _ _ _ _ _ _ _ hr1 e1
            refine .refused hc hr ?_ b2 ⟨by rw [b3]; exact hk.active, by rw [b3]; exact hk.status, by rw [b3]; exact hk.nV, by rw [b3]; exact hk.nC,
              by rw [b3]; exact hk.infeasible, by rw [b3]; exact hk.unbounded⟩
            rcases b1 with b1 | b1
            · exact Or.inl b1.1
            · exact Or.inr ⟨b1.1, hk.infeasible.symm.trans b1.2⟩
        · have hr1 : ¬ QPB.NotReady s1.toQPB := by unfold QPB.NotReady at hr ⊢; rw [hk.status]; exact hr
          split at h
          · exact .solved hc hr s1 hk (solveRegularisedQP_cases hr1 hn h)
          · obtain ⟨f, _, h⟩ := Res.bind_eq_ok.1 h
            obtain ⟨⟨o1, n⟩, e1, h⟩ := Res.bind_eq_ok.1 h
            cases h
            exact .solved hc hr s1 hk ((farLoop_cases _ _ _ _ _ _ _ _ _ _ _ _ _ _ _ _ _ hr1 hn e1).frame rfl rfl rfl rfl)
    split at h
    · obtain ⟨⟨r1, s1⟩, e1, h⟩ := Res.bind_eq_ok.1 h
      obtain ⟨⟨H, v, R, Q, t, e, hc', d⟩, d6⟩ := setupInitialCholesky_fields e1
      have hk : Untouched s s1 := by rw [d]; exact ⟨rfl, rfl, rfl, rfl, rfl, rfl⟩
      exact goal2 r1 s1 hk d6 h
    · exact goal2 SUCCESSFUL_RETURN { s with count := s.count + 1 } ⟨rfl, rfl, rfl, rfl, rfl, rfl⟩ (Or.inl rfl) h

theorem solveLoop_timed (sq : K → K) (gNew : Nat → K) (lbNew ubNew lbANew ubANew : Option (Nat → K)) (nWSR performed : Int) (c : Option K)
    (clk : Nat → K) (k : Nat) (t : K) (htime : c.isSome = true → t = clk k) :
    ∀ (m j : Nat) (s : QPC K) (o : OutC K), s.infeasible = false → s.unbounded = false → performed + j + m = nWSR →
      s.clk = clk → (c.isSome = true → s.now = k + max j 1) →
      solveLoop sq gNew lbNew ubNew lbANew ubANew nWSR performed c t m (performed + j) s = .ok o →
      (o.rv = SUCCESSFUL_RETURN → ∃ n : Nat, o.nWSR = performed + n ∧ QPB.Timed clk k c j n false) ∧
      (o.rv = RET_MAX_NWSR_REACHED → ∃ n : Nat, o.nWSR = performed + n ∧ (∀ i, 1 ≤ i → j ≤ i → i < n → QPB.InTime clk k c i) ∧
        (o.nWSR = nWSR ∨ (1 ≤ n ∧ ¬ QPB.InTime clk k c n))) := by
  intro m
  induction m with
  | zero =>
    intro j s o h1 h2 hm hclk hnow h
    cases h
    refine ⟨fun h => ?_, fun _ => ⟨j, ?_, fun i _ hi hi' => by omega, Or.inl rfl⟩⟩
    · have : RET_MAX_NWSR_REACHED = SUCCESSFUL_RETURN := h
      exact absurd this (by decide)
    · show nWSR = _
      omega
  | succ m ih =>
    intro j s o h1 h2 hm hclk hnow h
    rw [solveLoop] at h
    have hsub : performed + (j : Int) - performed = (j : Int) := by omega
    rw [hsub] at h
    have hspec : ∃ k0, (s.toQPB.isCPUtimeLimitExceeded c t (j : Int)).2 = { s.toQPB with now := k0 } ∧ (c.isSome = true → k0 = k + max (j+1) 1) ∧
        ((s.toQPB.isCPUtimeLimitExceeded c t (j : Int)).1 = true → 1 ≤ j ∧ ¬ QPB.InTime clk k c j) ∧
        ((s.toQPB.isCPUtimeLimitExceeded c t (j : Int)).1 = false → 1 ≤ j → QPB.InTime clk k c j) := by
      cases c with
      | none =>
        exact ⟨s.now, rfl, fun h => (by cases h), fun h => (by cases h), fun _ _ c hc => (by cases hc)⟩
      | some c =>
        subst hclk
        obtain rfl := htime rfl
        obtain ⟨a, b, c, d⟩ := QPB.cpuLimit_spec s.toQPB (some c) k j (hnow rfl)
        exact ⟨_, a, b, c, d⟩
    obtain ⟨k0, e0, hk0, ht, hf⟩ := hspec
    generalize s.toQPB.isCPUtimeLimitExceeded c t (j : Int) = p at h e0 ht hf
    obtain ⟨b, s0⟩ := p
    dsimp only at e0
    subst e0
    cases b with
    | true =>
      dsimp only at h
      have h := Res.ok.inj h
      subst h
      refine ⟨fun h => ?_, fun _ => ⟨j, rfl, fun i _ hi hi' => by omega, Or.inr (ht rfl)⟩⟩
      have : RET_MAX_NWSR_REACHED = SUCCESSFUL_RETURN := h
      exact absurd this (by decide)
    | false =>
      dsimp only at h
      obtain ⟨e, ei, h⟩ := Res.bind_eq_ok.1 h
      rcases iteration_cases (s := { s with now := k0 }) h1 h2 ei with ⟨o', rfl, f⟩ | ⟨s', rfl, k2, st2, i2, u2, rc⟩
      · cases h
        refine ⟨fun hs => ?_, fun h => absurd h f.rv⟩
        have hst := (f.outcome.success hs).1
        have hn : o.nWSR = performed + j := by
          rcases f.nWSR with h | ⟨h, _⟩
          · exact h.1
          · rw [hst] at h; cases h
        exact ⟨j, hn, fun i _ hi hi' => by omega, fun _ h => hf rfl h, fun h => (by cases h)⟩
      · dsimp only at h
        have hcast : performed + (j : Int) + 1 = performed + ((j + 1 : Nat) : Int) := by push_cast; ring
        rw [hcast] at h
        have n2 := base_now k2
        have c2 : s'.clk = s.clk := congrArg (fun p => p.1.2.2.2.2.2.1) k2
        obtain ⟨a, b⟩ := ih (j+1) s' o i2 u2 (by push_cast; omega) (c2.trans hclk)
          (fun hc => n2.trans (hk0 hc)) h
        have ext : ∀ n, (∀ i, 1 ≤ i → j + 1 ≤ i → i < n → QPB.InTime clk k c i) → ∀ i, 1 ≤ i → j ≤ i → i < n → QPB.InTime clk k c i := by
          intro n hp i hi hji hin
          by_cases e : i = j
          · subst e; exact hf rfl hi
          · exact hp i hi (by omega) hin
        refine ⟨fun h => ?_, fun h => ?_⟩
        · obtain ⟨n, hn, ht⟩ := a h
          exact ⟨n, hn, ext n ht.passed, ht.last, ht.stop⟩
        · obtain ⟨n, hn, hp, hl⟩ := b h
          exact ⟨n, hn, ext n hp, hl⟩

/-! ### Setting up a working set -/

/-- Numbers of variables and constraints, and the options deciding about the far bound loop. -/
def dims (s : QPC K) :=
  (s.nV, s.nC, s.options.initialFarBounds, s.options.growFarBounds, s.options.enableFarBounds, s.options.enableRamping, s.ramp0, s.ramp1)

/-- Those that a reset keeps. -/
def dims0 (s : QPC K) :=
  (s.nV, s.nC, s.options.initialFarBounds, s.options.growFarBounds, s.options.enableFarBounds, s.options.enableRamping)

theorem dims0_of {s s' : QPC K} (h : s'.dims = s.dims) : s'.dims0 = s.dims0 :=
  congrArg (fun p => (p.1, p.2.1, p.2.2.1, p.2.2.2.1, p.2.2.2.2.1, p.2.2.2.2.2.1)) h

theorem base_dims {s s' : QPC K} (h : s'.base = s.base) : s'.dims = s.dims :=
  congrArg (fun p => (p.1.1, p.1.2.1, p.1.2.2.2.2.2.2.2.2.1.initialFarBounds, p.1.2.2.2.2.2.2.2.2.1.growFarBounds,
    p.1.2.2.2.2.2.2.2.2.1.enableFarBounds, p.1.2.2.2.2.2.2.2.2.1.enableRamping, p.1.2.2.2.2.2.2.2.2.2.1, p.1.2.2.2.2.2.2.2.2.2.2)) h

theorem addBoundAs_adapted {sq : K → K} {s s' : QPC K} {k : Nat} {st : SubjectToStatus} {u : Bool} {r : ReturnValue}
    (h : addBoundAs sq s k st u = .ok (r, s')) : Adapted s r s' := by
  unfold addBoundAs at h
  split at h
  · exact addBound_adapted h
  · exact .of_still (addBoundPlain_still h).1 (addBoundPlain_still h).2

theorem addConstraintAs_adapted {sq : K → K} {s s' : QPC K} {k : Nat} {st : SubjectToStatus} {u : Bool} {r : ReturnValue}
    (h : addConstraintAs sq s k st u = .ok (r, s')) : Adapted s r s' := by
  unfold addConstraintAs at h
  split at h
  · exact addConstraint_adapted h
  · exact .of_still (addConstraintPlain_still h).1 (addConstraintPlain_still h).2

theorem Adapted.refl (s : QPC K) : Adapted s SUCCESSFUL_RETURN s := .of_still rfl internal_success

theorem auxRemoveC_adapted {sq : K → K} {aux : Option WS} {i : Nat} {s s' : QPC K} {r : ReturnValue}
    (h : auxRemoveC sq aux i s = .ok (r, s')) : Adapted s r s' := by
  unfold auxRemoveC at h
  have goal2 : ∀ (r1 : ReturnValue) (s1 : QPC K), Adapted s r1 s1 →
      (if r1 ≠ SUCCESSFUL_RETURN then .ok (r1, s1)
        else if s1.cons.getStatus i = ST_UPPER ∧ s1.wantC aux i ≠ ST_UPPER then removeConstraint sq s1 i true false s1.options.enableNZCTests
        else .ok (SUCCESSFUL_RETURN, s1)) = Res.ok (r, s') → Adapted s r s' := by
    intro r1 s1 a h
    split at h
    · cases h; exact a
    · rename_i hr
      rw [not_not.1 hr] at a
      split at h
      · exact a.trans (removeConstraint_adapted h)
      · cases h; exact a
  split at h
  · obtain ⟨⟨r1, s1⟩, e, h⟩ := Res.bind_eq_ok.1 h
    exact goal2 r1 s1 (removeConstraint_adapted e) h
  · exact goal2 _ s (.refl s) h

theorem auxRemoveB_adapted {sq : K → K} {aux : Option WS} {i : Nat} {s s' : QPC K} {r : ReturnValue}
    (h : auxRemoveB sq aux i s = .ok (r, s')) : Adapted s r s' := by
  unfold auxRemoveB at h
  have goal2 : ∀ (r1 : ReturnValue) (s1 : QPC K), Adapted s r1 s1 →
      (if r1 ≠ SUCCESSFUL_RETURN then .ok (r1, s1)
        else if s1.bounds.getStatus i = ST_UPPER ∧ s1.wantB aux i ≠ ST_UPPER then removeBound sq s1 i true false s1.options.enableNZCTests
        else .ok (SUCCESSFUL_RETURN, s1)) = Res.ok (r, s') → Adapted s r s' := by
    intro r1 s1 a h
    split at h
    · cases h; exact a
    · rename_i hr
      rw [not_not.1 hr] at a
      split at h
      · exact a.trans (removeBound_adapted h)
      · cases h; exact a
  split at h
  · obtain ⟨⟨r1, s1⟩, e, h⟩ := Res.bind_eq_ok.1 h
    exact goal2 r1 s1 (removeBound_adapted e) h
  · exact goal2 _ s (.refl s) h

theorem auxEqB_adapted {sq : K → K} {u : Bool} {i : Nat} {s s' : QPC K} {r : ReturnValue}
    (h : auxEqB sq u i s = .ok (r, s')) : Adapted s r s' := by
  unfold auxEqB at h
  split at h
  · exact addBoundAs_adapted h
  · cases h; exact .refl s

theorem auxEqC_adapted {sq : K → K} {u : Bool} {i : Nat} {s s' : QPC K} {r : ReturnValue}
    (h : auxEqC sq u i s = .ok (r, s')) : Adapted s r s' := by
  unfold auxEqC at h
  split at h
  · obtain ⟨b, _, h⟩ := Res.bind_eq_ok.1 h
    dsimp only at h
    split at h
    · exact addConstraintAs_adapted h
    · cases h; exact .of_still rfl internal_success
  · cases h; exact .refl s

theorem auxAddB_adapted {sq : K → K} {aux : Option WS} {u : Bool} {i : Nat} {s s' : QPC K} {r : ReturnValue}
    (h : auxAddB sq aux u i s = .ok (r, s')) : Adapted s r s' := by
  unfold auxAddB at h
  split at h
  · obtain ⟨b, _, h⟩ := Res.bind_eq_ok.1 h
    split at h
    · exact addBoundAs_adapted h
    · cases h; exact .refl s
  · cases h; exact .refl s

theorem auxAddC_adapted {sq : K → K} {aux : Option WS} {u : Bool} {i : Nat} {s s' : QPC K} {r : ReturnValue}
    (h : auxAddC sq aux u i s = .ok (r, s')) : Adapted s r s' := by
  unfold auxAddC at h
  split at h
  · obtain ⟨b, _, h⟩ := Res.bind_eq_ok.1 h
    split at h
    · exact addConstraintAs_adapted h
    · cases h; exact .refl s
  · cases h; exact .refl s

theorem auxLoops_adapted {sq : K → K} {auxB auxC : Option WS} {b : Bool} {s s' : QPC K} {r : ReturnValue}
    (h : auxLoops sq s auxB auxC b = .ok (r, s')) : Adapted s r s' := by
  unfold auxLoops at h
  dsimp only at h
  have goal2 : ∀ (r1 : ReturnValue) (s1 : QPC K), Adapted s r1 s1 →
      (if r1 ≠ SUCCESSFUL_RETURN then .ok (r1, s1) else do
        let (r, s) ← seqLoop (auxEqB sq !b) s1.nV 0 s1
        if r ≠ SUCCESSFUL_RETURN then .ok (r, s) else do
        let (r, s) ← seqLoop (auxEqC sq !b) s.nC 0 s
        if r ≠ SUCCESSFUL_RETURN then .ok (r, s) else do
        let (r, s) ← seqLoop (auxAddB sq auxB !b) s.nV 0 s
        if r ≠ SUCCESSFUL_RETURN then .ok (r, s) else seqLoop (auxAddC sq auxC !b) s.nC 0 s) = Res.ok (r, s') → Adapted s r s' := by
    intro r1 s1 a h
    split at h
    · cases h; exact a
    · rename_i hr
      rw [not_not.1 hr] at a
      obtain ⟨⟨r2, s2⟩, e2, h⟩ := Res.bind_eq_ok.1 h
      have a2 := a.trans (seqLoop_adapted (fun _ _ _ _ => auxEqB_adapted) _ _ _ _ _ e2)
      dsimp only at h
      split at h
      · cases h; exact a2
      · rename_i hr
        rw [not_not.1 hr] at a2
        obtain ⟨⟨r3, s3⟩, e3, h⟩ := Res.bind_eq_ok.1 h
        have a3 := a2.trans (seqLoop_adapted (fun _ _ _ _ => auxEqC_adapted) _ _ _ _ _ e3)
        dsimp only at h
        split at h
        · cases h; exact a3
        · rename_i hr
          rw [not_not.1 hr] at a3
          obtain ⟨⟨r4, s4⟩, e4, h⟩ := Res.bind_eq_ok.1 h
          have a4 := a3.trans (seqLoop_adapted (fun _ _ _ _ => auxAddB_adapted) _ _ _ _ _ e4)
          dsimp only at h
          split at h
          · cases h; exact a4
          · rename_i hr
            rw [not_not.1 hr] at a4
            exact a4.trans (seqLoop_adapted (fun _ _ _ _ => auxAddC_adapted) _ _ _ _ _ h)
  cases b with
  | true => exact goal2 _ s (.refl s) h
  | false =>
    simp only [Bool.false_eq_true, if_false] at h
    obtain ⟨⟨r1, s1⟩, e1, h⟩ := Res.bind_eq_ok.1 h
    have a1 := seqLoop_adapted (fun _ _ _ _ => auxRemoveC_adapted) _ _ _ _ _ e1
    dsimp only at h
    split at h
    · refine goal2 r1 s1 a1 h
    · rename_i hr
      rw [not_not.1 hr] at a1
      obtain ⟨⟨r2, s2⟩, e2, h⟩ := Res.bind_eq_ok.1 h
      exact goal2 r2 s2 (a1.trans (seqLoop_adapted (fun _ _ _ _ => auxRemoveB_adapted) _ _ _ _ _ e2)) h

theorem setupAuxiliaryWorkingSet_dims {sq : K → K} {auxB auxC : Option WS} {b : Bool} {s s' : QPC K} {r : ReturnValue}
    (h : setupAuxiliaryWorkingSet sq s auxB auxC b = .ok (r, s')) : s'.dims = s.dims := by
  unfold setupAuxiliaryWorkingSet at h
  split at h
  · cases h; rfl
  split at h
  · cases h; rfl
  split at h
  · cases h
    unfold fixAll
    split <;> rfl
  · dsimp only at h
    obtain ⟨⟨r1, s1⟩, e1, h⟩ := Res.bind_eq_ok.1 h
    have a := base_dims (auxLoops_adapted e1).base
    have a : s1.dims = s.dims := a
    dsimp only at h
    split at h
    · cases h; exact a
    · cases h; exact a

theorem auxBoundsB_dims (aux : Option WS) : ∀ (m i : Nat) (s : QPC K), (auxBoundsB aux m i s).2.dims = s.dims := by
  intro m
  induction m with
  | zero => intro i s; rfl
  | succ m ih =>
    intro i s
    unfold auxBoundsB
    split
    · rfl
    · exact (ih _ _).trans rfl

theorem auxBoundsC_dims (aux : Option WS) : ∀ (m i : Nat) (s : QPC K), (auxBoundsC aux m i s).2.dims = s.dims := by
  intro m
  induction m with
  | zero => intro i s; rfl
  | succ m ih =>
    intro i s
    unfold auxBoundsC
    split
    · rfl
    · exact (ih _ _).trans rfl

theorem setupAuxiliaryQPbounds_dims (s : QPC K) (aux : Option (WS × WS)) : (setupAuxiliaryQPbounds s aux).2.dims = s.dims := by
  unfold setupAuxiliaryQPbounds
  have h1 := auxBoundsB_dims (aux.map (·.1)) s.nV 0 s
  generalize auxBoundsB (aux.map (·.1)) s.nV 0 s = p at h1
  obtain ⟨r, s1⟩ := p
  dsimp only at h1 ⊢
  split
  · exact h1
  · exact (auxBoundsC_dims _ _ _ _).trans h1

theorem setupAuxiliaryQPdata_dims {s s' : QPC K} (h : setupAuxiliaryQPdata s = .ok s') : s'.dims = s.dims := by
  unfold setupAuxiliaryQPdata at h
  dsimp only at h
  obtain ⟨s1, e1, h⟩ := Res.bind_eq_ok.1 h
  obtain ⟨g, e⟩ := setupAuxiliaryQPgradient_fields e1
  cases h
  refine (setupAuxiliaryQPbounds_dims _ _).trans ?_
  rw [e]
  rfl

theorem setupAuxiliaryQP_dims {sq : K → K} {gB gC : Option WS} {s s' : QPC K} {r : ReturnValue}
    (h : setupAuxiliaryQP sq s gB gC = .ok (r, s')) : s'.dims = s.dims := by
  unfold setupAuxiliaryQP at h
  split at h
  · cases h; rfl
  · dsimp only at h
    split at h
    · obtain ⟨⟨r1, s1⟩, e1, h⟩ := Res.bind_eq_ok.1 h
      have a1 := setupAuxiliaryWorkingSet_dims e1
      have a1 : s1.dims = s.dims := a1
      dsimp only at h
      obtain ⟨⟨r2, s2⟩, e2, h⟩ := Res.bind_eq_ok.1 h
      have a2 := base_dims (still_base (computeProjectedCholesky_still e2).1)
      dsimp only at h
      split at h
      · cases h; exact a2.trans a1
      · obtain ⟨s3, e3, h⟩ := Res.bind_eq_ok.1 h
        cases h
        exact (setupAuxiliaryQPdata_dims e3).trans (a2.trans a1)
    · obtain ⟨⟨r1, s1⟩, e1, h⟩ := Res.bind_eq_ok.1 h
      have a1 := setupAuxiliaryWorkingSet_dims e1
      have a1 : s1.dims = s.dims := a1
      dsimp only at h
      obtain ⟨s3, e3, h⟩ := Res.bind_eq_ok.1 h
      cases h
      exact (setupAuxiliaryQPdata_dims e3).trans a1

/-! ### Cold starts -/

/-- How the preparation of a cold start ends. -/
def SetUp (s : QPC K) (nWSR : Int) (e : Except (OutC K) (QPC K)) : Prop :=
  match e with
  | .error o => o.nWSR = nWSR ∧ (o.rv = RET_INIT_FAILED ∨ o.rv = RET_INIT_FAILED_REGULARISATION) ∧ o.s.dims = s.dims
  | .ok s1 => s1.dims = s.dims ∧ s1.status = QPS_AUXILIARYQPSOLVED

theorem prepareAuxiliary_setUp {sq : K → K} {s : QPC K} {xOpt yOpt : Option (Nat → K)} {gB gC : Option WS} {R : Option (Nat → K)}
    {nWSR : Int} {c : Option K} {e : Except (OutC K) (QPC K)} (h : prepareAuxiliary sq s xOpt yOpt gB gC R nWSR c = .ok e) :
    SetUp s nWSR e := by
  unfold prepareAuxiliary at h
  split at h
  · rename_i auxB auxC _ _
    have goal2 : ∀ (r1 : ReturnValue) (s1 : QPC K), s1.dims = s.dims →
        (if r1 ≠ SUCCESSFUL_RETURN then Res.ok (Except.error ⟨RET_INIT_FAILED_REGULARISATION, nWSR, c, s1⟩) else do
          let s := s1.setupTQfactorisation
          let (r, s) ← setupAuxiliaryWorkingSet sq s (some auxB) (some auxC) true
          if r ≠ SUCCESSFUL_RETURN then .ok (.error ⟨RET_INIT_FAILED, nWSR, c, s⟩) else do
          let s := { s with toQPB := QPB.takeFactor { s.toQPB with haveCholesky := false } (xOpt.isNone && yOpt.isNone && gB.isNone && gC.isNone) R }
          let s ← setupAuxiliaryQPgradient s
          match setupAuxiliaryQPbounds s (some (auxB, auxC)) with
          | (r, s) =>
            if r ≠ SUCCESSFUL_RETURN then .ok (.error ⟨RET_INIT_FAILED, nWSR, c, s⟩) else
            let s := { s with status := QPS_AUXILIARYQPSOLVED }
            if s.options.enableRamping then do
              let s ← performRamping s
              .ok (.ok s)
            else .ok (.ok s)) = .ok e → SetUp s nWSR e := by
      intro r1 s1 a1 h
      split at h
      · cases h; exact ⟨rfl, Or.inr rfl, a1⟩
      · dsimp only at h
        obtain ⟨⟨r2, s2⟩, e2, h⟩ := Res.bind_eq_ok.1 h
        have a2 := setupAuxiliaryWorkingSet_dims e2
        have a2 : s2.dims = s.dims := a2.trans a1
        dsimp only at h
        split at h
        · cases h; exact ⟨rfl, Or.inl rfl, a2⟩
        · obtain ⟨s3, e3, h⟩ := Res.bind_eq_ok.1 h
          obtain ⟨g, f3⟩ := setupAuxiliaryQPgradient_fields e3
          have a3 : s3.dims = s.dims := by
            rw [f3]
            have : ∀ b : Bool, ({ s2 with toQPB := QPB.takeFactor { s2.toQPB with haveCholesky := false } b R } : QPC K).dims = s2.dims := by
              intro b
              have : ∃ R' hc, QPB.takeFactor { s2.toQPB with haveCholesky := false } b R = { s2.toQPB with R := R', haveCholesky := hc } := by
                unfold QPB.takeFactor
                repeat' split
                all_goals exact ⟨_, _, rfl⟩
              obtain ⟨R', hc, e⟩ := this
              rw [e]
              rfl
            exact (this _).trans a2
          have a4 := (setupAuxiliaryQPbounds_dims s3 (some (auxB, auxC))).trans a3
          generalize setupAuxiliaryQPbounds s3 (some (auxB, auxC)) = p at h a4
          obtain ⟨r4, s4⟩ := p
          dsimp only at h a4
          split at h
          · cases h; exact ⟨rfl, Or.inl rfl, a4⟩
          · split at h
            · obtain ⟨s5, e5, h⟩ := Res.bind_eq_ok.1 h
              cases h
              have q := (performRamping_still e5).1
              have b5 := base_dims (still_base q)
              exact ⟨b5.trans a4, still_status q⟩
            · cases h; exact ⟨a4, rfl⟩
    split at h
    · obtain ⟨⟨r1, s1⟩, e1, h⟩ := Res.bind_eq_ok.1 h
      obtain ⟨H, v, f⟩ := regulariseHessian_fields e1
      exact goal2 r1 s1 (by rw [f]; rfl) h
    · exact goal2 SUCCESSFUL_RETURN s rfl h
  · cases h; exact ⟨rfl, Or.inl rfl, rfl⟩

theorem determineHessianType_dims (s : QPB K) : s.determineHessianType.2.nV = s.nV ∧
    s.determineHessianType.2.options.initialFarBounds = s.options.initialFarBounds ∧
    s.determineHessianType.2.options.growFarBounds = s.options.growFarBounds ∧
    s.determineHessianType.2.options.enableFarBounds = s.options.enableFarBounds ∧
    s.determineHessianType.2.options.enableRamping = s.options.enableRamping ∧
    s.determineHessianType.2.ramp0 = s.ramp0 ∧ s.determineHessianType.2.ramp1 = s.ramp1 := by
  unfold QPB.determineHessianType QPB.ensureRegularisation
  dsimp only
  repeat' split
  all_goals exact ⟨rfl, rfl, rfl, rfl, rfl, rfl, rfl⟩

theorem prepareInitialQP_setUp {sq : K → K} {s : QPC K} {xOpt yOpt : Option (Nat → K)} {gB gC : Option WS} {R : Option (Nat → K)}
    {nWSR : Int} {c : Option K} {e : Except (OutC K) (QPC K)} (h : prepareInitialQP sq s xOpt yOpt gB gC R nWSR c = .ok e) :
    SetUp s nWSR e := by
  unfold prepareInitialQP at h
  have hd := determineHessianType_dims ({ s.toQPB with status := QPS_NOTINITIALISED } : QPB K)
  generalize ({ s.toQPB with status := QPS_NOTINITIALISED } : QPB K).determineHessianType = p at h hd
  obtain ⟨r, b⟩ := p
  dsimp only at h hd
  have hd' : ({ s with toQPB := b } : QPC K).dims = s.dims := by
    obtain ⟨h1, h2, h3, h4, h5, h6, h7⟩ := hd
    unfold dims
    dsimp only
    rw [h1, h2, h3, h4, h5, h6, h7]
  split at h
  · cases h; exact ⟨rfl, Or.inl rfl, hd'⟩
  · have a := prepareAuxiliary_setUp h
    unfold SetUp at a ⊢
    split
    · exact ⟨a.1, a.2.1, a.2.2.trans hd'⟩
    · exact ⟨a.1.trans hd', a.2⟩

/-- The object in which a cold start begins: the old problem is forgotten, the data are stored. -/
def given (s : QPC K) (H g A lb ub lbA ubA : Option (Nat → K)) : QPC K :=
  ((if s.status ≠ QPS_NOTINITIALISED then s.reset else s).setupQPdata H g A lb ub lbA ubA).2

theorem setupQPdata_dims (s : QPC K) (H g A lb ub lbA ubA : Option (Nat → K)) : (s.setupQPdata H g A lb ub lbA ubA).2.dims = s.dims := by
  have hb : (s.toQPB.setupQPdata H g lb ub).2.nV = s.nV ∧ (s.toQPB.setupQPdata H g lb ub).2.options = s.options ∧
      (s.toQPB.setupQPdata H g lb ub).2.ramp0 = s.ramp0 ∧ (s.toQPB.setupQPdata H g lb ub).2.ramp1 = s.ramp1 := by
    have hH : (s.toQPB.setH H).nV = s.nV ∧ (s.toQPB.setH H).options = s.options ∧ (s.toQPB.setH H).ramp0 = s.ramp0 ∧
        (s.toQPB.setH H).ramp1 = s.ramp1 := by
      unfold QPB.setH
      repeat' split
      all_goals exact ⟨rfl, rfl, rfl, rfl⟩
    unfold QPB.setupQPdata
    cases g with
    | none => exact hH
    | some g => exact hH
  unfold setupQPdata
  generalize s.toQPB.setupQPdata H g lb ub = p at hb
  obtain ⟨r, b⟩ := p
  dsimp only at hb ⊢
  have hb' : ({ s with toQPB := b } : QPC K).dims = s.dims := by
    unfold dims
    dsimp only
    rw [hb.1, hb.2.1, hb.2.2.1, hb.2.2.2]
  split
  · exact hb'
  · split
    · exact hb'
    · split
      · exact hb'
      · exact hb'

theorem given_dims (s : QPC K) (H g A lb ub lbA ubA : Option (Nat → K)) : (s.given H g A lb ub lbA ubA).dims0 = s.dims0 := by
  unfold given
  refine (dims0_of (setupQPdata_dims _ _ _ _ _ _ _ _)).trans ?_
  split <;> rfl

end QPC
end QpOASES
