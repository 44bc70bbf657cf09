import Verif.Proofs.QPBFrame
import Mathlib.Tactic.Ring

/-!
Outcomes of the solver loops of `QProblemB`: return values, status, counters and clock, for any state.
-/
namespace QpOASES
namespace QPB
open ReturnValue SubjectToStatus SubjectToType HessianType QProblemStatus

set_option linter.unusedSectionVars false

variable {K : Type} [Field K] [LinearOrder K] [IsStrictOrderedRing K]

/-- `s'` is reached from `s` by `k` recalculations of the working set, which is not changed otherwise. -/
inductive Recalcs (sq : K → K) : Nat → QPB K → QPB K → Prop
  | none {s s' : QPB K} (h : s'.bounds.status = s.bounds.status) : Recalcs sq 0 s s'
  | one {k : Nat} {s s1 s2 s3 : QPB K} {bc : Option (Nat × SubjectToStatus)} {r : ReturnValue} (h : Recalcs sq k s s1)
      (e : changeActiveSet sq s1 bc = .ok (r, s2)) (h' : s3.bounds.status = s2.bounds.status) : Recalcs sq (k+1) s s3

theorem Recalcs.after {sq : K → K} {k : Nat} {s s' s'' : QPB K} (h : Recalcs sq k s s') (e : s''.bounds.status = s'.bounds.status) :
    Recalcs sq k s s'' := by
  cases h with
  | none h => exact .none (e.trans h)
  | one h e' h' => exact .one h e' (e.trans h')

theorem Recalcs.trans {sq : K → K} {k k' : Nat} {s s' s'' : QPB K} (h : Recalcs sq k s s') (h' : Recalcs sq k' s' s'') :
    Recalcs sq (k + k') s s'' := by
  induction h' with
  | none e => exact h.after e
  | one _ e e' ih => exact .one (ih h) e e'

/-- The number of variables whose status differs is at most the number of recalculations. -/
theorem Recalcs.card {sq : K → K} {k : Nat} {s s' : QPB K} (h : Recalcs sq k s s') (n : Nat) :
    ((List.range n).countP fun i => decide (s'.bounds.status i ≠ s.bounds.status i)) ≤ k := by
  have : ∃ l : List Nat, l.length = k ∧ ∀ i, i ∉ l → s'.bounds.status i = s.bounds.status i := by
    induction h with
    | none e => exact ⟨[], rfl, fun i _ => by rw [e]⟩
    | one _ e e' ih =>
      obtain ⟨l, hl, hi⟩ := ih
      obtain ⟨_, _, j, hj⟩ := changeActiveSet_keep e
      refine ⟨j :: l, by rw [List.length_cons, hl], fun i hni => ?_⟩
      rw [List.mem_cons, not_or] at hni
      rw [e', hj i hni.1, hi i hni.2]
  obtain ⟨l, hl, hi⟩ := this
  rw [List.countP_eq_length_filter, ← hl]
  refine List.Subperm.length_le (List.Nodup.subperm (List.Nodup.filter _ List.nodup_range) ?_)
  intro i h
  by_contra hn
  have := (List.mem_filter.1 h).2
  rw [decide_eq_true_eq] at this
  exact this (hi i hn)

theorem computeCholesky_code {sq : K → K} {s s' : QPB K} {r : ReturnValue} (h : computeCholesky sq s = .ok (r, s')) :
    r = SUCCESSFUL_RETURN ∨ r = RET_CHOLESKY_OF_ZERO_HESSIAN ∨ r = RET_HESSIAN_NOT_SPD := by
  unfold computeCholesky at h
  dsimp only at h
  split at h
  · split at h <;> cases h
    · exact Or.inl rfl
    · exact Or.inr (Or.inl rfl)
  · cases h; exact Or.inl rfl
  · split at h
    · obtain ⟨H, _, h⟩ := Res.bind_eq_ok.1 h
      split at h <;> cases h
      · exact Or.inr (Or.inr rfl)
      · exact Or.inl rfl
    · cases h; exact Or.inl rfl

theorem changeActiveSet_code {sq : K → K} {s s' : QPB K} {bc : Option (Nat × SubjectToStatus)} {r : ReturnValue}
    (h : changeActiveSet sq s bc = .ok (r, s')) :
    r = SUCCESSFUL_RETURN ∨ r = RET_OPTIMAL_SOLUTION_FOUND ∨ r = RET_REMOVE_FROM_ACTIVESET_FAILED ∨ r = RET_ADD_TO_ACTIVESET_FAILED := by
  unfold changeActiveSet at h
  split at h
  · cases h; exact Or.inr (Or.inl rfl)
  · obtain ⟨⟨r1, s1⟩, e, h⟩ := Res.bind_eq_ok.1 h
    dsimp only at h
    split at h <;> cases h
    · exact Or.inr (Or.inr (Or.inl rfl))
    · exact Or.inl rfl
  · dsimp only at h
    have h := congrArg Prod.fst (Res.ok.inj h)
    dsimp only at h
    split at h
    · exact Or.inr (Or.inr (Or.inr h.symm))
    · exact Or.inl h.symm

/-- Internal errors. -/
def Failure (r : ReturnValue) : Prop :=
  r = RET_OPTIMAL_SOLUTION_FOUND ∨ r = RET_REMOVE_FROM_ACTIVESET_FAILED ∨ r = RET_ADD_TO_ACTIVESET_FAILED ∨
  r = RET_CHOLESKY_OF_ZERO_HESSIAN ∨ r = RET_HESSIAN_NOT_SPD ∨ r = RET_STEPDIRECTION_FAILED_CHOLESKY

theorem Failure.ne {r : ReturnValue} (h : Failure r) : r ≠ SUCCESSFUL_RETURN ∧ r ≠ RET_MAX_NWSR_REACHED := by
  rcases h with h | h | h | h | h | h <;> subst h <;> exact ⟨by decide, by decide⟩

/-- The result `o` of a failed iteration starting in `s`. -/
structure Failed (sq : K → K) (s : QPB K) (iter nWSR : Int) (o : Out K) : Prop where
  rv : Failure o.rv
  status : o.s.status = QPS_PERFORMINGHOMOTOPY
  infeasible : o.s.infeasible = s.infeasible
  unbounded : o.s.unbounded = s.unbounded
  nV : o.s.nV = s.nV
  regVal : o.s.setting = s.setting
  nWSR : (Recalcs sq 0 s o.s ∧ o.nWSR = iter) ∨ (Recalcs sq 1 s o.s ∧ (o.nWSR = iter ∨ o.nWSR = nWSR))

theorem endIteration_cases {sq : K → K} {s : QPB K} {bc : Option (Nat × SubjectToStatus)} {iter nWSR : Int} {c : Option K} {t : K}
    {e : Except (Out K) (QPB K)} (hs : s.status = QPS_PERFORMINGHOMOTOPY) (h1 : s.infeasible = false) (h2 : s.unbounded = false)
    (h : endIteration sq s bc iter nWSR c t = .ok e) :
    (∃ o, e = .error o ∧ Failed sq s iter nWSR o) ∨
    (∃ s', e = .ok s' ∧ Keep s s' ∧ s'.status = QPS_HOMOTOPYQPSOLVED ∧ Recalcs sq 1 s s') := by
  unfold endIteration at h
  obtain ⟨⟨r, s1⟩, e1, h⟩ := Res.bind_eq_ok.1 h
  obtain ⟨k1, st1, _⟩ := changeActiveSet_keep e1
  have hr := changeActiveSet_code e1
  have rec1 : ∀ s3 : QPB K, s3.bounds.status = s1.bounds.status → Recalcs sq 1 s s3 := fun s3 h3 => .one (.none rfl) e1 h3
  dsimp only at h
  split at h
  · rename_i hne
    obtain ⟨f1, f2, k, f3⟩ := finish_keep s1 r iter c t
    have i1 : (s1.finish r iter c t).s.infeasible = false := by rw [f3]; exact k1.infeasible.trans h1
    have i2 : (s1.finish r iter c t).s.unbounded = false := by rw [f3]; exact k1.unbounded.trans h2
    rw [i1, i2] at h
    simp only [Bool.false_eq_true, if_false] at h
    cases h
    refine Or.inl ⟨_, rfl, ?_, ?_, ?_, ?_, ?_, ?_, Or.inr ⟨rec1 _ ?_, Or.inl f2⟩⟩
    · rw [f1]
      rcases hr with hr | hr | hr | hr
      · exact absurd hr hne
      · exact Or.inl hr
      · exact Or.inr (Or.inl hr)
      · exact Or.inr (Or.inr (Or.inl hr))
    · rw [f3]; exact st1.trans hs
    · rw [f3]; exact k1.infeasible
    · rw [f3]; exact k1.unbounded
    · rw [f3]; exact k1.nV
    · rw [f3]; exact k1.regVal
    · rw [f3]
  · have goal3 : ∀ s3 : QPB K, Keep s1 s3 → s3.bounds = s1.bounds →
        (Res.ok (Except.ok { s3 with status := QPS_HOMOTOPYQPSOLVED }) : Res (Except (Out K) (QPB K))) = .ok e →
        (∃ o, e = .error o ∧ Failed sq s iter nWSR o) ∨
        (∃ s', e = .ok s' ∧ Keep s s' ∧ s'.status = QPS_HOMOTOPYQPSOLVED ∧ Recalcs sq 1 s s') := by
      intro s3 k3 b3 h
      cases h
      have k := k1.trans k3
      refine Or.inr ⟨_, rfl, ⟨k.nV, k.infeasible, k.unbounded, k.clk, k.regVal, k.count, k.now⟩, rfl, rec1 _ ?_⟩
      show s3.bounds.status = _
      rw [b3]
    have goal2 : ∀ (r2 : ReturnValue) (s2 : QPB K), Keep s1 s2 → s2.status = s1.status → s2.bounds = s1.bounds →
        (r2 = SUCCESSFUL_RETURN ∨ r2 = RET_CHOLESKY_OF_ZERO_HESSIAN ∨ r2 = RET_HESSIAN_NOT_SPD) →
        (if r2 ≠ SUCCESSFUL_RETURN then Res.ok (Except.error ⟨r2, nWSR, c, s2⟩)
          else if s2.tau ≤ EPS ∧ s2.options.enableRamping = true then do
            let s ← s2.performRamping
            Res.ok (Except.ok { s with status := QPS_HOMOTOPYQPSOLVED })
          else if s2.options.enableDriftCorrection > 0 ∧ (iter + 1) % s2.options.enableDriftCorrection = 0 then do
            let s ← s2.performDriftCorrection
            Res.ok (Except.ok { s with status := QPS_HOMOTOPYQPSOLVED })
          else do
            let s ← Res.ok s2
            Res.ok (Except.ok { s with status := QPS_HOMOTOPYQPSOLVED })) = .ok e →
        (∃ o, e = .error o ∧ Failed sq s iter nWSR o) ∨
        (∃ s', e = .ok s' ∧ Keep s s' ∧ s'.status = QPS_HOMOTOPYQPSOLVED ∧ Recalcs sq 1 s s') := by
      intro r2 s2 k2 st2 b2 hr2 h
      split at h
      · rename_i hne
        cases h
        refine Or.inl ⟨_, rfl, ?_, st2.trans (st1.trans hs), (k1.trans k2).infeasible, (k1.trans k2).unbounded, (k1.trans k2).nV,
          (k1.trans k2).regVal, Or.inr ⟨rec1 _ ?_, Or.inr rfl⟩⟩
        · rcases hr2 with hr2 | hr2 | hr2
          · exact absurd hr2 hne
          · exact Or.inr (Or.inr (Or.inr (Or.inl hr2)))
          · exact Or.inr (Or.inr (Or.inr (Or.inr (Or.inl hr2))))
        · show s2.bounds.status = _
          rw [b2]
      · split at h
        · obtain ⟨s3, e3, h⟩ := Res.bind_eq_ok.1 h
          have := performRamping_keep e3
          exact goal3 s3 (k2.trans this.1) (this.2.2.1.trans b2) h
        · split at h
          · obtain ⟨s3, e3, h⟩ := Res.bind_eq_ok.1 h
            have := performDriftCorrection_keep e3
            exact goal3 s3 (k2.trans this.1) (this.2.2.1.trans b2) h
          · exact goal3 s2 k2 b2 h
    split at h
    · obtain ⟨⟨r2, s2⟩, e2, h⟩ := Res.bind_eq_ok.1 h
      have := computeCholesky_keep e2
      exact goal2 r2 s2 this.1 this.2.1 this.2.2.1 (computeCholesky_code e2) h
    · exact goal2 SUCCESSFUL_RETURN s1 (.refl _) rfl rfl (Or.inl rfl) h

/-- The result `o` of a final successful iteration. -/
structure Final (s : QPB K) (iter : Int) (o : Out K) : Prop where
  rv : o.rv = SUCCESSFUL_RETURN
  status : o.s.status = QPS_SOLVED
  infeasible : o.s.infeasible = s.infeasible
  unbounded : o.s.unbounded = s.unbounded
  nV : o.s.nV = s.nV
  regVal : o.s.setting = s.setting
  nWSR : o.nWSR = iter
  bounds : o.s.bounds = s.bounds

theorem iteration_cases {sq : K → K} {s : QPB K} {gNew : Nat → K} {lbNew ubNew : Option (Nat → K)} {iter nWSR : Int} {c : Option K} {t : K}
    {e : Except (Out K) (QPB K)} (h1 : s.infeasible = false) (h2 : s.unbounded = false)
    (h : iteration sq s gNew lbNew ubNew iter nWSR c t = .ok e) :
    (∃ o, e = .error o ∧ (Final s iter o ∨ Failed sq s iter nWSR o)) ∨
    (∃ s', e = .ok s' ∧ Keep s s' ∧ s'.status = QPS_HOMOTOPYQPSOLVED ∧ Recalcs sq 1 s s') := by
  unfold iteration at h
  dsimp only at h
  obtain ⟨d, _, h⟩ := Res.bind_eq_ok.1 h
  cases d with
  | none =>
    cases h
    obtain ⟨f1, f2, k, f3⟩ := finish_keep ({ s with status := QPS_PERFORMINGHOMOTOPY } : QPB K) RET_STEPDIRECTION_FAILED_CHOLESKY iter c t
    refine Or.inl ⟨_, rfl, Or.inr ⟨?_, ?_, ?_, ?_, ?_, ?_, Or.inl ⟨.none ?_, f2⟩⟩⟩
    · rw [f1]; exact Or.inr (Or.inr (Or.inr (Or.inr (Or.inr rfl))))
    all_goals rw [f3]
    rfl
  | some d =>
    dsimp only at h
    obtain ⟨⟨s1, bc⟩, e1, h⟩ := Res.bind_eq_ok.1 h
    obtain ⟨k1, st1, b1⟩ := performStep_keep e1
    dsimp only at h
    split at h
    · cases h
      obtain ⟨f1, f2, k, f3⟩ := finish_keep ({ s1 with status := QPS_SOLVED } : QPB K) SUCCESSFUL_RETURN iter c t
      refine Or.inl ⟨_, rfl, Or.inl ⟨f1, ?_, ?_, ?_, ?_, ?_, f2, ?_⟩⟩ <;> rw [f3]
      · exact k1.infeasible
      · exact k1.unbounded
      · exact k1.nV
      · exact k1.regVal
      · exact b1
    · have base : Recalcs sq 0 s s1 := .none (by rw [b1])
      rcases endIteration_cases st1 (k1.infeasible.trans h1) (k1.unbounded.trans h2) h with ⟨o, rfl, f⟩ | ⟨s', rfl, k2, st2, rc⟩
      · refine Or.inl ⟨o, rfl, Or.inr ⟨f.rv, f.status, f.infeasible.trans k1.infeasible, f.unbounded.trans k1.unbounded,
          f.nV.trans k1.nV, f.regVal.trans k1.regVal, ?_⟩⟩
        rcases f.nWSR with ⟨a, b⟩ | ⟨a, b⟩
        · exact Or.inl ⟨base.trans a, b⟩
        · exact Or.inr ⟨(base.trans a : Recalcs sq (0 + 1) s o.s), b⟩
      · refine Or.inr ⟨s', rfl, ?_, st2, (base.trans rc : Recalcs sq (0 + 1) s s')⟩
        have k : Keep s s1 := ⟨k1.nV, k1.infeasible, k1.unbounded, k1.clk, k1.regVal, k1.count, k1.now⟩
        exact k.trans k2

/-- The check of the time before the iteration after the first `j` ones, with the clock started at its `k`-th reading: the
next iteration is predicted to end within the limit. -/
def InTime (clk : Nat → K) (k : Nat) (limit : Option K) (j : Nat) : Prop :=
  ∀ c, limit = some c → (clk (k + j) - clk k) + (clk (k + j) - clk k) / (j : K) * (5/4) ≤ c

/-- Outcome of the main loop entered in `s` when `iter` recalculations of `nWSR` have been performed. -/
structure Loop (sq : K → K) (s : QPB K) (iter nWSR : Int) (o : Out K) : Prop where
  count : ∃ k : Nat, Recalcs sq k s o.s ∧ (k : Int) ≤ nWSR - iter ∧
    (o.rv = SUCCESSFUL_RETURN ∨ o.rv = RET_MAX_NWSR_REACHED → (k : Int) = o.nWSR - iter)
  lower : iter ≤ o.nWSR
  upper : o.nWSR ≤ nWSR
  infeasible : o.s.infeasible = false
  unbounded : o.s.unbounded = false
  nV : o.s.nV = s.nV
  regVal : o.s.setting = s.setting
  outcome : (o.rv = SUCCESSFUL_RETURN ∧ o.s.status = QPS_SOLVED) ∨
    (o.rv = RET_MAX_NWSR_REACHED ∧ (o.s.status = QPS_HOMOTOPYQPSOLVED ∨ o.s.status = s.status)) ∨
    (Failure o.rv ∧ o.s.status = QPS_PERFORMINGHOMOTOPY)

theorem solveLoop_cases (sq : K → K) (gNew : Nat → K) (lbNew ubNew : Option (Nat → K)) (nWSR performed : Int) (c : Option K) (t : K) :
    ∀ (m : Nat) (iter : Int) (s : QPB K) (o : Out K), s.infeasible = false → s.unbounded = false → iter + m = nWSR →
      solveLoop sq gNew lbNew ubNew nWSR performed c t m iter s = .ok o → Loop sq s iter nWSR o := by
  intro m
  induction m with
  | zero =>
    intro iter s o h1 h2 hm h
    cases h
    obtain ⟨f1, f2, k, f3⟩ := finish_keep s RET_MAX_NWSR_REACHED nWSR c t
    refine ⟨⟨0, .none (by rw [f3]), by omega, fun _ => by rw [f2]; omega⟩, by rw [f2]; omega, by rw [f2], by rw [f3]; exact h1,
      by rw [f3]; exact h2, by rw [f3], by rw [f3]; rfl, Or.inr (Or.inl ⟨f1, Or.inr (by rw [f3])⟩)⟩
  | succ m ih =>
    intro iter s o h1 h2 hm h
    rw [solveLoop] at h
    obtain ⟨k0, e0⟩ := cpuLimit_keep s c t (iter - performed)
    generalize s.isCPUtimeLimitExceeded c t (iter - performed) = p at h e0
    obtain ⟨b, s0⟩ := p
    dsimp only at e0
    subst e0
    cases b with
    | true =>
      dsimp only at h
      obtain ⟨k1, e1⟩ := stopClock_keep ({ s with now := k0 } : QPB K) c t
      obtain ⟨f1, f2, k, f3⟩ := finish_keep (({ s with now := k0 } : QPB K).stopClock c t).2 RET_MAX_NWSR_REACHED iter
        (({ s with now := k0 } : QPB K).stopClock c t).1 t
      have h := Res.ok.inj h
      rw [h] at f1 f2 f3
      rw [e1] at f3
      refine ⟨⟨0, .none (by rw [f3]), by omega, fun _ => by rw [f2]; omega⟩, by rw [f2], by rw [f2]; omega, by rw [f3]; exact h1,
        by rw [f3]; exact h2, by rw [f3], by rw [f3]; rfl, Or.inr (Or.inl ⟨f1, Or.inr (by rw [f3])⟩)⟩
    | false =>
      dsimp only at h
      obtain ⟨e, ei, h⟩ := Res.bind_eq_ok.1 h
      have base : Recalcs sq 0 s ({ s with now := k0 } : QPB K) := .none rfl
      rcases iteration_cases (s := { s with now := k0 }) h1 h2 ei with ⟨o', rfl, f | f⟩ | ⟨s', rfl, k2, st2, rc⟩
      · cases h
        refine ⟨⟨0, .none (by rw [f.bounds]), by omega, fun _ => by rw [f.nWSR]; omega⟩, by rw [f.nWSR], by rw [f.nWSR]; omega,
          f.infeasible.trans h1, f.unbounded.trans h2, f.nV, f.regVal, Or.inl ⟨f.rv, f.status⟩⟩
      · cases h
        have hn := f.rv.ne
        have hc : ∃ k : Nat, Recalcs sq k s o.s ∧ (k : Int) ≤ nWSR - iter ∧
            (o.rv = SUCCESSFUL_RETURN ∨ o.rv = RET_MAX_NWSR_REACHED → (k : Int) = o.nWSR - iter) := by
          rcases f.nWSR with ⟨a, _⟩ | ⟨a, _⟩
          · exact ⟨0, base.trans a, by omega, fun h => absurd h (not_or.2 hn)⟩
          · exact ⟨1, (base.trans a : Recalcs sq (0 + 1) s o.s), by omega, fun h => absurd h (not_or.2 hn)⟩
        have hb : iter ≤ o.nWSR ∧ o.nWSR ≤ nWSR := by rcases f.nWSR with ⟨_, b⟩ | ⟨_, b | b⟩ <;> omega
        exact ⟨hc, hb.1, hb.2, f.infeasible.trans h1, f.unbounded.trans h2, f.nV, f.regVal, Or.inr (Or.inr ⟨f.rv, f.status⟩)⟩
      · dsimp only at h
        have hl := ih (iter + 1) s' o (k2.infeasible.trans h1) (k2.unbounded.trans h2) (by omega) h
        obtain ⟨k, rk, hk, he⟩ := hl.count
        have r1 := base.trans (rc.trans rk)
        refine ⟨⟨0 + (1 + k), r1, by omega, fun h => by have := he h; omega⟩, by have := hl.lower; omega, hl.upper, hl.infeasible,
          hl.unbounded, hl.nV.trans k2.nV, hl.regVal.trans k2.regVal, ?_⟩
        rcases hl.outcome with h | ⟨h, h'⟩ | h
        · exact Or.inl h
        · refine Or.inr (Or.inl ⟨h, Or.inl ?_⟩)
          rcases h' with h' | h'
          · exact h'
          · exact h'.trans st2
        · exact Or.inr (Or.inr h)

/-- The status forbids solving. -/
def NotReady (s : QPB K) : Prop :=
  s.status = QPS_NOTINITIALISED ∨ s.status = QPS_PREPARINGAUXILIARYQP ∨ s.status = QPS_PERFORMINGHOMOTOPY

theorem solveQP_notReady {s : QPB K} (h : NotReady s) (sq : K → K) (gNew : Nat → K) (lbNew ubNew : Option (Nat → K)) (nWSR : Int)
    (c : Option K) (performed : Int) :
    solveQP sq s gNew lbNew ubNew nWSR c performed = .ok ⟨RET_HOTSTART_FAILED_AS_QP_NOT_INITIALISED, nWSR, c, s⟩ := by
  unfold solveQP
  unfold NotReady at h
  rw [if_pos h]

theorem solveQP_cases {sq : K → K} {s : QPB K} {gNew : Nat → K} {lbNew ubNew : Option (Nat → K)} {nWSR : Int} {c : Option K}
    {performed : Int} {o : Out K} (hr : ¬ NotReady s) (hp : performed ≤ nWSR) (h : solveQP sq s gNew lbNew ubNew nWSR c performed = .ok o) :
    Loop sq s performed nWSR o := by
  unfold solveQP at h
  unfold NotReady at hr
  rw [if_neg hr] at h
  obtain ⟨k0, ek⟩ := startClock_keep s c
  dsimp only at h
  rw [ek] at h
  have hl := solveLoop_cases sq gNew lbNew ubNew nWSR performed c _ _ _
    { ({ s with now := k0 } : QPB K).setupSubjectToType lbNew ubNew with infeasible := false, unbounded := false } o rfl rfl (by omega) h
  obtain ⟨k, rk, hk, he⟩ := hl.count
  have base : Recalcs sq 0 s
      { ({ s with now := k0 } : QPB K).setupSubjectToType lbNew ubNew with infeasible := false, unbounded := false } := .none rfl
  exact ⟨⟨0 + k, base.trans rk, by omega, fun h => by have := he h; omega⟩, hl.lower, hl.upper, hl.infeasible, hl.unbounded,
    hl.nV, hl.regVal, hl.outcome⟩

/-- Outcome of a solver call starting in `s` when `p` recalculations of `nWSR` have been performed. -/
structure Solve (sq : K → K) (s : QPB K) (p nWSR : Int) (o : Out K) : Prop where
  count : ∃ k : Nat, Recalcs sq k s o.s ∧ (k : Int) ≤ nWSR - p ∧ (¬ Failure o.rv → (k : Int) = o.nWSR - p)
  lower : p ≤ o.nWSR
  upper : o.nWSR ≤ nWSR
  infeasible : o.s.infeasible = false
  nV : o.s.nV = s.nV
  regVal : o.s.setting = s.setting
  outcome : (o.rv = SUCCESSFUL_RETURN ∧ o.s.status = QPS_SOLVED ∧ o.s.unbounded = false) ∨
    (o.rv = RET_MAX_NWSR_REACHED ∧ ¬ NotReady o.s ∧ o.s.unbounded = false) ∨
    (Failure o.rv ∧ o.s.status = QPS_PERFORMINGHOMOTOPY ∧ o.s.unbounded = false) ∨
    (o.rv = RET_HOTSTART_STOPPED_UNBOUNDEDNESS ∧ o.s.status = QPS_HOMOTOPYQPSOLVED ∧ o.s.unbounded = true)

theorem Loop.solve {sq : K → K} {s : QPB K} {p nWSR : Int} {o : Out K} (h : Loop sq s p nWSR o) (hr : ¬ NotReady s) : Solve sq s p nWSR o := by
  refine ⟨?_, h.lower, h.upper, h.infeasible, h.nV, h.regVal, ?_⟩
  · obtain ⟨k, a, b, c⟩ := h.count
    refine ⟨k, a, b, fun hn => c ?_⟩
    rcases h.outcome with h | h | h
    · exact Or.inl h.1
    · exact Or.inr h.1
    · exact absurd h.1 hn
  · rcases h.outcome with h' | ⟨h', h''⟩ | h'
    · exact Or.inl ⟨h'.1, h'.2, h.unbounded⟩
    · refine Or.inr (Or.inl ⟨h', ?_, h.unbounded⟩)
      rcases h'' with h'' | h''
      · unfold NotReady; rw [h'']; decide
      · unfold NotReady; rw [h'']; exact hr
    · exact Or.inr (Or.inr (Or.inl ⟨h'.1, h'.2, h.unbounded⟩))

theorem Solve.trans {sq : K → K} {s s1 : QPB K} {p nWSR : Int} {o o' : Out K} (h : Solve sq s p nWSR o) (hs : ¬ Failure o.rv)
    (e : s1.bounds.status = o.s.bounds.status) (hn : s1.nV = o.s.nV) (hr : s1.setting = o.s.setting)
    (h' : Solve sq s1 o.nWSR nWSR o') : Solve sq s p nWSR o' := by
  obtain ⟨k, rk, hk, he⟩ := h.count
  obtain ⟨k', rk', hk', he'⟩ := h'.count
  have := h.lower
  have := h.upper
  have := h'.lower
  have hkk := he hs
  exact ⟨⟨k + k', (rk.after e).trans rk', by omega, fun h => by have := he' h; omega⟩, by omega, h'.upper, h'.infeasible,
    (h'.nV.trans hn).trans h.nV, (h'.regVal.trans hr).trans h.regVal, h'.outcome⟩

/-- Changing only the members not mentioned. -/
theorem Solve.frame {sq : K → K} {s : QPB K} {p nWSR : Int} {o o' : Out K} (h : Solve sq s p nWSR o) (h1 : o'.rv = o.rv)
    (h2 : o'.nWSR = o.nWSR) (h3 : o'.s.bounds = o.s.bounds) (h4 : o'.s.infeasible = o.s.infeasible) (h5 : o'.s.nV = o.s.nV)
    (h6 : o'.s.setting = o.s.setting) (h7 : o'.s.status = o.s.status) (h8 : o'.s.unbounded = o.s.unbounded) : Solve sq s p nWSR o' := by
  obtain ⟨k, a, b, c⟩ := h.count
  refine ⟨⟨k, a.after (by rw [h3]), b, ?_⟩, ?_, ?_, h4.trans h.infeasible, h5.trans h.nV, h6.trans h.regVal, ?_⟩
  · rw [h1, h2]; exact c
  · rw [h2]; exact h.lower
  · rw [h2]; exact h.upper
  · have ho := h.outcome
    unfold NotReady at ho ⊢
    rw [h1, h7, h8]
    exact ho

theorem not_failure_success {r : ReturnValue} (h : r = SUCCESSFUL_RETURN) : ¬ Failure r := fun hf => hf.ne.1 h

theorem Solve.solved {sq : K → K} {s : QPB K} {p nWSR : Int} {o : Out K} (h : Solve sq s p nWSR o) (hs : o.rv = SUCCESSFUL_RETURN) :
    o.s.status = QPS_SOLVED := by
  rcases h.outcome with h | h | h | h
  · exact h.2.1
  · rw [hs] at h; exact absurd h.1 (by decide)
  · exact absurd h.1 (not_failure_success hs)
  · rw [hs] at h; exact absurd h.1 (by decide)

theorem Solve.success {sq : K → K} {s : QPB K} {p nWSR : Int} {o : Out K} (h : Solve sq s p nWSR o) (hs : o.s.status = QPS_SOLVED)
    (hm : o.rv ≠ RET_MAX_NWSR_REACHED) : o.rv = SUCCESSFUL_RETURN := by
  rcases h.outcome with h | h | h | h
  · exact h.1
  · exact absurd h.1 hm
  · rw [hs] at h; exact absurd h.2.1 (by decide)
  · rw [hs] at h; exact absurd h.2.1 (by decide)

theorem ready_of_solved {s : QPB K} (h : s.status = QPS_SOLVED) : ¬ NotReady s := by
  unfold NotReady
  rw [h]
  decide

theorem regSteps_cases (sq : K → K) (gNew : Nat → K) (lbNew ubNew : Option (Nat → K)) (nWSR p : Int) (c : Option K) (s : QPB K) :
    ∀ (m : Nat) (o : Out K) (total : K) (o' : Out K), Solve sq s p nWSR o → o.rv = SUCCESSFUL_RETURN →
      regSteps sq gNew lbNew ubNew nWSR c m o total = .ok o' → Solve sq s p nWSR o' := by
  intro m
  induction m with
  | zero =>
    intro o total o' hS hs h
    cases h
    exact hS.frame hs.symm rfl rfl rfl rfl rfl rfl rfl
  | succ m ih =>
    intro o total o' hS hs h
    obtain ⟨o1, e1, h⟩ := Res.bind_eq_ok.1 h
    have hr : ¬ NotReady o.s := ready_of_solved (hS.solved hs)
    have h1 := hS.trans (not_failure_success hs) rfl rfl rfl ((solveQP_cases hr hS.upper e1).solve hr)
    dsimp only at h
    split at h
    · cases h
      exact h1.frame rfl rfl rfl rfl rfl rfl rfl rfl
    · rename_i hne
      exact ih o1 _ o' h1 (not_not.1 hne) h

theorem solveRegularisedQP_cases {sq : K → K} {s : QPB K} {gNew : Nat → K} {lbNew ubNew : Option (Nat → K)} {nWSR : Int} {c : Option K}
    {p : Int} {o : Out K} (hr : ¬ NotReady s) (hp : p ≤ nWSR) (h : solveRegularisedQP sq s gNew lbNew ubNew nWSR c p = .ok o) :
    Solve sq s p nWSR o := by
  unfold solveRegularisedQP at h
  split at h
  · exact (solveQP_cases hr hp h).solve hr
  · obtain ⟨o1, e1, h⟩ := Res.bind_eq_ok.1 h
    have h1 := (solveQP_cases hr hp e1).solve hr
    dsimp only at h
    split at h
    · cases h
      exact h1.frame rfl rfl rfl rfl rfl rfl rfl rfl
    · rename_i hne
      exact regSteps_cases sq gNew lbNew ubNew nWSR p c s _ o1 _ o h1 (not_not.1 hne) h

theorem solveRegularisedQP_notReady {s : QPB K} (h : NotReady s) (sq : K → K) (gNew : Nat → K) (lbNew ubNew : Option (Nat → K)) (nWSR : Int)
    (c : Option K) (p : Int) :
    ∃ c', solveRegularisedQP sq s gNew lbNew ubNew nWSR c p = .ok ⟨RET_HOTSTART_FAILED_AS_QP_NOT_INITIALISED, nWSR, c', s⟩ := by
  unfold solveRegularisedQP
  split
  · exact ⟨c, solveQP_notReady h ..⟩
  · rw [solveQP_notReady h]
    exact ⟨_, rfl⟩

theorem farLoop_cases (sq : K → K) (gNew : Nat → K) (lbNew ubNew : Option (Nat → K)) (nWSR : Int) (c : Option K) :
    ∀ (fuel : Nat) (s : QPB K) (far : K) (lf uf : Nat → K) (p : Int) (needed remaining : K) (o : Out K) (n : K),
      ¬ NotReady s → p ≤ nWSR → farLoop sq gNew lbNew ubNew nWSR c fuel s far lf uf p needed remaining = .ok (o, n) →
      Solve sq s p nWSR o := by
  intro fuel
  induction fuel with
  | zero => intro s far lf uf p needed remaining o n _ _ h; cases h
  | succ fuel ih =>
    intro s far lf uf p needed remaining o n hr hp h
    unfold farLoop at h
    obtain ⟨o1, e1, h⟩ := Res.bind_eq_ok.1 h
    have h1 := solveRegularisedQP_cases hr hp e1
    dsimp only at h
    rw [if_neg (by rw [h1.infeasible]; decide)] at h
    split at h
    · rename_i hsol
      have hnf : ¬ Failure o1.rv := by
        rcases h1.outcome with h | h | h | h
        · exact not_failure_success h.1
        · exact fun hf => hf.ne.2 h.1
        · rw [hsol] at h; exact absurd h.2.1 (by decide)
        · rw [hsol] at h; exact absurd h.2.1 (by decide)
      obtain ⟨q, _, h⟩ := Res.bind_eq_ok.1 h
      split at h
      · cases h; exact h1
      · split at h
        · cases h
          obtain ⟨k, a, b, c⟩ := h1.count
          exact ⟨⟨k, a.after rfl, b, fun _ => c hnf⟩, h1.lower, h1.upper, h1.infeasible, h1.nV, h1.regVal,
            Or.inr (Or.inr (Or.inr ⟨rfl, rfl, rfl⟩))⟩
        · obtain ⟨⟨lf', uf'⟩, _, h⟩ := Res.bind_eq_ok.1 h
          have h2 := ih _ _ _ _ _ _ _ o n (by rintro (h | h | h) <;> cases h) h1.upper h
          refine Solve.trans h1 hnf ?_ ?_ ?_ h2 <;> rfl
    · cases h; exact h1

/-- Solving is refused, up to stale infeasibility. -/
theorem farLoop_notReady (sq : K → K) (gNew : Nat → K) (lbNew ubNew : Option (Nat → K)) (nWSR : Int) (c : Option K)
    (fuel : Nat) (s : QPB K) (far : K) (lf uf : Nat → K) (p : Int) (needed remaining : K) (hr : NotReady s) (hi : s.infeasible = false) :
    ∃ c' n, farLoop sq gNew lbNew ubNew nWSR c (fuel + 1) s far lf uf p needed remaining =
      .ok (⟨RET_HOTSTART_FAILED_AS_QP_NOT_INITIALISED, nWSR, c', s⟩, n) := by
  have hns : s.status ≠ QPS_SOLVED := fun h => ready_of_solved h hr
  unfold farLoop
  cases c with
  | none =>
    obtain ⟨c', e⟩ := solveRegularisedQP_notReady hr sq gNew (some lf) (some uf) nWSR (some remaining) p
    dsimp only
    rw [e]
    simp only [Res.bind_ok, hi, Bool.false_eq_true, if_false, hns]
    exact ⟨_, _, rfl⟩
  | some c =>
    obtain ⟨c', e⟩ := solveRegularisedQP_notReady hr sq gNew (some lf) (some uf) nWSR (some (c - needed)) p
    dsimp only
    rw [e]
    simp only [Res.bind_ok, hi, Bool.false_eq_true, if_false, hns]
    exact ⟨_, _, rfl⟩

theorem regulariseHessian_keep {sq : K → K} {s s' : QPB K} {r : ReturnValue} (h : regulariseHessian sq s = .ok (r, s')) :
    s'.bounds = s.bounds ∧ s'.nV = s.nV ∧ s'.status = s.status ∧ s'.infeasible = s.infeasible ∧ s'.unbounded = s.unbounded ∧
      (r = SUCCESSFUL_RETURN ∨ r = RET_CANNOT_REGULARISE_IDENTITY) := by
  unfold regulariseHessian at h
  split at h
  · cases h; exact ⟨rfl, rfl, rfl, rfl, rfl, Or.inl rfl⟩
  · split at h
    · cases h; exact ⟨rfl, rfl, rfl, rfl, rfl, Or.inr rfl⟩
    · split at h
      · cases h; exact ⟨rfl, rfl, rfl, rfl, rfl, Or.inl rfl⟩
      · split at h
        · cases h; exact ⟨rfl, rfl, rfl, rfl, rfl, Or.inl rfl⟩
        · obtain ⟨H, _, h⟩ := Res.bind_eq_ok.1 h
          cases h; exact ⟨rfl, rfl, rfl, rfl, rfl, Or.inl rfl⟩

theorem setupInitialCholesky_keep {sq : K → K} {s s' : QPB K} {r : ReturnValue} (h : setupInitialCholesky sq s = .ok (r, s')) :
    s'.bounds = s.bounds ∧ s'.nV = s.nV ∧ s'.status = s.status ∧ s'.infeasible = s.infeasible ∧ s'.unbounded = s.unbounded ∧
      (r = SUCCESSFUL_RETURN ∨ r = RET_INIT_FAILED_REGULARISATION ∨ r = RET_INIT_FAILED_CHOLESKY) := by
  have goal2 : ∀ (r1 : ReturnValue) (s1 : QPB K), s1.bounds = s.bounds ∧ s1.nV = s.nV ∧ s1.status = s.status ∧ s1.infeasible = s.infeasible ∧
      s1.unbounded = s.unbounded →
      (if r1 ≠ SUCCESSFUL_RETURN then Res.ok (RET_INIT_FAILED_REGULARISATION, s1) else do
        let (r, s) ← computeCholesky sq s1
        if r = RET_HESSIAN_NOT_SPD then do
          let (r, s) ← regulariseHessian sq s
          if r ≠ SUCCESSFUL_RETURN then .ok (RET_INIT_FAILED_REGULARISATION, s) else do
          let (r, s) ← computeCholesky sq s
          if r ≠ SUCCESSFUL_RETURN then .ok (RET_INIT_FAILED_CHOLESKY, s)
          else .ok (SUCCESSFUL_RETURN, { s with haveCholesky := true })
        else if r ≠ SUCCESSFUL_RETURN then .ok (RET_INIT_FAILED_CHOLESKY, s)
        else .ok (SUCCESSFUL_RETURN, { s with haveCholesky := true })) = Res.ok (r, s') →
      s'.bounds = s.bounds ∧ s'.nV = s.nV ∧ s'.status = s.status ∧ s'.infeasible = s.infeasible ∧ s'.unbounded = s.unbounded ∧
        (r = SUCCESSFUL_RETURN ∨ r = RET_INIT_FAILED_REGULARISATION ∨ r = RET_INIT_FAILED_CHOLESKY) := by
    intro r1 s1 ⟨a1, a2, a3, a4, a5⟩ h
    split at h
    · cases h; exact ⟨a1, a2, a3, a4, a5, Or.inr (Or.inl rfl)⟩
    · obtain ⟨⟨r2, s2⟩, e2, h⟩ := Res.bind_eq_ok.1 h
      obtain ⟨k2, st2, b2, _⟩ := computeCholesky_keep e2
      have c1 := b2.trans a1
      have c2 := k2.nV.trans a2
      have c3 := st2.trans a3
      have c4 := k2.infeasible.trans a4
      have c5 := k2.unbounded.trans a5
      dsimp only at h
      split at h
      · obtain ⟨⟨r3, s3⟩, e3, h⟩ := Res.bind_eq_ok.1 h
        obtain ⟨d1, d2, d3, d4, d5, _⟩ := regulariseHessian_keep e3
        dsimp only at h
        split at h
        · cases h
          exact ⟨d1.trans c1, d2.trans c2, d3.trans c3, d4.trans c4, d5.trans c5, Or.inr (Or.inl rfl)⟩
        · obtain ⟨⟨r4, s4⟩, e4, h⟩ := Res.bind_eq_ok.1 h
          obtain ⟨k4, st4, b4, _⟩ := computeCholesky_keep e4
          dsimp only at h
          split at h
          · cases h
            exact ⟨b4.trans (d1.trans c1), k4.nV.trans (d2.trans c2), st4.trans (d3.trans c3), k4.infeasible.trans (d4.trans c4),
              k4.unbounded.trans (d5.trans c5), Or.inr (Or.inr rfl)⟩
          · cases h
            exact ⟨b4.trans (d1.trans c1), k4.nV.trans (d2.trans c2), st4.trans (d3.trans c3), k4.infeasible.trans (d4.trans c4),
              k4.unbounded.trans (d5.trans c5), Or.inl rfl⟩
      · split at h
        · cases h; exact ⟨c1, c2, c3, c4, c5, Or.inr (Or.inr rfl)⟩
        · cases h; exact ⟨c1, c2, c3, c4, c5, Or.inl rfl⟩
  unfold setupInitialCholesky at h
  split at h
  · obtain ⟨⟨r1, s1⟩, e1, h⟩ := Res.bind_eq_ok.1 h
    obtain ⟨d1, d2, d3, d4, d5, _⟩ := regulariseHessian_keep e1
    exact goal2 r1 s1 ⟨d1, d2, d3, d4, d5⟩ h
  · exact goal2 SUCCESSFUL_RETURN s ⟨rfl, rfl, rfl, rfl, rfl⟩ h

theorem farLoop_refused (sq : K → K) (gNew : Nat → K) (lbNew ubNew : Option (Nat → K)) (nWSR : Int) (c : Option K) :
    ∀ (fuel : Nat) (s : QPB K) (far : K) (lf uf : Nat → K) (p : Int) (needed remaining : K) (o : Out K) (n : K),
      NotReady s → farLoop sq gNew lbNew ubNew nWSR c fuel s far lf uf p needed remaining = .ok (o, n) →
      (o.rv = RET_HOTSTART_FAILED_AS_QP_NOT_INITIALISED ∨ o.rv = RET_HOTSTART_STOPPED_INFEASIBILITY) ∧ o.nWSR = nWSR ∧
        ∃ k, o.s = { s with rampOffset := k } := by
  intro fuel
  induction fuel with
  | zero => intro s far lf uf p needed remaining o n _ h; cases h
  | succ fuel ih =>
    intro s far lf uf p needed remaining o n hr h
    have hns : s.status ≠ QPS_SOLVED := fun h => ready_of_solved h hr
    unfold farLoop at h
    obtain ⟨o1, e1, h⟩ := Res.bind_eq_ok.1 h
    have : ∃ c', o1 = ⟨RET_HOTSTART_FAILED_AS_QP_NOT_INITIALISED, nWSR, c', s⟩ := by
      obtain ⟨c', e⟩ := solveRegularisedQP_notReady hr sq gNew (some lf) (some uf) nWSR _ p
      rw [e] at e1
      exact ⟨c', (Res.ok.inj e1).symm⟩
    obtain ⟨c', rfl⟩ := this
    dsimp only at h
    split at h
    · split at h
      · cases h
        exact ⟨Or.inr rfl, rfl, _, rfl⟩
      · obtain ⟨⟨lf', uf'⟩, _, h⟩ := Res.bind_eq_ok.1 h
        obtain ⟨a, b, k, e⟩ := ih _ _ _ _ _ _ _ o n (by exact hr) h
        exact ⟨a, b, k, e⟩
    · cases h
      exact ⟨Or.inl rfl, rfl, _, rfl⟩

/-- What `hotstart` does after the guess has been processed. -/
inductive Main (sq : K → K) (s : QPB K) (lbNew ubNew : Option (Nat → K)) (nWSR : Int) (o : Out K) : Prop
  | inconsistent (h : s.areBoundsConsistent lbNew ubNew = false) (rv : o.rv = SUCCESSFUL_RETURN) (n : o.nWSR = nWSR)
      (e : o.s = { s with infeasible := true })
  | setupFailed (h : s.areBoundsConsistent lbNew ubNew = true)
      (rv : o.rv = RET_INIT_FAILED_REGULARISATION ∨ o.rv = RET_INIT_FAILED_CHOLESKY) (n : o.nWSR = nWSR)
      (b : o.s.bounds = s.bounds) (st : o.s.status = s.status) (nV : o.s.nV = s.nV) (i : o.s.infeasible = s.infeasible)
      (u : o.s.unbounded = s.unbounded)
  | refused (h : s.areBoundsConsistent lbNew ubNew = true) (hr : NotReady s)
      (rv : o.rv = RET_HOTSTART_FAILED_AS_QP_NOT_INITIALISED ∨ o.rv = RET_HOTSTART_STOPPED_INFEASIBILITY) (n : o.nWSR = nWSR)
      (b : o.s.bounds = s.bounds) (st : o.s.status = s.status) (nV : o.s.nV = s.nV) (i : o.s.infeasible = s.infeasible)
      (u : o.s.unbounded = s.unbounded)
  | solved (h : s.areBoundsConsistent lbNew ubNew = true) (hr : ¬ NotReady s) (s1 : QPB K) (b : s1.bounds = s.bounds)
      (st : s1.status = s.status) (nV : s1.nV = s.nV) (S : Solve sq s1 0 nWSR o)

theorem hotstartMain_cases {sq : K → K} {fuel : Nat} {s : QPB K} {gNew : Nat → K} {lbNew ubNew : Option (Nat → K)} {nWSR : Int}
    {c : Option K} {a : K} {o : Out K} (hn : 0 ≤ nWSR) (h : hotstartMain sq fuel s gNew lbNew ubNew nWSR c a = .ok o) :
    Main sq s lbNew ubNew nWSR o := by
  unfold hotstartMain at h
  split at h
  · cases h; exact .inconsistent ‹_› rfl rfl rfl
  · rename_i hc
    have hc : s.areBoundsConsistent lbNew ubNew = true := by simpa using hc
    dsimp only at h
    have goal2 : ∀ (r1 : ReturnValue) (s1 : QPB K), s1.bounds = s.bounds ∧ s1.nV = s.nV ∧ s1.status = s.status ∧
        s1.infeasible = s.infeasible ∧ s1.unbounded = s.unbounded ∧
        (r1 = SUCCESSFUL_RETURN ∨ r1 = RET_INIT_FAILED_REGULARISATION ∨ r1 = RET_INIT_FAILED_CHOLESKY) →
        (if r1 ≠ SUCCESSFUL_RETURN then .ok ⟨r1, nWSR, c, s1⟩
        else if s1.options.enableFarBounds = false then
          solveRegularisedQP sq s1 gNew lbNew ubNew nWSR c 0
        else do
          let (lf, uf) ← updateFarBounds s1 (s1.initialFar lbNew ubNew) s1.nV lbNew ubNew s1.nV 0 (fun _ => 0) (fun _ => 0)
          let (o, needed) ← farLoop sq gNew lbNew ubNew nWSR c fuel s1 (s1.initialFar lbNew ubNew) lf uf 0 0 INFTY
          .ok { o with cputime := c.map fun _ => needed + a }) = .ok o → Main sq s lbNew ubNew nWSR o := by
      intro r1 s1 ⟨a1, a2, a3, a4, a5, hr1⟩ h
      split at h
      · rename_i hne
        cases h
        refine .setupFailed hc ?_ rfl a1 a3 a2 a4 a5
        rcases hr1 with hr1 | hr1
        · exact absurd hr1 hne
        · exact hr1
      · by_cases hr : NotReady s
        · have hr1 : NotReady s1 := by unfold NotReady at hr ⊢; rw [a3]; exact hr
          split at h
          · obtain ⟨c', e⟩ := solveRegularisedQP_notReady hr1 sq gNew lbNew ubNew nWSR c 0
            rw [e] at h
            cases h
            exact .refused hc hr (Or.inl rfl) rfl a1 a3 a2 a4 a5
          · obtain ⟨⟨lf, uf⟩, _, h⟩ := Res.bind_eq_ok.1 h
            obtain ⟨⟨o1, n⟩, e1, h⟩ := Res.bind_eq_ok.1 h
            cases h
            obtain ⟨b1, b2, k, b3⟩ := farLoop_refused _ _ _ _ _ _ _ _ _ _ _ _ _ _ _ _ hr1 e1
            exact .refused hc hr b1 b2 (by rw [b3]; exact a1) (by rw [b3]; exact a3) (by rw [b3]; exact a2) (by rw [b3]; exact a4)
              (by rw [b3]; exact a5)
        · have hr1 : ¬ NotReady s1 := by unfold NotReady at hr ⊢; rw [a3]; exact hr
          split at h
          · exact .solved hc hr s1 a1 a3 a2 (solveRegularisedQP_cases hr1 hn h)
          · obtain ⟨⟨lf, uf⟩, _, h⟩ := Res.bind_eq_ok.1 h
            obtain ⟨⟨o1, n⟩, e1, h⟩ := Res.bind_eq_ok.1 h
            cases h
            exact .solved hc hr s1 a1 a3 a2
              ((farLoop_cases _ _ _ _ _ _ _ _ _ _ _ _ _ _ _ _ hr1 hn e1).frame rfl rfl rfl rfl rfl rfl rfl rfl)
    split at h
    · obtain ⟨⟨r1, s1⟩, e1, h⟩ := Res.bind_eq_ok.1 h
      obtain ⟨d1, d2, d3, d4, d5, d6⟩ := setupInitialCholesky_keep e1
      exact goal2 r1 s1 ⟨d1, d2, d3, d4, d5, d6⟩ h
    · exact goal2 SUCCESSFUL_RETURN { s with count := s.count + 1 } ⟨rfl, rfl, rfl, rfl, rfl, Or.inl rfl⟩ h

/-- What the time checks of a loop say about its result: `n` iterations reported, `iter` of them before. -/
structure Timed (clk : Nat → K) (k : Nat) (limit : Option K) (j n : Nat) (stopped : Bool) : Prop where
  passed : ∀ i, 1 ≤ i → j ≤ i → i < n → InTime clk k limit i
  last : stopped = false → 1 ≤ n → InTime clk k limit n
  stop : stopped = true → 1 ≤ n ∧ ¬ InTime clk k limit n

theorem cpuLimit_spec (s : QPB K) (c : Option K) (k j : Nat) (hn : s.now = k + max j 1) :
    (s.isCPUtimeLimitExceeded c (s.clk k) (j : Int)).2 = { s with now := (s.isCPUtimeLimitExceeded c (s.clk k) (j : Int)).2.now } ∧
    (c.isSome = true → (s.isCPUtimeLimitExceeded c (s.clk k) (j : Int)).2.now = k + max (j+1) 1) ∧
    ((s.isCPUtimeLimitExceeded c (s.clk k) (j : Int)).1 = true → 1 ≤ j ∧ ¬ InTime s.clk k c j) ∧
    ((s.isCPUtimeLimitExceeded c (s.clk k) (j : Int)).1 = false → 1 ≤ j → InTime s.clk k c j) := by
  unfold isCPUtimeLimitExceeded
  cases c with
  | none =>
    refine ⟨rfl, fun h => (by cases h), fun h => (by cases h), fun _ _ c hc => (by cases hc)⟩
  | some c =>
    dsimp only
    by_cases hj : (j : Int) ≤ 0
    · rw [if_pos hj]
      have : j = 0 := by omega
      subst this
      exact ⟨rfl, fun _ => hn, fun h => (by cases h), fun _ h => absurd h (by omega)⟩
    · rw [if_neg hj]
      have hj1 : 1 ≤ j := by omega
      have hm : max j 1 = j := by omega
      rw [hm] at hn
      have hcast : ((j : Int) : K) = (j : K) := Int.cast_natCast j
      unfold tick
      dsimp only
      refine ⟨rfl, fun _ => by rw [hn]; omega, fun h => ⟨hj1, fun hI => ?_⟩, fun h _ => ?_⟩
      · have := hI c rfl
        rw [hn, hcast] at h
        simp [this] at h
      · intro c' hc'
        cases hc'
        rw [hn, hcast] at h
        simpa using h

theorem solveLoop_timed (sq : K → K) (gNew : Nat → K) (lbNew ubNew : Option (Nat → K)) (nWSR performed : Int) (c : Option K)
    (clk : Nat → K) (k : Nat) (t : K) (htime : c.isSome = true → t = clk k) :
    ∀ (m j : Nat) (s : QPB K) (o : Out K), s.infeasible = false → s.unbounded = false → performed + j + m = nWSR →
      s.clk = clk → (c.isSome = true → s.now = k + max j 1) →
      solveLoop sq gNew lbNew ubNew nWSR performed c t m (performed + j) s = .ok o →
      (o.rv = SUCCESSFUL_RETURN → ∃ n : Nat, o.nWSR = performed + n ∧ Timed clk k c j n false) ∧
      (o.rv = RET_MAX_NWSR_REACHED → ∃ n : Nat, o.nWSR = performed + n ∧ (∀ i, 1 ≤ i → j ≤ i → i < n → InTime clk k c i) ∧
        (o.nWSR = nWSR ∨ (1 ≤ n ∧ ¬ InTime clk k c n))) := by
  intro m
  induction m with
  | zero =>
    intro j s o h1 h2 hm hclk hnow h
    cases h
    refine ⟨fun h => ?_, fun _ => ⟨j, ?_, fun i _ hi hi' => by omega, Or.inl rfl⟩⟩
    · have : RET_MAX_NWSR_REACHED = SUCCESSFUL_RETURN := h
      exact absurd this (by decide)
    · show nWSR = _
      omega
  | succ m ih =>
    intro j s o h1 h2 hm hclk hnow h
    rw [solveLoop] at h
    have hsub : performed + (j : Int) - performed = (j : Int) := by omega
    rw [hsub] at h
    have hspec : ∃ k0, (s.isCPUtimeLimitExceeded c t (j : Int)).2 = { s with now := k0 } ∧ (c.isSome = true → k0 = k + max (j+1) 1) ∧
        ((s.isCPUtimeLimitExceeded c t (j : Int)).1 = true → 1 ≤ j ∧ ¬ InTime clk k c j) ∧
        ((s.isCPUtimeLimitExceeded c t (j : Int)).1 = false → 1 ≤ j → InTime clk k c j) := by
      cases c with
      | none =>
        exact ⟨s.now, rfl, fun h => (by cases h), fun h => (by cases h), fun _ _ c hc => (by cases hc)⟩
      | some c =>
        subst hclk
        obtain rfl := htime rfl
        obtain ⟨a, b, c, d⟩ := cpuLimit_spec s (some c) k j (hnow rfl)
        exact ⟨_, a, b, c, d⟩
    obtain ⟨k0, e0, hk0, ht, hf⟩ := hspec
    generalize s.isCPUtimeLimitExceeded c t (j : Int) = p at h e0 ht hf
    obtain ⟨b, s0⟩ := p
    dsimp only at e0
    subst e0
    cases b with
    | true =>
      dsimp only at h
      have h := Res.ok.inj h
      subst h
      refine ⟨fun h => ?_, fun _ => ⟨j, rfl, fun i _ hi hi' => by omega, Or.inr (ht rfl)⟩⟩
      have : RET_MAX_NWSR_REACHED = SUCCESSFUL_RETURN := h
      exact absurd this (by decide)
    | false =>
      dsimp only at h
      obtain ⟨e, ei, h⟩ := Res.bind_eq_ok.1 h
      rcases iteration_cases (s := { s with now := k0 }) h1 h2 ei with ⟨o', rfl, f | f⟩ | ⟨s', rfl, k2, st2, rc⟩
      · cases h
        refine ⟨fun _ => ⟨j, f.nWSR, fun i _ hi hi' => by omega, fun _ h => hf rfl h, fun h => (by cases h)⟩, fun h => ?_⟩
        rw [f.rv] at h
        exact absurd h (by decide)
      · cases h
        exact ⟨fun h => absurd h f.rv.ne.1, fun h => absurd h f.rv.ne.2⟩
      · dsimp only at h
        have hcast : performed + (j : Int) + 1 = performed + ((j + 1 : Nat) : Int) := by push_cast; ring
        rw [hcast] at h
        obtain ⟨a, b⟩ := ih (j+1) s' o (k2.infeasible.trans h1) (k2.unbounded.trans h2) (by push_cast; omega) (k2.clk.trans hclk)
          (fun hc => k2.now.trans (hk0 hc)) h
        have ext : ∀ n, (∀ i, 1 ≤ i → j + 1 ≤ i → i < n → InTime clk k c i) → ∀ i, 1 ≤ i → j ≤ i → i < n → InTime clk k c i := by
          intro n hp i hi hji hin
          by_cases e : i = j
          · subst e; exact hf rfl hi
          · exact hp i hi (by omega) hin
        refine ⟨fun h => ?_, fun h => ?_⟩
        · obtain ⟨n, hn, ht⟩ := a h
          exact ⟨n, hn, ext n ht.passed, ht.last, ht.stop⟩
        · obtain ⟨n, hn, hp, hl⟩ := b h
          exact ⟨n, hn, ext n hp, hl⟩

end QPB
end QpOASES
