import Verif.Proofs.QPBFrame
import Verif.Model.QProblem

/-!
What the parts of the homotopy loop of `QProblem` leave alone, without any assumption about the state.
-/
namespace QpOASES
namespace QPC
open ReturnValue SubjectToStatus SubjectToType HessianType QProblemStatus

set_option linter.unusedSectionVars false

variable {K : Type} [Field K] [LinearOrder K] [IsStrictOrderedRing K]

/-- Members that solving does not change: sizes, matrices, counter, regularisation and options (one of which is adjusted by
a factorisation). -/
def lasting (s : QPC K) :=
  (s.nV, s.nC, s.sizeT, s.H, s.A, s.clk, s.count, s.regVal, ({ s.options with epsRegularisation := 0 } : Options K), s.ramp0, s.ramp1)

/-- Those and the clock. -/
def base (s : QPC K) := (s.lasting, s.now)

/-- Those, the status and the two flags. -/
def still (s : QPC K) := (s.base, s.status, s.infeasible, s.unbounded)

/-- Codes of internal errors: neither the budget nor the status of the object is the reason. -/
def Internal (r : ReturnValue) : Prop := r ≠ RET_MAX_NWSR_REACHED ∧ r ≠ RET_HOTSTART_FAILED_AS_QP_NOT_INITIALISED

theorem addConstraintUpdate_still {sq : K → K} {s s' : QPC K} {k : Nat} {st : SubjectToStatus} {u : Bool} {r : ReturnValue}
    (h : addConstraintUpdate sq s k st u = .ok (r, s')) : s'.still = s.still ∧ r = SUCCESSFUL_RETURN := by
  unfold addConstraintUpdate at h
  dsimp only at h
  split at h
  · cases h
  · split at h <;> cases h <;> exact ⟨rfl, rfl⟩

theorem addBoundUpdate_still {sq : K → K} {s s' : QPC K} {k : Nat} {st : SubjectToStatus} {u : Bool} {r : ReturnValue}
    (h : addBoundUpdate sq s k st u = .ok (r, s')) : s'.still = s.still ∧ r = SUCCESSFUL_RETURN := by
  unfold addBoundUpdate at h
  dsimp only at h
  split at h
  · cases h
  · split at h <;> split at h <;> cases h <;> exact ⟨rfl, rfl⟩

theorem addConstraintCheck_code {s : QPC K} {k : Nat} {r : ReturnValue} (h : s.addConstraintCheck k = some r) :
    Internal r ∧ r ≠ SUCCESSFUL_RETURN := by
  unfold addConstraintCheck at h
  split at h
  · cases h; exact ⟨⟨by decide, by decide⟩, by decide⟩
  · split at h
    · cases h; exact ⟨⟨by decide, by decide⟩, by decide⟩
    · split at h
      · cases h; exact ⟨⟨by decide, by decide⟩, by decide⟩
      · cases h

theorem addBoundCheck_code {s : QPC K} {k : Nat} {r : ReturnValue} (h : s.addBoundCheck k = some r) :
    Internal r ∧ r ≠ SUCCESSFUL_RETURN := by
  unfold addBoundCheck at h
  split at h
  · cases h; exact ⟨⟨by decide, by decide⟩, by decide⟩
  · split at h
    · cases h; exact ⟨⟨by decide, by decide⟩, by decide⟩
    · split at h
      · cases h; exact ⟨⟨by decide, by decide⟩, by decide⟩
      · cases h

theorem internal_moving : Internal RET_MOVING_BOUND_FAILED := ⟨by decide, by decide⟩

theorem internal_success : Internal SUCCESSFUL_RETURN := ⟨by decide, by decide⟩

theorem addConstraintPlain_still {sq : K → K} {s s' : QPC K} {k : Nat} {st : SubjectToStatus} {u : Bool} {r : ReturnValue}
    (h : addConstraintPlain sq s k st u = .ok (r, s')) : s'.still = s.still ∧ Internal r := by
  unfold addConstraintPlain at h
  split at h
  · rename_i hc
    cases h; exact ⟨rfl, (addConstraintCheck_code hc).1⟩
  · obtain ⟨a, b⟩ := addConstraintUpdate_still h
    exact ⟨a, b ▸ internal_success⟩

theorem addBoundPlain_still {sq : K → K} {s s' : QPC K} {k : Nat} {st : SubjectToStatus} {u : Bool} {r : ReturnValue}
    (h : addBoundPlain sq s k st u = .ok (r, s')) : s'.still = s.still ∧ Internal r := by
  unfold addBoundPlain at h
  split at h
  · rename_i hc
    cases h; exact ⟨rfl, (addBoundCheck_code hc).1⟩
  · obtain ⟨a, b⟩ := addBoundUpdate_still h
    exact ⟨a, b ▸ internal_success⟩

theorem exchange_still {sq : K → K} {s s' : QPC K} {c : Change} (h : exchange sq s c = .ok s') : s'.still = s.still := by
  unfold exchange at h
  split at h
  · obtain ⟨⟨r, s1⟩, e, h⟩ := Res.bind_eq_ok.1 h
    cases h
    exact (addBoundPlain_still e).1
  · obtain ⟨⟨r, s1⟩, e, h⟩ := Res.bind_eq_ok.1 h
    cases h
    exact (addConstraintPlain_still e).1

theorem ensureNonzeroCurvature_still {s s' : QPC K} {b : Bool} {k : Nat} {r : ReturnValue} {c : Option Change}
    (h : ensureNonzeroCurvature s b k = .ok (r, s', c)) :
    (r = SUCCESSFUL_RETURN ∧ s'.still = s.still) ∨ (r = RET_HOTSTART_STOPPED_UNBOUNDEDNESS ∧ s' = { s with unbounded := true }) := by
  unfold ensureNonzeroCurvature at h
  have key : ∀ e : Except ReturnValue (Dir K), (match e with
      | .error _ => Res.ub .uninitialised
      | .ok d =>
        if Dir.normY s d < s.options.epsNZCTests * Dir.normX s d then do
          let (sigma, c) ← s.curvatureTests b k d
          if sigma ≥ s.options.maxPrimalJump then .ok (RET_HOTSTART_STOPPED_UNBOUNDEDNESS, { s with unbounded := true }, none)
          else .ok (SUCCESSFUL_RETURN, s.jump d sigma, c)
        else .ok (SUCCESSFUL_RETURN, s, none)) = .ok (r, s', c) →
      (r = SUCCESSFUL_RETURN ∧ s'.still = s.still) ∨ (r = RET_HOTSTART_STOPPED_UNBOUNDEDNESS ∧ s' = { s with unbounded := true }) := by
    intro e h
    cases e with
    | error r => cases h
    | ok d =>
      dsimp only at h
      split at h
      · obtain ⟨⟨sigma, c'⟩, _, h⟩ := Res.bind_eq_ok.1 h
        dsimp only at h
        split at h
        · cases h; exact Or.inr ⟨rfl, rfl⟩
        · cases h; exact Or.inl ⟨rfl, rfl⟩
      · cases h; exact Or.inl ⟨rfl, rfl⟩
  dsimp only at h
  split at h
  · obtain ⟨e, _, h⟩ := Res.bind_eq_ok.1 h
    exact key e h
  · obtain ⟨e, _, h⟩ := Res.bind_eq_ok.1 h
    exact key e h

theorem restoreFlip_still (s : QPC K) : s.restoreFlip.still = s.still := by
  unfold restoreFlip
  split <;> rfl

theorem flipConstraint_still (s : QPC K) (k : Nat) : (s.flipConstraint k).2.still = s.still ∧ Internal (s.flipConstraint k).1 := by
  have h := restoreFlip_still ({ s with hessianType := HST_SEMIDEF } : QPC K)
  unfold flipConstraint
  dsimp only
  generalize restoreFlip ({ s with hessianType := HST_SEMIDEF } : QPC K) = s1 at h
  split
  · exact ⟨h, internal_success⟩
  · exact ⟨h, internal_success⟩
  · exact ⟨h, internal_moving⟩

theorem flipBound_still (s : QPC K) (k : Nat) : (s.flipBound k).2.still = s.still ∧ Internal (s.flipBound k).1 := by
  have h := restoreFlip_still ({ s with hessianType := if s.hessianType ≠ HST_ZERO then HST_SEMIDEF else s.hessianType } : QPC K)
  unfold flipBound
  dsimp only
  generalize restoreFlip ({ s with hessianType := if s.hessianType ≠ HST_ZERO then HST_SEMIDEF else s.hessianType } : QPC K) = s1 at h
  split
  · exact ⟨h, internal_success⟩
  · exact ⟨h, internal_success⟩
  · exact ⟨h, internal_moving⟩

theorem newDiag_still {sq : K → K} {s s' : QPC K} {n : Nat} {v : K} {a b : Bool} {r : ReturnValue}
    (h : newDiag sq s n v a b = some (r, s')) : s'.still = s.still ∧ Internal r := by
  unfold newDiag at h
  dsimp only at h
  split at h
  · split at h <;> cases h
    exact ⟨rfl, internal_success⟩
  · split at h
    · split at h
      · cases h; exact ⟨rfl, internal_success⟩
      · split at h <;> cases h
        · exact ⟨rfl, internal_success⟩
        · exact ⟨rfl, by decide, by decide⟩
    · cases h; exact ⟨rfl, internal_success⟩

theorem removeConstraintUpdate_still {sq : K → K} {s s' : QPC K} {k : Nat} {u f : Bool} {c : Option Change} {r : ReturnValue}
    (h : removeConstraintUpdate sq s k u f c = .ok (r, s')) : s'.still = s.still ∧ Internal r := by
  unfold removeConstraintUpdate at h
  dsimp only at h
  have h0 : ∀ s0 : QPC K, s0 = (if c.isNone = true ∧ s.options.enableFlippingBounds = true ∧ f = true then s.saveFlip else s) →
      s0.still = s.still := by
    intro s0 e
    rw [e]
    split <;> rfl
  generalize hs0 : (if c.isNone = true ∧ s.options.enableFlippingBounds = true ∧ f = true then s.saveFlip else s) = s0 at h
  have e0 := h0 s0 hs0.symm
  have fin : ∀ s1 : QPC K, s1.still = s.still →
      (match c with
        | none => Res.ok (SUCCESSFUL_RETURN, s1)
        | some c => do
          let s ← exchange sq { s1 with R := fun i j => if i = s0.nZ ∧ j = s0.nZ then 0 else s1.R i j } c
          .ok (SUCCESSFUL_RETURN, s)) = .ok (r, s') → s'.still = s.still ∧ Internal r := by
    intro s1 e1 h
    cases c with
    | none => cases h; exact ⟨e1, internal_success⟩
    | some c =>
      obtain ⟨s2, e2, h⟩ := Res.bind_eq_ok.1 h
      cases h
      exact ⟨(exchange_still e2).trans e1, internal_success⟩
  split at h
  · obtain ⟨p, _, h⟩ := Res.bind_eq_ok.1 h
    cases p with
    | none => cases h; exact ⟨e0, by decide, by decide⟩
    | some p =>
      dsimp only at h
      split at h
      · have h := Res.ok.inj h
        have := flipConstraint_still ({ s0 with
          T := (removeRow sq s0 (s0.cons.fixed.idxOf k)).1, Q := (removeRow sq s0 (s0.cons.fixed.idxOf k)).2
          R := fun i j => if i < s0.nZ ∧ j = s0.nZ then p.1 i else s0.R i j } : QPC K) k
        rw [h] at this
        exact ⟨this.1.trans e0, this.2⟩
      · rename_i r1 s1 hd
        obtain ⟨a, b⟩ := newDiag_still hd
        have a : s1.still = s0.still := a
        split at h
        · cases h; exact ⟨a.trans e0, b⟩
        · exact fin { s1 with cons := s1.cons.moveFixedToFree k } (a.trans e0) h
  · exact fin _ (by exact e0) h

theorem removeConstraint_still {sq : K → K} {s s' : QPC K} {k : Nat} {u f nzc : Bool} {r : ReturnValue}
    (h : removeConstraint sq s k u f nzc = .ok (r, s')) :
    (s'.still = s.still ∧ Internal r) ∨ (nzc = true ∧ r = RET_HOTSTART_STOPPED_UNBOUNDEDNESS ∧ s' = { s with unbounded := true }) := by
  unfold removeConstraint at h
  split at h
  · cases h; exact Or.inl ⟨rfl, by decide, by decide⟩
  split at h
  · cases h; exact Or.inl ⟨rfl, by decide, by decide⟩
  split at h
  · cases h; exact Or.inl ⟨rfl, by decide, by decide⟩
  split at h
  · rename_i hz
    obtain ⟨⟨r1, s1, c⟩, e1, h⟩ := Res.bind_eq_ok.1 h
    dsimp only at h
    rcases ensureNonzeroCurvature_still e1 with ⟨rfl, e⟩ | ⟨rfl, rfl⟩
    · rw [if_neg (by simp)] at h
      obtain ⟨a, b⟩ := removeConstraintUpdate_still h
      exact Or.inl ⟨a.trans e, b⟩
    · rw [if_pos (by decide)] at h
      cases h
      exact Or.inr ⟨hz, rfl, rfl⟩
  · exact Or.inl (removeConstraintUpdate_still h)

theorem removeBoundUpdate_still {sq : K → K} {s s' : QPC K} {k : Nat} {u f : Bool} {c : Option Change} {r : ReturnValue}
    (h : removeBoundUpdate sq s k u f c = .ok (r, s')) : s'.still = s.still ∧ Internal r := by
  unfold removeBoundUpdate at h
  dsimp only at h
  have h0 : ∀ s0 : QPC K, s0 = (if s.options.enableFlippingBounds = true ∧ f = true ∧ c.isNone = true then s.saveFlip else s) →
      s0.still = s.still := by
    intro s0 e
    rw [e]
    split <;> rfl
  generalize hs0 : (if s.options.enableFlippingBounds = true ∧ f = true ∧ c.isNone = true then s.saveFlip else s) = s0 at h
  have e0 := h0 s0 hs0.symm
  split at h
  · obtain ⟨p, _, h⟩ := Res.bind_eq_ok.1 h
    cases p with
    | none => cases h; exact ⟨e0, by decide, by decide⟩
    | some p =>
      dsimp only at h
      split at h
      · have key : ∀ s1 : QPC K, Res.ok (s1.flipBound k) = .ok (r, s') → s1.still = s.still → s'.still = s.still ∧ Internal r := by
          intro s1 h e1
          have e2 := flipBound_still s1 k
          rw [Res.ok.inj h] at e2
          exact ⟨e2.1.trans e1, e2.2⟩
        exact key _ h e0
      · rename_i r1 s1 hd
        obtain ⟨a, b⟩ := newDiag_still hd
        have a : s1.still = s0.still := a
        split at h
        · cases h; exact ⟨a.trans e0, b⟩
        · cases c with
          | none => cases h; exact ⟨a.trans e0, internal_success⟩
          | some c =>
            obtain ⟨s2, e2, h⟩ := Res.bind_eq_ok.1 h
            have e3 := exchange_still e2
            have e3 : s2.still = s1.still := e3
            cases h
            exact ⟨e3.trans (a.trans e0), internal_success⟩
  · cases h; exact ⟨e0, internal_success⟩

theorem removeBound_still {sq : K → K} {s s' : QPC K} {k : Nat} {u f nzc : Bool} {r : ReturnValue}
    (h : removeBound sq s k u f nzc = .ok (r, s')) :
    (s'.still = s.still ∧ Internal r) ∨ (nzc = true ∧ r = RET_HOTSTART_STOPPED_UNBOUNDEDNESS ∧ s' = { s with unbounded := true }) := by
  unfold removeBound at h
  split at h
  · cases h; exact Or.inl ⟨rfl, by decide, by decide⟩
  split at h
  · cases h; exact Or.inl ⟨rfl, by decide, by decide⟩
  split at h
  · rename_i hz
    obtain ⟨⟨r1, s1, c⟩, e1, h⟩ := Res.bind_eq_ok.1 h
    dsimp only at h
    rcases ensureNonzeroCurvature_still e1 with ⟨rfl, e⟩ | ⟨rfl, rfl⟩
    · rw [if_neg (by simp)] at h
      obtain ⟨a, b⟩ := removeBoundUpdate_still h
      exact Or.inl ⟨a.trans e, b⟩
    · rw [if_pos (by decide)] at h
      cases h
      exact Or.inr ⟨hz, rfl, rfl⟩
  · exact Or.inl (removeBoundUpdate_still h)

theorem removeBound_plain {sq : K → K} {s s' : QPC K} {k : Nat} {u f : Bool} {r : ReturnValue}
    (h : removeBound sq s k u f false = .ok (r, s')) : s'.still = s.still := by
  rcases removeBound_still h with h | h
  · exact h.1
  · cases h.1

theorem removeConstraint_plain {sq : K → K} {s s' : QPC K} {k : Nat} {u f : Bool} {r : ReturnValue}
    (h : removeConstraint sq s k u f false = .ok (r, s')) : s'.still = s.still := by
  rcases removeConstraint_still h with h | h
  · exact h.1
  · cases h.1

theorem dropInfeasibles_still {sq : K → K} {s s' : QPC K} {k : Nat} {st : SubjectToStatus} {b : Bool} {xiB xiC : Nat → K} {r : ReturnValue}
    (h : dropInfeasibles sq s k st b xiB xiC = .ok (r, s')) :
    s'.still = s.still ∧ (r = SUCCESSFUL_RETURN ∨ r = RET_ENSURELI_DROPPED) := by
  unfold dropInfeasibles at h
  split at h
  · obtain ⟨⟨r1, s1⟩, e, h⟩ := Res.bind_eq_ok.1 h
    cases h
    have := removeBound_plain e
    exact ⟨this, Or.inl rfl⟩
  · obtain ⟨⟨r1, s1⟩, e, h⟩ := Res.bind_eq_ok.1 h
    cases h
    have := removeConstraint_plain e
    exact ⟨this, Or.inl rfl⟩
  · split at h <;> cases h <;> exact ⟨rfl, Or.inr rfl⟩

theorem resolveLI_still {sq : K → K} {s s' : QPC K} {k : Nat} {st : SubjectToStatus} {b : Bool} {xiC xiB : Nat → K} {r : ReturnValue}
    (h : resolveLI sq s k st b xiC xiB = .ok (r, s')) :
    (s'.still = s.still ∧ r ≠ RET_ENSURELI_FAILED_NOINDEX) ∨ (r = RET_ENSURELI_FAILED_NOINDEX ∧ s' = { s with infeasible := true }) := by
  unfold resolveLI at h
  dsimp only at h
  obtain ⟨⟨t, bc⟩, _, h⟩ := Res.bind_eq_ok.1 h
  obtain ⟨⟨t', bb⟩, _, h⟩ := Res.bind_eq_ok.1 h
  dsimp only at h
  split at h
  · split at h
    · obtain ⟨a, b⟩ := dropInfeasibles_still h
      refine Or.inl ⟨a, ?_⟩
      rcases b with b | b <;> rw [b] <;> decide
    · cases h; exact Or.inr ⟨rfl, rfl⟩
  · left
    cases bb with
    | some k =>
      obtain ⟨⟨r1, s1⟩, e, h⟩ := Res.bind_eq_ok.1 h
      have e := removeBound_plain e
      have e : s1.still = s.still := e
      dsimp only at h
      split at h <;> cases h <;> exact ⟨e, by decide⟩
    | none =>
      cases bc with
      | some k =>
        obtain ⟨⟨r1, s1⟩, e, h⟩ := Res.bind_eq_ok.1 h
        have e := removeConstraint_plain e
        have e : s1.still = s.still := e
        dsimp only at h
        split at h <;> cases h <;> exact ⟨e, by decide⟩
      | none => cases h; exact ⟨rfl, by decide⟩

theorem ensureLIConstraint_still {sq : K → K} {s s' : QPC K} {k : Nat} {st : SubjectToStatus} {r : ReturnValue}
    (h : ensureLIConstraint sq s k st = .ok (r, s')) :
    (s'.still = s.still ∧ r ≠ RET_ENSURELI_FAILED_NOINDEX) ∨ (r = RET_ENSURELI_FAILED_NOINDEX ∧ s' = { s with infeasible := true }) := by
  unfold ensureLIConstraint at h
  obtain ⟨b, _, h⟩ := Res.bind_eq_ok.1 h
  split at h
  · cases h; exact Or.inl ⟨rfl, by decide⟩
  · dsimp only at h
    split at h
    · cases h; exact Or.inl ⟨rfl, by decide⟩
    · exact resolveLI_still h

theorem ensureLIBound_still {sq : K → K} {s s' : QPC K} {k : Nat} {st : SubjectToStatus} {r : ReturnValue}
    (h : ensureLIBound sq s k st = .ok (r, s')) :
    (s'.still = s.still ∧ r ≠ RET_ENSURELI_FAILED_NOINDEX) ∨ (r = RET_ENSURELI_FAILED_NOINDEX ∧ s' = { s with infeasible := true }) := by
  unfold ensureLIBound at h
  obtain ⟨b, _, h⟩ := Res.bind_eq_ok.1 h
  split at h
  · cases h; exact Or.inl ⟨rfl, by decide⟩
  · dsimp only at h
    split at h
    · cases h; exact Or.inl ⟨rfl, by decide⟩
    · exact resolveLI_still h

theorem addConstraint_still {sq : K → K} {s s' : QPC K} {k : Nat} {st : SubjectToStatus} {r : ReturnValue}
    (h : addConstraint sq s k st = .ok (r, s')) :
    (s'.still = s.still ∧ Internal r ∧ r ≠ RET_ADDCONSTRAINT_FAILED_INFEASIBILITY) ∨
    (r = RET_ADDCONSTRAINT_FAILED_INFEASIBILITY ∧ s' = { s with infeasible := true }) := by
  unfold addConstraint at h
  split at h
  · rename_i hc
    cases h
    refine Or.inl ⟨rfl, (addConstraintCheck_code hc).1, ?_⟩
    intro e
    rw [e] at hc
    unfold addConstraintCheck at hc
    revert hc
    repeat' split
    all_goals simp
  · obtain ⟨⟨r1, s1⟩, e, h⟩ := Res.bind_eq_ok.1 h
    dsimp only at h
    rcases ensureLIConstraint_still e with ⟨e, hr⟩ | ⟨rfl, rfl⟩
    · split at h
      · obtain ⟨a, b⟩ := addConstraintUpdate_still h
        exact Or.inl ⟨a.trans e, b ▸ internal_success, by rw [b]; decide⟩
      · split at h
        · cases h; exact Or.inl ⟨e, internal_success, by decide⟩
        · cases h; exact Or.inl ⟨e, ⟨by decide, by decide⟩, by decide⟩
    · rw [if_neg (by decide), if_pos rfl] at h
      cases h
      exact Or.inr ⟨rfl, rfl⟩

theorem addBound_still {sq : K → K} {s s' : QPC K} {k : Nat} {st : SubjectToStatus} {r : ReturnValue}
    (h : addBound sq s k st = .ok (r, s')) :
    (s'.still = s.still ∧ Internal r ∧ r ≠ RET_ADDBOUND_FAILED_INFEASIBILITY) ∨
    (r = RET_ADDBOUND_FAILED_INFEASIBILITY ∧ s' = { s with infeasible := true }) := by
  unfold addBound at h
  split at h
  · rename_i hc
    cases h
    refine Or.inl ⟨rfl, (addBoundCheck_code hc).1, ?_⟩
    intro e
    rw [e] at hc
    unfold addBoundCheck at hc
    revert hc
    repeat' split
    all_goals simp
  · obtain ⟨⟨r1, s1⟩, e, h⟩ := Res.bind_eq_ok.1 h
    dsimp only at h
    rcases ensureLIBound_still e with ⟨e, hr⟩ | ⟨rfl, rfl⟩
    · split at h
      · obtain ⟨a, b⟩ := addBoundUpdate_still h
        exact Or.inl ⟨a.trans e, b ▸ internal_success, by rw [b]; decide⟩
      · split at h
        · cases h; exact Or.inl ⟨e, internal_success, by decide⟩
        · cases h; exact Or.inl ⟨e, ⟨by decide, by decide⟩, by decide⟩
    · rw [if_neg (by decide), if_pos rfl] at h
      cases h
      exact Or.inr ⟨rfl, rfl⟩

/-- What a recalculation of the working set does to the other members: nothing, or it finds the problem infeasible or unbounded and
does nothing but set the flag. -/
inductive Recalculated (s : QPC K) (r : ReturnValue) (s' : QPC K) : Prop
  | done (e : s'.still = s.still) (c : Internal r)
  | infeasible (c : r = RET_ADDCONSTRAINT_FAILED_INFEASIBILITY ∨ r = RET_ADDBOUND_FAILED_INFEASIBILITY)
      (e : s' = { s with infeasible := true })
  | unbounded (c : r = RET_REMOVE_FROM_ACTIVESET_FAILED) (e : s' = { s with unbounded := true })

theorem changeActiveSet_still {sq : K → K} {s s' : QPC K} {bc : Option Change} {r : ReturnValue}
    (h : changeActiveSet sq s bc = .ok (r, s')) : Recalculated s r s' := by
  unfold changeActiveSet at h
  split at h
  · cases h; exact .done rfl internal_success
  · obtain ⟨⟨r1, s1⟩, e, h⟩ := Res.bind_eq_ok.1 h
    dsimp only at h
    rcases removeBound_still e with ⟨e, _⟩ | ⟨_, rfl, rfl⟩
    · split at h <;> cases h
      · exact .done e ⟨by decide, by decide⟩
      · exact .done e internal_success
    · rw [if_pos (by decide)] at h
      cases h; exact .unbounded rfl rfl
  · obtain ⟨⟨r1, s1⟩, e, h⟩ := Res.bind_eq_ok.1 h
    dsimp only at h
    rcases removeConstraint_still e with ⟨e, _⟩ | ⟨_, rfl, rfl⟩
    · split at h <;> cases h
      · exact .done e ⟨by decide, by decide⟩
      · exact .done e internal_success
    · rw [if_pos (by decide)] at h
      cases h; exact .unbounded rfl rfl
  · obtain ⟨⟨r1, s1⟩, e, h⟩ := Res.bind_eq_ok.1 h
    dsimp only at h
    rcases addBound_still e with ⟨e, _, hr⟩ | ⟨rfl, rfl⟩
    · rw [if_neg hr] at h
      have h := Res.ok.inj h
      rw [Prod.mk.injEq] at h
      obtain ⟨h1, rfl⟩ := h
      refine .done e ?_
      rw [← h1]
      split <;> exact ⟨by decide, by decide⟩
    · rw [if_pos rfl] at h
      cases h; exact .infeasible (Or.inr rfl) rfl
  · obtain ⟨⟨r1, s1⟩, e, h⟩ := Res.bind_eq_ok.1 h
    dsimp only at h
    rcases addConstraint_still e with ⟨e, _, hr⟩ | ⟨rfl, rfl⟩
    · rw [if_neg hr] at h
      have h := Res.ok.inj h
      rw [Prod.mk.injEq] at h
      obtain ⟨h1, rfl⟩ := h
      refine .done e ?_
      rw [← h1]
      split <;> exact ⟨by decide, by decide⟩
    · rw [if_pos rfl] at h
      cases h; exact .infeasible (Or.inl rfl) rfl

/-! ### The rest of an iteration -/

/-- The working set: statuses of the bounds and of the constraints. -/
def active (s : QPC K) := (s.bounds.status, s.cons.status)

theorem computeCholesky_fields {sq : K → K} {s s' : QPB K} {r : ReturnValue} (h : QPB.computeCholesky sq s = .ok (r, s')) :
    ∃ R t e, s' = { s with R := R, hessianType := t, options := { s.options with epsRegularisation := e } } := by
  unfold QPB.computeCholesky at h
  dsimp only at h
  split at h
  · split at h <;> cases h <;> exact ⟨_, _, _, rfl⟩
  · cases h; exact ⟨_, _, _, rfl⟩
  · split at h
    · obtain ⟨H, _, h⟩ := Res.bind_eq_ok.1 h
      split at h
      · split at h <;> cases h <;> exact ⟨_, _, _, rfl⟩
      · cases h; exact ⟨_, _, _, rfl⟩
    · cases h; exact ⟨_, _, _, rfl⟩

theorem computeCholesky_internal {sq : K → K} {s s' : QPB K} {r : ReturnValue} (h : QPB.computeCholesky sq s = .ok (r, s')) :
    Internal r := by
  unfold QPB.computeCholesky at h
  dsimp only at h
  split at h
  · split at h <;> cases h <;> exact ⟨by decide, by decide⟩
  · cases h; exact ⟨by decide, by decide⟩
  · split at h
    · obtain ⟨H, _, h⟩ := Res.bind_eq_ok.1 h
      split at h <;> cases h <;> exact ⟨by decide, by decide⟩
    · cases h; exact ⟨by decide, by decide⟩

/-- A factorisation changes nothing else. -/
theorem computeProjectedCholesky_fields {sq : K → K} {s s' : QPC K} {r : ReturnValue} (h : computeProjectedCholesky sq s = .ok (r, s')) :
    (∃ R Q t e, s' = { s with R := R, Q := Q, hessianType := t, options := { s.options with epsRegularisation := e } }) ∧ Internal r := by
  unfold computeProjectedCholesky at h
  split at h
  · obtain ⟨⟨r1, b⟩, e, h⟩ := Res.bind_eq_ok.1 h
    cases h
    have hc := computeCholesky_internal e
    obtain ⟨R, t, x, rfl⟩ := computeCholesky_fields e
    exact ⟨⟨_, _, _, _, rfl⟩, hc⟩
  · dsimp only at h
    split at h
    · cases h; exact ⟨⟨_, _, _, _, rfl⟩, internal_success⟩
    · obtain ⟨p, _, h⟩ := Res.bind_eq_ok.1 h
      cases p with
      | none => cases h; exact ⟨⟨_, _, _, _, rfl⟩, by decide, by decide⟩
      | some p =>
        dsimp only at h
        split at h
        · split at h <;> cases h <;> exact ⟨⟨_, _, _, _, rfl⟩, by decide, by decide⟩
        · cases h; exact ⟨⟨_, _, _, _, rfl⟩, internal_success⟩

theorem computeProjectedCholesky_still {sq : K → K} {s s' : QPC K} {r : ReturnValue} (h : computeProjectedCholesky sq s = .ok (r, s')) :
    s'.still = s.still ∧ s'.active = s.active ∧ Internal r := by
  obtain ⟨⟨R, Q, t, e, rfl⟩, hr⟩ := computeProjectedCholesky_fields h
  exact ⟨rfl, rfl, hr⟩

theorem setupAuxiliaryQPgradient_fields {s s' : QPC K} (h : setupAuxiliaryQPgradient s = .ok s') : ∃ g, s' = { s with g := g } := by
  obtain ⟨b, e, h⟩ := Res.bind_eq_ok.1 h
  obtain ⟨g, rfl⟩ := QPB.setupAuxiliaryQPgradient_keep e
  cases h
  exact ⟨_, rfl⟩

theorem rampB_fields : ∀ (m i : Nat) (s s' : QPC K), rampB m i s = .ok s' → ∃ l u y, s' = { s with lb := l, ub := u, y := y } := by
  intro m
  induction m with
  | zero => intro i s s' h; cases h; exact ⟨_, _, _, rfl⟩
  | succ m ih =>
    intro i s s' h
    unfold rampB at h
    dsimp only at h
    split at h
    · obtain ⟨l, u, y, rfl⟩ := ih _ _ _ h; exact ⟨_, _, _, rfl⟩
    · obtain ⟨rP, _, h⟩ := Res.bind_eq_ok.1 h
      obtain ⟨rD, _, h⟩ := Res.bind_eq_ok.1 h
      obtain ⟨l, u, y, rfl⟩ := ih _ _ _ h; exact ⟨_, _, _, rfl⟩
    · obtain ⟨l, u, y, rfl⟩ := ih _ _ _ h; exact ⟨_, _, _, rfl⟩

theorem rampC_fields : ∀ (m i : Nat) (s s' : QPC K), rampC m i s = .ok s' →
    ∃ l u y a b, s' = { s with lbA := l, ubA := u, y := y, Axl := a, Axu := b } := by
  intro m
  induction m with
  | zero => intro i s s' h; cases h; exact ⟨_, _, _, _, _, rfl⟩
  | succ m ih =>
    intro i s s' h
    unfold rampC at h
    dsimp only at h
    split at h
    · obtain ⟨l, u, y, a, b, rfl⟩ := ih _ _ _ h; exact ⟨_, _, _, _, _, rfl⟩
    · obtain ⟨rP, _, h⟩ := Res.bind_eq_ok.1 h
      obtain ⟨rD, _, h⟩ := Res.bind_eq_ok.1 h
      obtain ⟨l, u, y, a, b, rfl⟩ := ih _ _ _ h; exact ⟨_, _, _, _, _, rfl⟩
    · obtain ⟨l, u, y, a, b, rfl⟩ := ih _ _ _ h; exact ⟨_, _, _, _, _, rfl⟩

theorem performRamping_still {s s' : QPC K} (h : performRamping s = .ok s') : s'.still = s.still ∧ s'.active = s.active := by
  obtain ⟨s1, e1, h⟩ := Res.bind_eq_ok.1 h
  obtain ⟨l, u, y, rfl⟩ := rampB_fields _ _ _ _ e1
  obtain ⟨s2, e2, h⟩ := Res.bind_eq_ok.1 h
  obtain ⟨l', u', y', a, b, rfl⟩ := rampC_fields _ _ _ _ e2
  obtain ⟨s3, e3, h⟩ := Res.bind_eq_ok.1 h
  obtain ⟨g, rfl⟩ := setupAuxiliaryQPgradient_fields e3
  cases h
  exact ⟨rfl, rfl⟩

theorem performDriftCorrection_still {s s' : QPC K} (h : performDriftCorrection s = .ok s') : s'.still = s.still ∧ s'.active = s.active := by
  obtain ⟨g, rfl⟩ := setupAuxiliaryQPgradient_fields h
  exact ⟨rfl, rfl⟩

theorem takeStep_still (s : QPC K) (h : Shift K) (d : Dir K) (t : K) :
    (takeStep s h d t).still = s.still ∧ (takeStep s h d t).active = s.active := by
  unfold takeStep
  split <;> exact ⟨rfl, rfl⟩

theorem performStep_still {s s' : QPC K} {h : Shift K} {d : Dir K} {bc : Option Change} (e : performStep s h d = .ok (s', bc)) :
    s'.still = s.still ∧ s'.active = s.active := by
  obtain ⟨⟨t, b⟩, _, e⟩ := Res.bind_eq_ok.1 e
  cases e
  exact takeStep_still s h d t

theorem finish_fields (s : QPC K) (r : ReturnValue) (n : Int) (c : Option K) (t : K) :
    (s.finish r n c t).rv = r ∧ (s.finish r n c t).nWSR = n ∧ ∃ k, (s.finish r n c t).s = { s with now := k } := by
  obtain ⟨k, e⟩ := QPB.stopClock_keep s.toQPB c t
  refine ⟨rfl, rfl, k, ?_⟩
  show ({ s with toQPB := (s.toQPB.stopClock c t).2 } : QPC K) = _
  rw [e]

/-! ### Step directions -/

theorem stepZ_code {s : QPC K} {rg : Nat → K} {r : ReturnValue} (h : s.stepZ rg = .ok (.error r)) :
    Internal r ∧ r ≠ SUCCESSFUL_RETURN := by
  unfold stepZ at h
  dsimp only at h
  split at h
  · cases h
  · split at h
    · cases h
    · split at h <;> cases h
      exact ⟨⟨by decide, by decide⟩, by decide⟩
  · split at h
    · obtain ⟨⟨r1, z⟩, _, h⟩ := Res.bind_eq_ok.1 h
      dsimp only at h
      split at h
      · cases h; exact ⟨⟨by decide, by decide⟩, by decide⟩
      · obtain ⟨⟨r2, z'⟩, _, h⟩ := Res.bind_eq_ok.1 h
        dsimp only at h
        split at h
        · cases h; exact ⟨⟨by decide, by decide⟩, by decide⟩
        · cases h
    · cases h

theorem stepY_code {s : QPC K} {b : Bool} {rb : Nat → K} {r : ReturnValue} (h : s.stepY b rb = .error r) :
    Internal r ∧ r ≠ SUCCESSFUL_RETURN := by
  unfold stepY at h
  split at h
  · split at h
    split at h
    · cases h; exact ⟨⟨by decide, by decide⟩, by decide⟩
    · cases h
  · cases h

theorem stepDual_code {s : QPC K} {rhs : Nat → K} {r : ReturnValue} (h : s.stepDual rhs = .error r) :
    Internal r ∧ r ≠ SUCCESSFUL_RETURN := by
  unfold stepDual at h
  split at h
  · split at h
    split at h
    · cases h; exact ⟨⟨by decide, by decide⟩, by decide⟩
    · cases h
  · cases h

theorem pass_code {s : QPC K} {H : Nat → Nat → K} {bC bB f : Bool} {dx rg rb : Nat → K} {r : ReturnValue}
    (h : s.pass H bC bB f dx rg rb = .ok (.error r)) : Internal r ∧ r ≠ SUCCESSFUL_RETURN := by
  unfold pass at h
  dsimp only at h
  split at h
  · rename_i hy
    cases h; exact stepY_code hy
  · split at h
    · cases h
    · obtain ⟨z, hz, h⟩ := Res.bind_eq_ok.1 h
      cases z with
      | error r1 => cases h; exact stepZ_code hz
      | ok z =>
        dsimp only at h
        split at h
        · rename_i hd
          cases h; exact stepDual_code hd
        · cases h

theorem refine_code {s : QPC K} {H : Nat → Nat → K} {bC bB : Bool} {dg b dx : Nat → K} : ∀ (m : Nat) {f : Bool} {rg rb d dy : Nat → K}
    {r : ReturnValue}, s.refine H bC bB dg b dx m f rg rb d dy = .ok (.error r) → Internal r ∧ r ≠ SUCCESSFUL_RETURN := by
  intro m
  induction m with
  | zero => intro f rg rb d dy r h; cases h
  | succ m ih =>
    intro f rg rb d dy r h
    unfold refine at h
    obtain ⟨p, hp, h⟩ := Res.bind_eq_ok.1 h
    cases p with
    | error r1 => cases h; exact pass_code hp
    | ok p =>
      dsimp only at h
      split at h
      · split at h
        · cases h
        · exact ih h
      · exact ih h

theorem determineStepDirection_code {s : QPC K} {dg a b c d : Nat → K} {bC bB : Bool} {r : ReturnValue}
    (h : s.determineStepDirection dg a b c d bC bB = .ok (.error r)) : Internal r ∧ r ≠ SUCCESSFUL_RETURN := by
  unfold determineStepDirection at h
  obtain ⟨H, _, h⟩ := Res.bind_eq_ok.1 h
  obtain ⟨p, hp, h⟩ := Res.bind_eq_ok.1 h
  cases p with
  | error r1 => cases h; exact refine_code _ hp
  | ok p => cases h

/-! ### Before the loop -/

/-- Adapting the working set keeps the data, and the status; it may set one of the flags when it fails. -/
structure Adapted (s : QPC K) (r : ReturnValue) (s' : QPC K) : Prop where
  base : s'.base = s.base
  status : s'.status = s.status
  code : Internal r
  flags : r = SUCCESSFUL_RETURN → s'.infeasible = s.infeasible ∧ s'.unbounded = s.unbounded

theorem Adapted.of_still {s s' : QPC K} {r : ReturnValue} (e : s'.still = s.still) (c : Internal r) : Adapted s r s' := by
  unfold still at e
  simp only [Prod.mk.injEq] at e
  exact ⟨e.1, e.2.1, c, fun _ => e.2.2⟩

theorem Adapted.trans {s s1 s' : QPC K} {r : ReturnValue} (h : Adapted s SUCCESSFUL_RETURN s1) (h' : Adapted s1 r s') : Adapted s r s' :=
  ⟨h'.base.trans h.base, h'.status.trans h.status, h'.code,
    fun e => ⟨(h'.flags e).1.trans (h.flags rfl).1, (h'.flags e).2.trans (h.flags rfl).2⟩⟩

theorem removeBound_adapted {sq : K → K} {s s' : QPC K} {k : Nat} {u f nzc : Bool} {r : ReturnValue}
    (h : removeBound sq s k u f nzc = .ok (r, s')) : Adapted s r s' := by
  rcases removeBound_still h with ⟨e, c⟩ | ⟨_, rfl, rfl⟩
  · exact .of_still e c
  · exact ⟨rfl, rfl, ⟨by decide, by decide⟩, fun e => by cases e⟩

theorem removeConstraint_adapted {sq : K → K} {s s' : QPC K} {k : Nat} {u f nzc : Bool} {r : ReturnValue}
    (h : removeConstraint sq s k u f nzc = .ok (r, s')) : Adapted s r s' := by
  rcases removeConstraint_still h with ⟨e, c⟩ | ⟨_, rfl, rfl⟩
  · exact .of_still e c
  · exact ⟨rfl, rfl, ⟨by decide, by decide⟩, fun e => by cases e⟩

theorem addBound_adapted {sq : K → K} {s s' : QPC K} {k : Nat} {st : SubjectToStatus} {r : ReturnValue}
    (h : addBound sq s k st = .ok (r, s')) : Adapted s r s' := by
  rcases addBound_still h with ⟨e, c, _⟩ | ⟨rfl, rfl⟩
  · exact .of_still e c
  · exact ⟨rfl, rfl, ⟨by decide, by decide⟩, fun e => by cases e⟩

theorem addConstraint_adapted {sq : K → K} {s s' : QPC K} {k : Nat} {st : SubjectToStatus} {r : ReturnValue}
    (h : addConstraint sq s k st = .ok (r, s')) : Adapted s r s' := by
  rcases addConstraint_still h with ⟨e, c, _⟩ | ⟨rfl, rfl⟩
  · exact .of_still e c
  · exact ⟨rfl, rfl, ⟨by decide, by decide⟩, fun e => by cases e⟩

theorem dropInfinite_adapted {sq : K → K} {c : Prop} [Decidable c] {i : Nat} {s s' : QPC K} {r : ReturnValue}
    (h : dropInfinite sq c i s = .ok (r, s')) : Adapted s r s' := by
  unfold dropInfinite at h
  split at h
  · obtain ⟨⟨r1, s1⟩, e, h⟩ := Res.bind_eq_ok.1 h
    have a := removeBound_adapted e
    dsimp only at h
    split at h
    · cases h; exact a
    · rename_i hr
      cases h
      rw [not_not.1 hr] at a
      exact ⟨a.base, a.status, a.code, a.flags⟩
  · cases h; exact .of_still rfl internal_success

theorem seqLoop_adapted {f : Nat → QPC K → Res (ReturnValue × QPC K)} (hf : ∀ i s s' r, f i s = .ok (r, s') → Adapted s r s') :
    ∀ (m i : Nat) (s s' : QPC K) (r : ReturnValue), seqLoop f m i s = .ok (r, s') → Adapted s r s' := by
  intro m
  induction m with
  | zero => intro i s s' r h; cases h; exact .of_still rfl internal_success
  | succ m ih =>
    intro i s s' r h
    obtain ⟨⟨r1, s1⟩, e, h⟩ := Res.bind_eq_ok.1 h
    have a := hf _ _ _ _ e
    dsimp only at h
    split at h
    · cases h; exact a
    · rename_i hr
      rw [not_not.1 hr] at a
      exact a.trans (ih _ _ _ _ h)

theorem updateLimit_adapted {sq : K → K} {l u : Nat → K} {i : Nat} {s s' : QPC K} {r : ReturnValue}
    (h : updateLimit sq l u i s = .ok (r, s')) : Adapted s r s' := by
  obtain ⟨⟨r1, s1⟩, e1, h⟩ := Res.bind_eq_ok.1 h
  have a1 := dropInfinite_adapted e1
  dsimp only at h
  split at h
  · cases h; exact a1
  · rename_i hr
    rw [not_not.1 hr] at a1
    obtain ⟨⟨r2, s2⟩, e2, h⟩ := Res.bind_eq_ok.1 h
    have a2 := dropInfinite_adapted e2
    dsimp only at h
    split at h
    · cases h; exact a1.trans a2
    · rename_i hr2
      rw [not_not.1 hr2] at a2
      have a := a1.trans a2
      cases h
      refine a.trans (.of_still ?_ internal_success)
      split
      · split <;> rfl
      · split <;> rfl

theorem updateEquality_adapted {sq : K → K} {i : Nat} {s s' : QPC K} {r : ReturnValue}
    (h : updateEquality sq i s = .ok (r, s')) : Adapted s r s' := by
  unfold updateEquality at h
  split at h
  · dsimp only at h
    split at h
    · obtain ⟨b, _, h⟩ := Res.bind_eq_ok.1 h
      split at h
      · have a := addBound_adapted h
        exact ⟨a.base, a.status, a.code, a.flags⟩
      · cases h; exact .of_still rfl internal_success
    · cases h; exact .of_still rfl internal_success
  · cases h; exact .of_still rfl internal_success

theorem updateActivities_adapted {sq : K → K} {l u : Option (Nat → K)} {s s' : QPC K} {r : ReturnValue}
    (h : updateActivitiesForHotstart sq s l u = .ok (r, s')) : Adapted s r s' := by
  unfold updateActivitiesForHotstart at h
  dsimp only at h
  split at h
  · rename_i l' u'
    have a0 : Adapted s SUCCESSFUL_RETURN ({ s with toQPB := s.toQPB.setupSubjectToType (some l') (some u') } : QPC K) :=
      .of_still rfl internal_success
    obtain ⟨⟨r1, s1⟩, e1, h⟩ := Res.bind_eq_ok.1 h
    have a1 := a0.trans (seqLoop_adapted (fun _ _ _ _ h => updateLimit_adapted h) _ _ _ _ _ e1)
    dsimp only at h
    split at h
    · cases h; exact a1
    · rename_i hr
      rw [not_not.1 hr] at a1
      exact a1.trans (seqLoop_adapted (fun _ _ _ _ h => updateEquality_adapted h) _ _ _ _ _ h)
  · cases h

theorem regulariseHessian_fields {sq : K → K} {s s' : QPC K} {r : ReturnValue} (h : regulariseHessian sq s = .ok (r, s')) :
    ∃ H v, s' = { s with H := H, regVal := v } := by
  obtain ⟨⟨r1, b⟩, e, h⟩ := Res.bind_eq_ok.1 h
  have : ∃ H v, b = { s.toQPB with H := H, regVal := v } := by
    unfold QPB.regulariseHessian at e
    split at e
    · cases e; exact ⟨_, _, rfl⟩
    · split at e
      · cases e; exact ⟨_, _, rfl⟩
      · split at e
        · cases e; exact ⟨_, _, rfl⟩
        · split at e
          · cases e; exact ⟨_, _, rfl⟩
          · obtain ⟨H, _, e⟩ := Res.bind_eq_ok.1 e
            cases e; exact ⟨_, _, rfl⟩
  obtain ⟨H, v, rfl⟩ := this
  cases h
  exact ⟨_, _, rfl⟩

/-- What factorising before a hotstart leaves behind. -/
theorem setupInitialCholesky_fields {sq : K → K} {s s' : QPC K} {r : ReturnValue} (h : setupInitialCholesky sq s = .ok (r, s')) :
    (∃ H v R Q t e hc, s' = { s with
        H := H, regVal := v, R := R, Q := Q, hessianType := t, options := { s.options with epsRegularisation := e }, haveCholesky := hc }) ∧
      (r = SUCCESSFUL_RETURN ∨ r = RET_INIT_FAILED_REGULARISATION ∨ r = RET_INIT_FAILED_CHOLESKY) := by
  unfold setupInitialCholesky at h
  have goal2 : ∀ (r1 : ReturnValue) (s1 : QPC K), (∃ H v, s1 = { s with H := H, regVal := v }) →
      (if r1 ≠ SUCCESSFUL_RETURN then Res.ok (RET_INIT_FAILED_REGULARISATION, s1) else do
        let (r, s) ← computeProjectedCholesky sq s1
        if r = RET_HESSIAN_NOT_SPD then do
          let (r, s) ← regulariseHessian sq s
          if r ≠ SUCCESSFUL_RETURN then .ok (RET_INIT_FAILED_REGULARISATION, s) else do
          let (r, s) ← computeProjectedCholesky sq s
          if r ≠ SUCCESSFUL_RETURN then .ok (RET_INIT_FAILED_CHOLESKY, s)
          else .ok (SUCCESSFUL_RETURN, { s with haveCholesky := true })
        else if r ≠ SUCCESSFUL_RETURN then .ok (RET_INIT_FAILED_CHOLESKY, s)
        else .ok (SUCCESSFUL_RETURN, { s with haveCholesky := true })) = Res.ok (r, s') →
      (∃ H v R Q t e hc, s' = { s with
        H := H, regVal := v, R := R, Q := Q, hessianType := t, options := { s.options with epsRegularisation := e }, haveCholesky := hc }) ∧
      (r = SUCCESSFUL_RETURN ∨ r = RET_INIT_FAILED_REGULARISATION ∨ r = RET_INIT_FAILED_CHOLESKY) := by
    rintro r1 s1 ⟨H, v, rfl⟩ h
    split at h
    · cases h; exact ⟨⟨_, _, _, _, _, _, _, rfl⟩, Or.inr (Or.inl rfl)⟩
    · obtain ⟨⟨r2, s2⟩, e2, h⟩ := Res.bind_eq_ok.1 h
      obtain ⟨⟨R, Q, t, e, rfl⟩, _⟩ := computeProjectedCholesky_fields e2
      dsimp only at h
      split at h
      · obtain ⟨⟨r3, s3⟩, e3, h⟩ := Res.bind_eq_ok.1 h
        obtain ⟨H', v', rfl⟩ := regulariseHessian_fields e3
        dsimp only at h
        split at h
        · cases h; exact ⟨⟨_, _, _, _, _, _, _, rfl⟩, Or.inr (Or.inl rfl)⟩
        · obtain ⟨⟨r4, s4⟩, e4, h⟩ := Res.bind_eq_ok.1 h
          obtain ⟨⟨R', Q', t', e', rfl⟩, _⟩ := computeProjectedCholesky_fields e4
          dsimp only at h
          split at h
          · cases h; exact ⟨⟨_, _, _, _, _, _, _, rfl⟩, Or.inr (Or.inr rfl)⟩
          · cases h; exact ⟨⟨_, _, _, _, _, _, _, rfl⟩, Or.inl rfl⟩
      · split at h
        · cases h; exact ⟨⟨_, _, _, _, _, _, _, rfl⟩, Or.inr (Or.inr rfl)⟩
        · cases h; exact ⟨⟨_, _, _, _, _, _, _, rfl⟩, Or.inl rfl⟩
  split at h
  · obtain ⟨⟨r1, s1⟩, e1, h⟩ := Res.bind_eq_ok.1 h
    exact goal2 r1 s1 (regulariseHessian_fields e1) h
  · exact goal2 SUCCESSFUL_RETURN s ⟨_, _, rfl⟩ h

end QPC
end QpOASES
