import Verif.Proofs.QPCReport

/-!
What a call that reports infeasibility or unboundedness has found, from a single iteration up to `hotstart` and `init`.
-/
namespace QpOASES
open Finset Props Spec SubjectToStatus SubjectToType ReturnValue HessianType QProblemStatus
open QPB (lowerOf upperOf sg DenOK GivenHessian EqualitiesOK)

set_option linter.unusedSectionVars false

variable {K : Type} [Field K] [LinearOrder K] [IsStrictOrderedRing K]

namespace QPC

/-! ### return values -/

/-- Neither a report of infeasibility nor one of unboundedness -/
def Plain (r : ReturnValue) : Prop := r ≠ RET_HOTSTART_STOPPED_INFEASIBILITY ∧ r ≠ RET_HOTSTART_STOPPED_UNBOUNDEDNESS

theorem stepY_plain {s : QPC K} {z : Bool} {rb : Nat → K} {r : ReturnValue} (h : s.stepY z rb = .error r) : Plain r := by
  unfold stepY at h
  repeat' (first | (split at h) | cases h)
  all_goals exact ⟨by decide, by decide⟩

theorem stepDual_plain {s : QPC K} {rhs : Nat → K} {r : ReturnValue} (h : s.stepDual rhs = .error r) : Plain r := by
  unfold stepDual at h
  repeat' (first | (split at h) | cases h)
  all_goals exact ⟨by decide, by decide⟩

theorem stepZ_plain {s : QPC K} {rg : Nat → K} {r : ReturnValue} (h : s.stepZ rg = .ok (.error r)) : Plain r := by
  unfold stepZ at h
  dsimp only at h
  split at h
  · cases h
  · split at h
    · cases h
    · split at h
      · cases h; exact ⟨by decide, by decide⟩
      · cases h
  · split at h
    · rw [Res.bind_eq_ok] at h
      obtain ⟨p, _, h⟩ := h
      split at h
      · cases h; exact ⟨by decide, by decide⟩
      · rw [Res.bind_eq_ok] at h
        obtain ⟨q, _, h⟩ := h
        split at h
        · cases h; exact ⟨by decide, by decide⟩
        · cases h
    · cases h

theorem pass_plain {s : QPC K} {H : Nat → Nat → K} {bC bB first : Bool} {dxFX rg rb : Nat → K} {r : ReturnValue}
    (h : s.pass H bC bB first dxFX rg rb = .ok (.error r)) : Plain r := by
  unfold pass at h
  dsimp only at h
  split at h
  · next e => cases h; exact stepY_plain e
  · split at h
    · cases h
    · rw [Res.bind_eq_ok] at h
      obtain ⟨o, e, h⟩ := h
      cases o with
      | error r' => cases h; exact stepZ_plain e
      | ok z =>
        dsimp only at h
        split at h
        · next e' => cases h; exact stepDual_plain e'
        · cases h

theorem refine_plain {s : QPC K} {H : Nat → Nat → K} {bC bB : Bool} {dg b dxFX : Nat → K} {r : ReturnValue} :
    ∀ (m : Nat) (first : Bool) (rg rb d dy : Nat → K), s.refine H bC bB dg b dxFX m first rg rb d dy = .ok (.error r) → Plain r := by
  intro m
  induction m with
  | zero => intro first rg rb d dy h; cases h
  | succ m ih =>
    intro first rg rb d dy h
    rw [refine, Res.bind_eq_ok] at h
    obtain ⟨o, e, h⟩ := h
    cases o with
    | error r' => cases h; exact pass_plain e
    | ok p =>
      dsimp only at h
      split at h
      · split at h
        · cases h
        · exact ih _ _ _ _ _ h
      · exact ih _ _ _ _ _ h

theorem determineStepDirection_plain {s : QPC K} {dg dlbA dubA dlb dub : Nat → K} {bC bB : Bool} {r : ReturnValue}
    (h : s.determineStepDirection dg dlbA dubA dlb dub bC bB = .ok (.error r)) : Plain r := by
  unfold determineStepDirection at h
  rw [Res.bind_eq_ok] at h
  obtain ⟨H, _, h⟩ := h
  dsimp only at h
  rw [Res.bind_eq_ok] at h
  obtain ⟨o, e, h⟩ := h
  cases o with
  | error r' => cases h; exact refine_plain _ _ _ _ _ _ e
  | ok p => cases h


theorem computeProjectedCholesky_plain {sq : K → K} {s s' : QPC K} {r : ReturnValue} (h : computeProjectedCholesky sq s = .ok (r, s')) :
    Plain r := by
  unfold computeProjectedCholesky at h
  split at h
  · rw [Res.bind_eq_ok] at h
    obtain ⟨⟨r1, b⟩, e, h⟩ := h
    cases h
    rcases QPB.computeCholesky_rv e with h | h | h <;> rw [h] <;> exact ⟨by decide, by decide⟩
  · dsimp only at h
    split at h
    · cases h; exact ⟨by decide, by decide⟩
    · rw [Res.bind_eq_ok] at h
      obtain ⟨o, e, h⟩ := h
      cases o with
      | none => cases h; exact ⟨by decide, by decide⟩
      | some p =>
        dsimp only at h
        split at h <;> (simp only [Res.ok.injEq, Prod.mk.injEq] at h; rw [← h.1]; exact ⟨by decide, by decide⟩)

theorem changeActiveSet_plain {sq : K → K} {s s' : QPC K} {bc : Option Change} {r : ReturnValue}
    (h : changeActiveSet sq s bc = .ok (r, s')) : Plain r := by
  have key : ∀ r0, (r0 = RET_HOTSTART_STOPPED_INFEASIBILITY ∨ r0 = RET_HOTSTART_STOPPED_UNBOUNDEDNESS) → r ≠ r0 := by
    rintro r0 h0 rfl
    unfold changeActiveSet at h
    split at h
    · cases h; rcases h0 with h0 | h0 <;> cases h0
    all_goals
      rw [Res.bind_eq_ok] at h
      obtain ⟨⟨r1, s1⟩, -, h2⟩ := h
      dsimp only at h2
      split at h2
      · next hr => 
        simp only [Res.ok.injEq, Prod.mk.injEq] at h2
        first
        | (rw [← h2.1] at h0; rcases h0 with h0 | h0 <;> first | exact absurd h0 (by decide) | (rw [hr] at h0; cases h0))
      · first
        | (simp only [Res.ok.injEq, Prod.mk.injEq] at h2; rw [← h2.1] at h0; rcases h0 with h0 | h0 <;> exact absurd h0 (by decide))
        | (split at h2 <;> (simp only [Res.ok.injEq, Prod.mk.injEq] at h2; rw [← h2.1] at h0; rcases h0 with h0 | h0 <;> exact absurd h0 (by decide)))
  exact ⟨key _ (Or.inl rfl), key _ (Or.inr rfl)⟩

theorem newDiag_rvI {sq : K → K} {s : QPC K} {nZ : Nat} {rho2 : K} {a b : Bool} {r : ReturnValue} {s' : QPC K}
    (e : newDiag sq s nZ rho2 a b = some (r, s')) : r ≠ RET_HOTSTART_STOPPED_INFEASIBILITY := by
  rintro rfl
  unfold newDiag at e
  dsimp only at e
  split at e
  · split at e <;> cases e
  · split at e
    · split at e
      · cases e
      · split at e <;> cases e
    · cases e

theorem flipBound_rvI {s : QPC K} {i : Nat} {s' : QPC K} : s.flipBound i ≠ (RET_HOTSTART_STOPPED_INFEASIBILITY, s') := by
  intro e
  unfold flipBound at e
  dsimp only at e
  split at e <;> cases e

theorem removeBoundUpdate_rvI {sq : K → K} {s : QPC K} {i : Nat} {u a : Bool} {c : Option Change} {s' : QPC K} :
    removeBoundUpdate sq s i u a c ≠ .ok (RET_HOTSTART_STOPPED_INFEASIBILITY, s') := by
  intro e
  unfold removeBoundUpdate at e
  generalize (if s.options.enableFlippingBounds = true ∧ a = true ∧ c.isNone = true then s.saveFlip else s) = s at e
  dsimp only at e
  split at e
  · rw [Res.bind_eq_ok] at e
    obtain ⟨o, _, e⟩ := e
    cases o with
    | none => cases e
    | some p =>
      dsimp only at e
      split at e
      · simp only [Res.ok.injEq] at e
        exact flipBound_rvI e
      · next r s1 h1 =>
        split at e
        · simp only [Res.ok.injEq, Prod.mk.injEq] at e
          exact newDiag_rvI h1 e.1
        · cases c with
          | none => cases e
          | some c =>
            dsimp only at e
            rw [Res.bind_eq_ok] at e
            obtain ⟨_, _, e⟩ := e
            cases e
  · cases e
theorem newDiag_rvU {sq : K → K} {s : QPC K} {nZ : Nat} {rho2 : K} {a b : Bool} {r : ReturnValue} {s' : QPC K}
    (e : newDiag sq s nZ rho2 a b = some (r, s')) : r ≠ RET_HOTSTART_STOPPED_UNBOUNDEDNESS := by
  rintro rfl
  unfold newDiag at e
  dsimp only at e
  split at e
  · split at e <;> cases e
  · split at e
    · split at e
      · cases e
      · split at e <;> cases e
    · cases e

theorem flipBound_rvU {s : QPC K} {i : Nat} {s' : QPC K} : s.flipBound i ≠ (RET_HOTSTART_STOPPED_UNBOUNDEDNESS, s') := by
  intro e
  unfold flipBound at e
  dsimp only at e
  split at e <;> cases e

theorem removeBoundUpdate_rvU {sq : K → K} {s : QPC K} {i : Nat} {u a : Bool} {c : Option Change} {s' : QPC K} :
    removeBoundUpdate sq s i u a c ≠ .ok (RET_HOTSTART_STOPPED_UNBOUNDEDNESS, s') := by
  intro e
  unfold removeBoundUpdate at e
  generalize (if s.options.enableFlippingBounds = true ∧ a = true ∧ c.isNone = true then s.saveFlip else s) = s at e
  dsimp only at e
  split at e
  · rw [Res.bind_eq_ok] at e
    obtain ⟨o, _, e⟩ := e
    cases o with
    | none => cases e
    | some p =>
      dsimp only at e
      split at e
      · simp only [Res.ok.injEq] at e
        exact flipBound_rvU e
      · next r s1 h1 =>
        split at e
        · simp only [Res.ok.injEq, Prod.mk.injEq] at e
          exact newDiag_rvU h1 e.1
        · cases c with
          | none => cases e
          | some c =>
            dsimp only at e
            rw [Res.bind_eq_ok] at e
            obtain ⟨_, _, e⟩ := e
            cases e
  · cases e

theorem Curved.success {s s' : QPC K} {b : Bool} {k : Nat} (h : s.Curved b k) {r : ReturnValue} {c : Option Change}
    (e : s.ensureNonzeroCurvature b k = .ok (r, s', c)) : r = SUCCESSFUL_RETURN := by
  unfold ensureNonzeroCurvature at e
  dsimp only at e
  have e' : (do
      let e ← s.curvatureDir b k
      match e with
      | .error _ => Res.ub .uninitialised
      | .ok d =>
        if Dir.normY s d < s.options.epsNZCTests * Dir.normX s d then do
          let (sigma, c) ← s.curvatureTests b k d
          if sigma ≥ s.options.maxPrimalJump then .ok (RET_HOTSTART_STOPPED_UNBOUNDEDNESS, { s with unbounded := true }, none)
          else .ok (SUCCESSFUL_RETURN, s.jump d sigma, c)
        else .ok (SUCCESSFUL_RETURN, s, none)) = Res.ok (r, s', c) := by
    rw [← e]
    unfold curvatureDir
    cases b <;> rfl
  rw [Res.bind_eq_ok] at e'
  obtain ⟨ed, e1, e'⟩ := e'
  cases ed with
  | error _ => cases e'
  | ok d =>
    dsimp only at e'
    rw [if_neg (h d e1)] at e'
    simp only [Res.ok.injEq, Prod.mk.injEq] at e'
    exact e'.1.symm

/-- The flags are those of before, and nothing is reported. -/
def Quiet (s : QPC K) (r : ReturnValue) (s' : QPC K) : Prop := Plain r ∧ s'.infeasible = s.infeasible ∧ s'.unbounded = s.unbounded

theorem Quiet.trans {s s1 s' : QPC K} {r1 r : ReturnValue} (h : Quiet s r1 s1) (h' : Quiet s1 r s') : Quiet s r s' :=
  ⟨h'.1, h'.2.1.trans h.2.1, h'.2.2.trans h.2.2⟩

theorem Quiet.refl (s : QPC K) : Quiet s SUCCESSFUL_RETURN s := ⟨⟨by decide, by decide⟩, rfl, rfl⟩

theorem dropInfinite_quiet {sq : K → K} {s s' : QPC K} {c : Prop} [Decidable c] {i : Nat} {r : ReturnValue} (hc : c → DropClean sq s i)
    (e : dropInfinite sq c i s = .ok (r, s')) : Quiet s r s' := by
  unfold dropInfinite at e
  by_cases hcc : c
  · rw [if_pos hcc, Res.bind_eq_ok] at e
    obtain ⟨⟨r1, s1⟩, e1, e⟩ := e
    have key : Quiet s r1 s1 := by
      have upd : ∀ r1 s1, removeBoundUpdate sq s i true false none = .ok (r1, s1) → Quiet s r1 s1 := by
        intro r1 s1 e1
        obtain ⟨q, _⟩ := removeBoundUpdate_still e1
        exact ⟨⟨fun h => removeBoundUpdate_rvI (h ▸ e1), fun h => removeBoundUpdate_rvU (h ▸ e1)⟩, still_infeasible q, still_unbounded q⟩
      unfold removeBound at e1
      split at e1
      · cases e1; exact ⟨⟨by decide, by decide⟩, rfl, rfl⟩
      split at e1
      · cases e1; exact ⟨⟨by decide, by decide⟩, rfl, rfl⟩
      split at e1
      · next hz =>
        rw [Res.bind_eq_ok] at e1
        obtain ⟨⟨r2, s2, c'⟩, e2, e1⟩ := e1
        have := ((hc hcc).curv hz).success e2
        obtain ⟨rfl, rfl⟩ := ((hc hcc).curv hz).stays e2
        subst this
        dsimp only at e1
        rw [if_neg (by simp)] at e1
        exact upd _ _ e1
      · exact upd _ _ e1
    dsimp only at e
    split at e
    · cases e; exact key
    · cases e; exact ⟨⟨by decide, by decide⟩, key.2⟩
  · rw [if_neg hcc] at e
    cases e
    exact .refl s

theorem updateLimit_quiet {sq : K → K} {s s' : QPC K} {l u : Nat → K} {i : Nat} {r : ReturnValue} (h : s.Good) (hi : i < s.nV)
    (hc : LimitClean sq l u i s) (e : updateLimit sq l u i s = .ok (r, s')) : Quiet s r s' := by
  unfold updateLimit at e
  have hlt : i < s.bounds.n := by rw [h.facs.shape.nB]; exact hi
  rw [WS.getStatus_of_lt hlt, Res.bind_eq_ok] at e
  obtain ⟨⟨r1, s1⟩, e1, e⟩ := e
  have q1 := dropInfinite_quiet (fun hh => hc.dropL hh.1 hh.2) e1
  dsimp only at e
  split at e
  · cases e; exact q1
  next hr1 =>
  rw [not_not] at hr1
  subst hr1
  obtain ⟨g1, S1, x1, l1, u1, n1, p1⟩ := dropInfinite_spec h (fun hh => hc.dropL hh.1 hh.2)
    (fun hh => h.facs.shape.okB.mem_fixed_iff.2 ⟨hlt, Or.inl hh.2⟩) e1
  have hlt1 : i < s1.bounds.n := by rw [g1.facs.shape.nB, S1.nV]; exact hi
  rw [WS.getStatus_of_lt hlt1, Res.bind_eq_ok] at e
  obtain ⟨⟨r2, s2⟩, e2, e⟩ := e
  have hsame1 : s1.bounds.status i = ST_UPPER → s1 = s := by
    intro hs
    refine n1 fun hh => ?_
    rw [p1 hh] at hs; cases hs
  have q2 := dropInfinite_quiet (fun hh => by
      have := hsame1 hh.2
      subst this
      exact hc.dropU hh.1 hh.2) e2
  dsimp only at e
  split at e
  · cases e; exact q1.trans q2
  cases e
  refine (q1.trans q2).trans ⟨⟨by decide, by decide⟩, ?_⟩
  split
  · split <;> exact ⟨rfl, rfl⟩
  · split <;> exact ⟨rfl, rfl⟩

theorem updateLimits_quiet {sq : K → K} {l u : Nat → K} {n : Nat} : ∀ (m i : Nat) (s s' : QPC K) (r : ReturnValue), i + m ≤ n → s.Good →
    s.nV = n → 0 ≤ s.options.boundRelaxation → SeqClean (LimitClean sq l u) (updateLimit sq l u) m i s →
    seqLoop (updateLimit sq l u) m i s = .ok (r, s') → Quiet s r s' := by
  intro m
  induction m with
  | zero => intro i s s' r _ _ _ _ _ e; cases e; exact .refl s
  | succ m ih =>
    intro i s s' r hm h hn hrel hc e
    rw [seqLoop, Res.bind_eq_ok] at e
    obtain ⟨⟨r1, s1⟩, e1, e⟩ := e
    have q1 := updateLimit_quiet h (by omega) hc.1 e1
    dsimp only at e
    split at e
    · cases e; exact q1
    next hr =>
    rw [not_not] at hr
    subst hr
    obtain ⟨a, b⟩ := updateLimit_spec h (by omega) hrel hc.1 e1
    exact q1.trans (ih (i+1) s1 s' r (by omega) a (b.nV.trans hn) (by rw [b.options]; exact hrel) (hc.2 s1 e1) e)

theorem updateActivities_quiet {sq : K → K} {s s' : QPC K} {lbNew ubNew : Option (Nat → K)} (h : (s.retyped lbNew ubNew).Good)
    (hr : 0 ≤ s.options.boundRelaxation) (hc : UpdateClean sq s lbNew ubNew) {r : ReturnValue}
    (e : updateActivitiesForHotstart sq s lbNew ubNew = .ok (r, s')) : Quiet s r s' := by
  have hq : r = SUCCESSFUL_RETURN → s'.infeasible = s.infeasible ∧ s'.unbounded = s.unbounded := fun hr => (updateActivities_adapted e).flags hr
  unfold updateActivitiesForHotstart at e
  dsimp only at e
  cases hl : lbNew with
  | none => rw [hl] at e; cases e
  | some l =>
    cases hu : ubNew with
    | none => rw [hl, hu] at e; cases e
    | some u =>
      have hc := hc l u hl hu
      rw [hl, hu] at e hc h
      dsimp only at e
      change (do
        let (r, s1) ← seqLoop (updateLimit sq l u) s.nV 0 (s.retyped (some l) (some u))
        if r ≠ SUCCESSFUL_RETURN then Res.ok (r, s1) else seqLoop (updateEquality sq) s1.nV 0 s1) = _ at e
      rw [Res.bind_eq_ok] at e
      obtain ⟨⟨r1, s1⟩, e1, e⟩ := e
      have q1 := updateLimits_quiet (n := s.nV) _ _ _ _ _ (by omega) h rfl hr hc e1
      dsimp only at e
      split at e
      · cases e; exact q1
      next hr' =>
      rw [not_not] at hr'
      subst hr'
      obtain ⟨⟨g1, _, _⟩, S1⟩ := seqLoop_spec (P := Same) (n := s.nV) Same.refl (fun _ _ _ => Same.trans)
        (fun t => t.Good ∧ t.nV = s.nV ∧ 0 ≤ t.options.boundRelaxation) (fun i t t' hi ht hcc he => by
          obtain ⟨a, b⟩ := updateLimit_spec ht.1 (by rw [ht.2.1]; exact hi) ht.2.2 hcc he
          exact ⟨⟨a, b.nV.trans ht.2.1, by rw [b.options]; exact ht.2.2⟩, b⟩) s.nV 0 _ s1 (by omega) ⟨h, rfl, hr⟩ hc e1
      rw [updateEqualities_spec g1 s1.nV 0 (by omega)] at e
      cases e
      exact ⟨⟨by decide, by decide⟩, hq rfl⟩

/-! ### the loop -/

/-- Constraints without limits are to remain so. -/
def Unlimited (s : QPC K) (lbAN ubAN : Nat → K) : Prop := ∀ k < s.nC, s.cons.type k = ST_UNBOUNDED → lbAN k ≤ -INFTY ∧ INFTY ≤ ubAN k

theorem Unlimited.same {s s' : QPC K} {lbAN ubAN : Nat → K} (h : Unlimited s lbAN ubAN) (hs : Same s' s) : Unlimited s' lbAN ubAN := by
  unfold Unlimited
  rw [hs.nC, hs.typeC]; exact h

/-- What the flags mean, together with the final iterate. -/
structure Verdict (s : QPC K) (gN lbN ubN lbAN ubAN : Nat → K) : Prop where
  infeasible : s.infeasible = true → (s.asked gN lbN ubN lbAN ubAN).Infeasible ∨ (s.asked gN lbN ubN lbAN ubAN).HugeMultiplier s.y s.options.maxDualJump
  unbounded : s.unbounded = true → ∃ d, (s.asked gN lbN ubN lbAN ubAN).Descent d ∧ QP.Roomy (s.asked gN lbN ubN lbAN ubAN) s.held s.x d s.options.maxPrimalJump

theorem Verdict.silent {s : QPC K} {gN lbN ubN lbAN ubAN : Nat → K} (h1 : s.infeasible = false) (h2 : s.unbounded = false) :
    Verdict s gN lbN ubN lbAN ubAN :=
  ⟨fun h => (by rw [h1] at h; cases h), fun h => (by rw [h2] at h; cases h)⟩

/-- How a run ends whose flags were cleared at its beginning. -/
structure Reported (o : OutC K) (s0 : QPC K) (gN lbN ubN lbAN ubAN : Nat → K) : Prop where
  kept : o.s.infeasible = true ∨ o.s.unbounded = true → o.s.Good ∧ Same o.s s0
  verdict : Verdict o.s gN lbN ubN lbAN ubAN
  infeasible : o.rv = RET_HOTSTART_STOPPED_INFEASIBILITY → o.s.infeasible = true
  unbounded : o.rv = RET_HOTSTART_STOPPED_UNBOUNDEDNESS → o.s.unbounded = true

theorem Reported.same {o : OutC K} {s0 s1 : QPC K} {gN lbN ubN lbAN ubAN : Nat → K} (h : Reported o s1 gN lbN ubN lbAN ubAN) (hs : Same s1 s0) :
    Reported o s0 gN lbN ubN lbAN ubAN :=
  ⟨fun hh => ⟨(h.kept hh).1, (h.kept hh).2.trans hs⟩, h.verdict, h.infeasible, h.unbounded⟩

theorem Reported.plain {o : OutC K} {s0 : QPC K} {gN lbN ubN lbAN ubAN : Nat → K} (h : Plain o.rv) (h1 : o.s.infeasible = false)
    (h2 : o.s.unbounded = false) : Reported o s0 gN lbN ubN lbAN ubAN :=
  ⟨fun hh => (by rw [h1, h2] at hh; simp at hh), .silent h1 h2, fun e => absurd e h.1, fun e => absurd e h.2⟩

theorem endIteration_report {sq : K → K} {s : QPC K} {gN lbN ubN lbAN ubAN : Nat → K} (h : s.Good) (hO : OptionsOK s.options)
    (hT : Target s lbN ubN lbAN ubAN) (hU : s.Unlimited lbAN ubAN) {bc : Option Change} (hl : AtLimit s bc) (hc : CleanChange sq s bc)
    (ha : ∀ c, bc = some c → ∃ p qB qC, Aim s gN lbN ubN lbAN ubAN p qB qC c)
    {iter nWSR : Int} {c : Option K} {t : K} (h1 : s.infeasible = false) (h2 : s.unbounded = false) {o : OutC K}
    (e : endIteration sq s bc iter nWSR c t = .ok (.error o)) : Reported o s gN lbN ubN lbAN ubAN := by
  unfold endIteration at e
  rw [Res.bind_eq_ok] at e
  obtain ⟨⟨r, s1⟩, e1, e⟩ := e
  have hr := changeActiveSet_still e1
  have hpl := changeActiveSet_plain e1
  dsimp only at e
  split at e
  · rename_i hne
    obtain ⟨f1, f2, k, f3⟩ := finish_fields s1 r iter c t
    generalize s1.finish r iter c t = o' at e f1 f2 f3
    obtain ⟨c0, rfl⟩ : ∃ c0, bc = some c0 := by
      cases bc with
      | none => cases e1; exact absurd rfl hne
      | some c0 => exact ⟨c0, rfl⟩
    obtain ⟨p, qB, qC, ha⟩ := ha c0 rfl
    cases hr with
    | done q cr =>
      have i1 : o'.s.infeasible = false := by rw [f3]; exact (still_infeasible q).trans h1
      have i2 : o'.s.unbounded = false := by rw [f3]; exact (still_unbounded q).trans h2
      rw [i1, i2] at e
      simp only [Bool.false_eq_true, if_false] at e
      cases e
      exact .plain (f1 ▸ hpl) i1 i2
    | infeasible cr q =>
      have := changeActiveSet_infeasible h hO hT hl hc ha h1 (by rw [q]) e1
      subst q
      have i1 : o'.s.infeasible = true := by rw [f3]
      rw [i1] at e
      simp only [if_true] at e
      cases e
      refine ⟨fun _ => ?_, ⟨fun _ => ?_, fun hu => ?_⟩, fun _ => rfl, fun hh => by cases hh⟩
      · rw [f3]
        exact ⟨h.frame s.tau true s.unbounded QPS_HOMOTOPYQPSOLVED s.count s.rampOffset k s.haveCholesky rfl,
          Same.frame' s.tau true s.unbounded QPS_HOMOTOPYQPSOLVED s.count s.rampOffset k rfl⟩
      · rw [f3]; exact this
      · rw [f3] at hu
        have hu : s.unbounded = true := hu
        rw [h2] at hu; cases hu
    | unbounded cr q =>
      have := changeActiveSet_unbounded h hO hU hl hc ha h2 (by rw [q]) e1
      subst q
      have i1 : o'.s.infeasible = false := by rw [f3]; exact h1
      have i2 : o'.s.unbounded = true := by rw [f3]
      rw [i1, i2] at e
      simp only [Bool.false_eq_true, if_false, if_true] at e
      cases e
      refine ⟨fun _ => ?_, ⟨fun hi => ?_, fun _ => ?_⟩, fun hh => (by cases hh), fun _ => i2⟩
      · rw [f3]
        exact ⟨h.frame s.tau s.infeasible true s.status s.count s.rampOffset k s.haveCholesky rfl,
          Same.frame' s.tau s.infeasible true s.status s.count s.rampOffset k rfl⟩
      · rw [i1] at hi; cases hi
      · rw [f3]; exact this
  · rename_i hne
    rw [not_not] at hne
    subst hne
    have q : s1.still = s.still := by
      cases hr with
      | done q cr => exact q
      | infeasible cr q => rcases cr with cr | cr <;> cases cr
      | unbounded cr q => cases cr
    have goal2 : ∀ (r2 : ReturnValue) (s2 : QPC K), Plain r2 → s2.still = s1.still →
        (if r2 ≠ SUCCESSFUL_RETURN then Res.ok (Except.error ⟨r2, nWSR, c, s2⟩) else do
          let s ← if bc.isSome = true ∧ s2.tau ≤ EPS ∧ s2.options.enableRamping = true then
              performRamping { s2 with status := QPS_HOMOTOPYQPSOLVED }
            else if s2.options.enableDriftCorrection > 0 ∧ (iter + 1) % s2.options.enableDriftCorrection = 0 then
              performDriftCorrection { s2 with status := QPS_HOMOTOPYQPSOLVED }
            else .ok { s2 with status := QPS_HOMOTOPYQPSOLVED }
          Res.ok (Except.ok s)) = .ok (.error o) → Reported o s gN lbN ubN lbAN ubAN := by
      intro r2 s2 p2 q2 h
      have q2 := q2.trans q
      split at h
      · cases h
        exact .plain p2 ((still_infeasible q2).trans h1) ((still_unbounded q2).trans h2)
      · exfalso
        split at h
        · obtain ⟨s3, _, h⟩ := Res.bind_eq_ok.1 h
          cases h
        · split at h
          · obtain ⟨s3, _, h⟩ := Res.bind_eq_ok.1 h
            cases h
          · cases h
    split at e
    · obtain ⟨⟨r2, s2⟩, e2, e⟩ := Res.bind_eq_ok.1 e
      exact goal2 r2 s2 (computeProjectedCholesky_plain e2) (computeProjectedCholesky_still e2).1 e
    · exact goal2 SUCCESSFUL_RETURN s1 ⟨by decide, by decide⟩ rfl e

theorem iteration_report {sq : K → K} {s : QPC K} (h : s.Good) (hp : s.Params) (hden : 0 < s.options.epsDen) {gNew : Nat → K}
    {lbNew ubNew lbANew ubANew : Option (Nat → K)}
    (hT : Target s (lowerOf lbNew) (upperOf ubNew) (lowerOf lbANew) (upperOf ubANew)) (hU : s.Unlimited (lowerOf lbANew) (upperOf ubANew))
    {iter nWSR : Int} {cputime : Option K} {starttime : K}
    (hc : IterClean sq { s with status := QPS_PERFORMINGHOMOTOPY } gNew lbNew ubNew lbANew ubANew iter)
    (h1 : s.infeasible = false) (h2 : s.unbounded = false) {o : OutC K}
    (he : iteration sq s gNew lbNew ubNew lbANew ubANew iter nWSR cputime starttime = .ok (.error o)) :
    Reported o s gNew (lowerOf lbNew) (upperOf ubNew) (lowerOf lbANew) (upperOf ubANew) := by
  have h0 : ({ s with status := QPS_PERFORMINGHOMOTOPY } : QPC K).Good :=
    h.frame s.tau s.infeasible s.unbounded _ s.count s.rampOffset s.now s.haveCholesky rfl
  have hS0 : Same ({ s with status := QPS_PERFORMINGHOMOTOPY } : QPC K) s :=
    Same.frame' s.tau s.infeasible s.unbounded _ s.count s.rampOffset s.now rfl
  have hi0 : ({ s with status := QPS_PERFORMINGHOMOTOPY } : QPC K).infeasible = false := h1
  have hu0 : ({ s with status := QPS_PERFORMINGHOMOTOPY } : QPC K).unbounded = false := h2
  unfold iteration at he
  generalize ({ s with status := QPS_PERFORMINGHOMOTOPY } : QPC K) = s0 at *
  dsimp only at he
  have hp0 := hp.same hS0
  have hT0 := hT.same hS0
  have hU0 := hU.same hS0
  rw [Res.bind_eq_ok] at he
  obtain ⟨od, ed, he⟩ := he
  cases od with
  | error r =>
    cases he
    obtain ⟨f1, f2, k, f3⟩ := finish_fields s0 r iter cputime starttime
    exact .plain (f1 ▸ determineStepDirection_plain ed) (by rw [f3]; exact hi0) (by rw [f3]; exact hu0)
  | ok d =>
    dsimp only at he
    rw [Res.bind_eq_ok] at he
    obtain ⟨⟨s1, bc⟩, e1, he⟩ := he
    dsimp only at he
    have hd := determineStepDirection_spec h0.facs hp0.options.iterRef hp0.options.refSteps (s0.dataShift gNew lbNew ubNew lbANew ubANew) _ _ ed
    obtain ⟨hG, hS, hst, hA, t0, t1, hfull⟩ := performStep_spec (gN := gNew) h0 hp0 hT0 hd hc.shiftB hc.shiftC (hc.tiny d ed) (hc.length d ed) e1
    have hchg := hc.change d ed s1 bc e1
    have q1 := (performStep_still e1).1
    have i1 := (still_infeasible q1).trans hi0
    have u1 := (still_unbounded q1).trans hu0
    by_cases hlen : s1.homotopyLength gNew lbNew ubNew lbANew ubANew ≤ s1.options.terminationTolerance
    · rw [if_pos hlen] at he
      cases he
      obtain ⟨f1, f2, k, f3⟩ := finish_fields ({ s1 with status := QPS_SOLVED } : QPC K) SUCCESSFUL_RETURN iter cputime starttime
      exact .plain (by rw [f1]; exact ⟨by decide, by decide⟩) (by rw [f3]; exact i1) (by rw [f3]; exact u1)
    · rw [if_neg hlen] at he
      obtain ⟨c1, c2⟩ := hchg hlen
      refine (endIteration_report hG (hp0.same hS).options (hT0.same hS) (hU0.same hS) hA c1 (fun c hcc => ?_) i1 u1 he).same (hS.trans hS0)
      subst hcc
      exact performStep_aim h0 hp0 (by rw [hS0.options]; exact hden) hT0 hd hc.shiftB hc.shiftC (hc.tiny d ed) (hc.length d ed) e1

theorem solveLoop_report {sq : K → K} {gNew : Nat → K} {lbNew ubNew lbANew ubANew : Option (Nat → K)} (nWSR performed : Int)
    (cputime : Option K) (starttime : K) : ∀ (m : Nat) (iter : Int) (s : QPC K) (o : OutC K), s.Good → s.Params → 0 < s.options.epsDen →
      Target s (lowerOf lbNew) (upperOf ubNew) (lowerOf lbANew) (upperOf ubANew) → s.Unlimited (lowerOf lbANew) (upperOf ubANew) →
      LoopClean sq gNew lbNew ubNew lbANew ubANew nWSR performed cputime starttime m iter s → s.infeasible = false → s.unbounded = false →
      solveLoop sq gNew lbNew ubNew lbANew ubANew nWSR performed cputime starttime m iter s = .ok o →
      Reported o s gNew (lowerOf lbNew) (upperOf ubNew) (lowerOf lbANew) (upperOf ubANew) := by
  have fin : ∀ (s : QPC K) (n : Int), s.infeasible = false → s.unbounded = false →
      Reported (s.finish RET_MAX_NWSR_REACHED n cputime starttime) s gNew (lowerOf lbNew) (upperOf ubNew) (lowerOf lbANew) (upperOf ubANew) := by
    intro s n h1 h2
    obtain ⟨f1, f2, k, f3⟩ := finish_fields s RET_MAX_NWSR_REACHED n cputime starttime
    exact .plain (by rw [f1]; exact ⟨by decide, by decide⟩) (by rw [f3]; exact h1) (by rw [f3]; exact h2)
  intro m
  induction m with
  | zero =>
    intro iter s o _ _ _ _ _ _ h1 h2 he
    simp only [solveLoop, Res.ok.injEq] at he
    subst he
    exact fin s nWSR h1 h2
  | succ m ih =>
    intro iter s o h hp hden hT hU hc h1 h2 he
    rw [solveLoop] at he
    obtain ⟨k, ek⟩ := QPB.isCPU_frame s.toQPB cputime starttime (iter - performed)
    rw [LoopClean] at hc
    rcases hpp : s.toQPB.isCPUtimeLimitExceeded cputime starttime (iter - performed) with ⟨b, s'⟩
    rw [hpp] at ek hc he
    dsimp only at ek hc he
    subst ek
    have h' : ({ s with now := k } : QPC K).Good :=
      h.frame s.tau s.infeasible s.unbounded s.status s.count s.rampOffset k s.haveCholesky rfl
    have hS' : Same ({ s with now := k } : QPC K) s := Same.frame' s.tau s.infeasible s.unbounded s.status s.count s.rampOffset k rfl
    cases b with
    | true =>
      simp only [Res.ok.injEq] at he
      subst he
      exact (fin { s with now := k } iter h1 h2).same hS'
    | false =>
      dsimp only at he
      rw [Res.bind_eq_ok] at he
      obtain ⟨e, e1, he⟩ := he
      cases e with
      | error o' =>
        simp only [Res.ok.injEq] at he
        subst he
        exact (iteration_report h' (hp.same hS') hden (hT.same hS') (hU.same hS') hc.1 h1 h2 e1).same hS'
      | ok s1 =>
        dsimp only at he
        obtain ⟨i1, i2⟩ := (iteration_spec h' (hp.same hS') (hT.same hS') hc.1 e1).2 s1 rfl
        have i2' := i2.trans hS'
        obtain ⟨f1, f2⟩ : s1.infeasible = false ∧ s1.unbounded = false := by
          rcases iteration_cases (s := { s with now := k }) h1 h2 e1 with ⟨o', h, _⟩ | ⟨s', h, _, _, a, b, _⟩
          · cases h
          · cases h; exact ⟨a, b⟩
        exact (ih (iter+1) s1 o i1 (hp.same i2') (by rw [i2'.options]; exact hden) (hT.same i2') (hU.same i2') (hc.2 s1 e1) f1 f2 he).same i2'

/-- `solveQP` reports something only if the loop does; when the bounds cannot be adapted, the flags are those of before. -/
theorem solveQP_report {sq : K → K} {s : QPC K} {gNew : Nat → K} {lbNew ubNew lbANew ubANew : Option (Nat → K)} {nWSR : Int}
    {cputime : Option K} {performed : Int} (hG : (s.retyped lbNew ubNew).Good) (hp : s.Params) (hden : 0 < s.options.epsDen)
    (hrel : 0 ≤ s.options.boundRelaxation)
    (hT : Target (s.retyped lbNew ubNew) (lowerOf lbNew) (upperOf ubNew) (lowerOf lbANew) (upperOf ubANew))
    (hU : s.Unlimited (lowerOf lbANew) (upperOf ubANew))
    (hc : RunClean sq s gNew lbNew ubNew lbANew ubANew nWSR cputime performed) {o : OutC K}
    (e : solveQP sq s gNew lbNew ubNew lbANew ubANew nWSR cputime performed = .ok o) :
    Reported o (s.retyped lbNew ubNew) gNew (lowerOf lbNew) (upperOf ubNew) (lowerOf lbANew) (upperOf ubANew) ∨
      (Plain o.rv ∧ o.s.infeasible = s.infeasible ∧ o.s.unbounded = s.unbounded) := by
  unfold solveQP at e
  split at e
  · simp only [Res.ok.injEq] at e
    subst e
    exact Or.inr ⟨⟨by simp, by simp⟩, rfl, rfl⟩
  · rw [Res.bind_eq_ok] at e
    obtain ⟨⟨r, s1⟩, e1, e⟩ := e
    obtain ⟨hc1, hc2⟩ := hc
    change updateActivitiesForHotstart sq (s.startOf cputime) lbNew ubNew = _ at e1
    dsimp only at e
    have hc2 := hc2 s1
    obtain ⟨k, ek⟩ := startOf_frame s cputime
    rw [ek] at e1 hc1 hc2
    have hG' : (({ s with status := QPS_PERFORMINGHOMOTOPY, now := k } : QPC K).retyped lbNew ubNew).Good :=
      hG.frame (s.retyped lbNew ubNew).tau (s.retyped lbNew ubNew).infeasible (s.retyped lbNew ubNew).unbounded QPS_PERFORMINGHOMOTOPY
        (s.retyped lbNew ubNew).count (s.retyped lbNew ubNew).rampOffset k (s.retyped lbNew ubNew).haveCholesky rfl
    have hS' : Same (({ s with status := QPS_PERFORMINGHOMOTOPY, now := k } : QPC K).retyped lbNew ubNew) (s.retyped lbNew ubNew) :=
      ⟨rfl, rfl, rfl, rfl, rfl, rfl, rfl, rfl, rfl, rfl, rfl, rfl, rfl, rfl, rfl⟩
    obtain ⟨n1, gS⟩ := updateActivities_spec hG' hrel hc1 e1
    have qq := updateActivities_quiet hG' hrel hc1 e1
    split at e
    · next hrr =>
      simp only [Res.ok.injEq] at e
      subst e
      exact Or.inr qq
    next hrr =>
    rw [not_not] at hrr
    subst hrr
    obtain ⟨g1, S1⟩ := gS rfl
    have g2 : ({ s1 with infeasible := false, unbounded := false } : QPC K).Good :=
      g1.frame s1.tau false false s1.status s1.count s1.rampOffset s1.now s1.haveCholesky rfl
    have S2 : Same ({ s1 with infeasible := false, unbounded := false } : QPC K) s1 :=
      Same.frame' s1.tau false false s1.status s1.count s1.rampOffset s1.now rfl
    have S3 := S2.trans (S1.trans hS')
    have hp' : (s.retyped lbNew ubNew).Params := ⟨hp.options, hp.ramp⟩
    have hU' : (s.retyped lbNew ubNew).Unlimited (lowerOf lbANew) (upperOf ubANew) := hU
    exact Or.inl ((solveLoop_report nWSR performed cputime _ _ _ _ o g2 (hp'.same S3) (by rw [S3.options]; exact hden) (hT.same S3) (hU'.same S3)
      (hc2 e1) rfl rfl e).same S3)

theorem hotstart_report {sq : K → K} (fuel : Nat) {s : QPC K} {gNew : Nat → K} {lbNew ubNew lbANew ubANew : Option (Nat → K)} (nWSR : Int)
    (cputime : Option K) (hch : s.haveCholesky = true) (hf : s.options.enableFarBounds = false) (hr : s.usingRegularisation = false)
    (hG : (s.retyped lbNew ubNew).Good) (hp : s.Params) (hden : 0 < s.options.epsDen) (hrel : 0 ≤ s.options.boundRelaxation)
    (hT : Target (s.retyped lbNew ubNew) (lowerOf lbNew) (upperOf ubNew) (lowerOf lbANew) (upperOf ubANew))
    (hU : s.Unlimited (lowerOf lbANew) (upperOf ubANew))
    (hc : RunClean sq { s with count := s.count + 1 } gNew lbNew ubNew lbANew ubANew nWSR cputime 0) {o : OutC K}
    (e : hotstart sq fuel s gNew lbNew ubNew lbANew ubANew nWSR cputime .null .null = .ok o) :
    Reported o (s.retyped lbNew ubNew) gNew (lowerOf lbNew) (upperOf ubNew) (lowerOf lbANew) (upperOf ubANew) ∨
      (Plain o.rv ∧ o.s.infeasible = s.infeasible ∧ o.s.unbounded = s.unbounded) := by
  unfold hotstart at e
  split at e
  · simp only [Res.ok.injEq] at e
    subst e
    exact Or.inr ⟨⟨by simp, by simp⟩, rfl, rfl⟩
  dsimp only at e
  rw [hotstartMain_plain (consistent_of_target (s := s) hT.box hT.boxA) hch hf hr] at e
  have S0 : Same (({ s with count := s.count + 1 } : QPC K).retyped lbNew ubNew) (s.retyped lbNew ubNew) :=
    ⟨rfl, rfl, rfl, rfl, rfl, rfl, rfl, rfl, rfl, rfl, rfl, rfl, rfl, rfl, rfl⟩
  rcases solveQP_report (s := { s with count := s.count + 1 }) (hG.frame (s.retyped lbNew ubNew).tau (s.retyped lbNew ubNew).infeasible
    (s.retyped lbNew ubNew).unbounded (s.retyped lbNew ubNew).status (s.count + 1) (s.retyped lbNew ubNew).rampOffset
    (s.retyped lbNew ubNew).now (s.retyped lbNew ubNew).haveCholesky rfl) ⟨hp.options, hp.ramp⟩ hden hrel (hT.same S0) hU hc e with h | h
  · exact Or.inl (h.same S0)
  · exact Or.inr h

/-! ### cold starts -/

/-- The two flags -/
def flags (s : QPC K) := (s.infeasible, s.unbounded)

theorem still_flags {s s' : QPC K} (h : s'.still = s.still) : s'.flags = s.flags := congrArg Prod.snd (congrArg Prod.snd h)

theorem setupAuxiliaryWorkingSet_flags {sq : K → K} {auxB auxC : Option WS} {b : Bool} {s s' : QPC K}
    (h : setupAuxiliaryWorkingSet sq s auxB auxC b = .ok (SUCCESSFUL_RETURN, s')) : s'.flags = s.flags := by
  unfold setupAuxiliaryWorkingSet at h
  split at h
  · cases h
  split at h
  · cases h
  split at h
  · cases h
    unfold fixAll
    split <;> rfl
  · dsimp only at h
    obtain ⟨⟨r1, s1⟩, e1, h⟩ := Res.bind_eq_ok.1 h
    have a := (auxLoops_adapted e1).flags
    dsimp only at h
    split at h
    · cases h
    · next hr =>
      rw [not_not] at hr
      cases h
      have a := a hr
      exact Prod.ext a.1 a.2

theorem auxBoundsB_flags (aux : Option WS) : ∀ (m i : Nat) (s : QPC K), (auxBoundsB aux m i s).2.flags = s.flags := by
  intro m
  induction m with
  | zero => intro i s; rfl
  | succ m ih =>
    intro i s
    unfold auxBoundsB
    split
    · rfl
    · exact (ih _ _).trans rfl

theorem auxBoundsC_flags (aux : Option WS) : ∀ (m i : Nat) (s : QPC K), (auxBoundsC aux m i s).2.flags = s.flags := by
  intro m
  induction m with
  | zero => intro i s; rfl
  | succ m ih =>
    intro i s
    unfold auxBoundsC
    split
    · rfl
    · exact (ih _ _).trans rfl

theorem setupAuxiliaryQPbounds_flags (s : QPC K) (aux : Option (WS × WS)) : (setupAuxiliaryQPbounds s aux).2.flags = s.flags := by
  unfold setupAuxiliaryQPbounds
  have h1 := auxBoundsB_flags (aux.map (·.1)) s.nV 0 s
  generalize auxBoundsB (aux.map (·.1)) s.nV 0 s = p at h1
  obtain ⟨r, s1⟩ := p
  dsimp only at h1 ⊢
  split
  · exact h1
  · exact (auxBoundsC_flags _ _ _ _).trans h1

theorem prepareAuxiliary_flags {sq : K → K} {s s' : QPC K} {xOpt yOpt : Option (Nat → K)} {gB gC : Option WS} {R : Option (Nat → K)}
    {nWSR : Int} {c : Option K} (h : prepareAuxiliary sq s xOpt yOpt gB gC R nWSR c = .ok (.ok s')) : s'.flags = s.flags := by
  unfold prepareAuxiliary at h
  split at h
  · rename_i auxB auxC _ _
    have goal2 : ∀ (r1 : ReturnValue) (s1 : QPC K), s1.flags = s.flags →
        (if r1 ≠ SUCCESSFUL_RETURN then Res.ok (Except.error ⟨RET_INIT_FAILED_REGULARISATION, nWSR, c, s1⟩) else do
          let s := s1.setupTQfactorisation
          let (r, s) ← setupAuxiliaryWorkingSet sq s (some auxB) (some auxC) true
          if r ≠ SUCCESSFUL_RETURN then .ok (.error ⟨RET_INIT_FAILED, nWSR, c, s⟩) else do
          let s := { s with toQPB := QPB.takeFactor { s.toQPB with haveCholesky := false } (xOpt.isNone && yOpt.isNone && gB.isNone && gC.isNone) R }
          let s ← setupAuxiliaryQPgradient s
          match setupAuxiliaryQPbounds s (some (auxB, auxC)) with
          | (r, s) =>
            if r ≠ SUCCESSFUL_RETURN then .ok (.error ⟨RET_INIT_FAILED, nWSR, c, s⟩) else
            let s := { s with status := QPS_AUXILIARYQPSOLVED }
            if s.options.enableRamping then do
              let s ← performRamping s
              .ok (.ok s)
            else .ok (.ok s) : Res (Except (OutC K) (QPC K))) = .ok (.ok s') → s'.flags = s.flags := by
      intro r1 s1 a1 h
      split at h
      · cases h
      · dsimp only at h
        obtain ⟨⟨r2, s2⟩, e2, h⟩ := Res.bind_eq_ok.1 h
        dsimp only at h
        split at h
        · cases h
        · next hr2 =>
          rw [not_not] at hr2
          subst hr2
          have a2 := setupAuxiliaryWorkingSet_flags e2
          have a2 : s2.flags = s.flags := a2.trans a1
          obtain ⟨s3, e3, h⟩ := Res.bind_eq_ok.1 h
          obtain ⟨g, f3⟩ := setupAuxiliaryQPgradient_fields e3
          have a3 : s3.flags = s.flags := by
            rw [f3]
            have : ∀ b : Bool, ({ s2 with toQPB := QPB.takeFactor { s2.toQPB with haveCholesky := false } b R } : QPC K).flags = s2.flags := by
              intro b
              have : ∃ R' hc, QPB.takeFactor { s2.toQPB with haveCholesky := false } b R = { s2.toQPB with R := R', haveCholesky := hc } := by
                unfold QPB.takeFactor
                repeat' split
                all_goals exact ⟨_, _, rfl⟩
              obtain ⟨R', hc, e⟩ := this
              rw [e]
              rfl
            exact (this _).trans a2
          have a4 := (setupAuxiliaryQPbounds_flags s3 (some (auxB, auxC))).trans a3
          generalize setupAuxiliaryQPbounds s3 (some (auxB, auxC)) = p at h a4
          obtain ⟨r4, s4⟩ := p
          dsimp only at h a4
          split at h
          · cases h
          · split at h
            · obtain ⟨s5, e5, h⟩ := Res.bind_eq_ok.1 h
              cases h
              exact (still_flags (performRamping_still e5).1).trans a4
            · cases h; exact a4
    split at h
    · obtain ⟨⟨r1, s1⟩, e1, h⟩ := Res.bind_eq_ok.1 h
      obtain ⟨H, v, f⟩ := regulariseHessian_fields e1
      exact goal2 r1 s1 (by rw [f]; rfl) h
    · exact goal2 SUCCESSFUL_RETURN s rfl h
  · cases h

theorem prepareInitialQP_flags {sq : K → K} {s s' : QPC K} {xOpt yOpt : Option (Nat → K)} {gB gC : Option WS} {R : Option (Nat → K)}
    {nWSR : Int} {c : Option K} (h : prepareInitialQP sq s xOpt yOpt gB gC R nWSR c = .ok (.ok s')) : s'.flags = s.flags := by
  unfold prepareInitialQP at h
  have hd : (({ s.toQPB with status := QPS_NOTINITIALISED } : QPB K).determineHessianType.2.infeasible,
      ({ s.toQPB with status := QPS_NOTINITIALISED } : QPB K).determineHessianType.2.unbounded) = s.flags := by
    unfold QPB.determineHessianType QPB.ensureRegularisation
    dsimp only
    repeat' split
    all_goals rfl
  generalize ({ s.toQPB with status := QPS_NOTINITIALISED } : QPB K).determineHessianType = p at h hd
  obtain ⟨r, b⟩ := p
  dsimp only at h hd
  split at h
  · cases h
  · exact (prepareAuxiliary_flags h).trans hd

/-- A cold start that reports infeasibility or unboundedness has started to move, and the flags are raised on the way. -/
theorem solveInitialQP_launched {sq : K → K} (fuel : Nat) {s : QPC K} (h : s.ColdOK) (hf : s.flags = (false, false)) {xOpt yOpt : Option (Nat → K)}
    {gB gC : Option WS} {nWSR : Int} {cputime : Option K} (hc : StartClean sq s xOpt yOpt gB gC nWSR cputime) {o : OutC K}
    (e : solveInitialQP sq fuel s xOpt yOpt gB gC none nWSR cputime = .ok o)
    (hrv : o.rv = RET_INIT_FAILED_INFEASIBILITY ∨ o.rv = RET_INIT_FAILED_UNBOUNDEDNESS) :
    ∃ s2 c o1, StartsAt sq s xOpt yOpt gB gC nWSR cputime s2 c ∧ Launched s2 s ∧ s2.flags = (false, false) ∧
      runOn sq fuel s2 s.g (some s.lb) (some s.ub) (some s.lbA) (some s.ubA) nWSR c 0 = .ok o1 ∧ o.s = o1.s ∧
      (o.rv = RET_INIT_FAILED_INFEASIBILITY → o1.s.infeasible = true) ∧ (o.rv = RET_INIT_FAILED_UNBOUNDEDNESS → o1.s.unbounded = true) := by
  obtain ⟨k, ek⟩ := startClock_frame s.toQPB cputime
  have hdh : ({ s.toQPB with now := k } : QPB K).determineHessianType = ((s.toQPB.determineHessianType).1, { (s.toQPB.determineHessianType).2 with now := k }) := by
    unfold QPB.determineHessianType QPB.ensureRegularisation
    dsimp only
    repeat' split
    all_goals rfl
  have hcold : ColdOK ({ s with now := k } : QPC K) :=
    ⟨h.freeB, h.fixedB, h.nB, h.freeC, h.fixedC, h.nC, h.size, h.nV, ⟨h.params.options, h.params.ramp⟩, h.relax,
      (by rw [show ({ s with now := k } : QPC K).toQPB = { s.toQPB with now := k } from rfl, hdh]; exact h.idle), h.box, h.eq, h.boxA, h.eqA,
      (by rw [show ({ s with now := k } : QPC K).toQPB = { s.toQPB with now := k } from rfl, hdh]; exact h.type), h.sym⟩
  obtain ⟨hca, hcr⟩ := hc
  unfold solveInitialQP at e
  dsimp only at e
  rw [Res.bind_eq_ok] at e
  obtain ⟨p, e1, e⟩ := e
  have e0 := e1
  unfold StartsAt
  generalize hst : (s.toQPB.startClock cputime).1 = st at *
  rw [ek] at hca hcr e1
  obtain ⟨k1, k2⟩ := prepareInitialQP_spec hcold hca e1
  cases p with
  | error o' =>
    simp only [Res.ok.injEq] at e
    subst e
    have := k1 o' rfl
    rw [this] at hrv
    rcases hrv with h | h <;> cases h
  | ok s' =>
    dsimp only at e
    have hA := (k2 s' rfl).1
    have hfl := prepareInitialQP_flags e1
    have hfl : s'.flags = (false, false) := hfl.trans hf
    have hcf := hcr s' e1
    dsimp only at hcf
    rw [Res.bind_eq_ok] at e
    obtain ⟨o1, eo, e⟩ := e
    have hfin : o.s = o1.s ∧ (o.rv = RET_INIT_FAILED_INFEASIBILITY → o1.s.infeasible = true) ∧
        (o.rv = RET_INIT_FAILED_UNBOUNDEDNESS → o1.s.unbounded = true) := by
      split at e
      · next hi =>
        simp only [Res.ok.injEq] at e
        subst e
        exact ⟨rfl, fun _ => hi, fun hh => (by cases hh)⟩
      split at e
      · next hi =>
        simp only [Res.ok.injEq] at e
        subst e
        exact ⟨rfl, fun hh => (by cases hh), fun _ => hi⟩
      split at e
      · simp only [Res.ok.injEq] at e
        subst e
        simp at hrv
      · next hn =>
        simp only [Res.ok.injEq] at e
        rw [← e, finish_rv] at hrv
        rw [not_and_or, not_not, not_not] at hn
        rcases hn with hn | hn <;> rw [hn] at hrv <;> simp at hrv
    obtain ⟨hos, hI, hU⟩ := hfin
    have hflag : o1.s.infeasible = true ∨ o1.s.unbounded = true := by
      rcases hrv with hh | hh
      · exact Or.inl (hI hh)
      · exact Or.inr (hU hh)
    have hP := hA.problem
    have hnV : s'.nV = s.nV := hP.nV
    have hopt : s'.options = s.options := hP.options
    obtain ⟨k3, ek3⟩ := QPB.stopClock_frame s'.toQPB cputime st
    unfold hotstart at eo
    rw [if_neg (show ¬ ({ s' with toQPB := (s'.toQPB.stopClock cputime st).2 } : QPC K).nV = 0 by
      rw [ek3, show ({ s' with now := k3 } : QPC K).nV = s.nV from hnV]; exact h.nV)] at eo
    dsimp only at eo
    unfold hotstartMain at eo
    rw [if_neg (by
      rw [consistent_of_target (s := { s' with toQPB := (s'.toQPB.stopClock cputime st).2 }) (lbNew := some s.lb) (ubNew := some s.ub) (lbANew := some s.lbA)
        (ubANew := some s.ubA) (by rw [ek3]; exact hA.target.box) (by rw [ek3]; exact hA.target.boxA)]
      decide)] at eo
    dsimp only at eo
    rw [if_pos (show ({ s' with toQPB := (s'.toQPB.stopClock cputime st).2 } : QPC K).haveCholesky = false by rw [ek3]; exact hA.noChol), Res.bind_eq_ok] at eo
    obtain ⟨⟨r, s1⟩, f1, eo⟩ := eo
    dsimp only at eo
    have f1' := f1
    rw [ek3] at f1 hcf
    have hfl1 : s1.flags = (false, false) := by
      obtain ⟨⟨_, _, _, _, _, _, _, rfl⟩, _⟩ := setupInitialCholesky_fields f1
      exact hfl
    obtain ⟨g1, g2⟩ := setupInitialCholesky_spec (s := { s' with now := k3, count := s'.count + 1 }) ⟨⟨hA.base.shape.okB, hA.base.shape.okC, hA.base.shape.nB, hA.base.shape.nC, hA.base.shape.size⟩, ⟨hA.base.tq.le, hA.base.tq.tq⟩, hA.base.sym⟩ hA.plain hcf hA.hasH f1
    by_cases hr : r = SUCCESSFUL_RETURN
    · subst hr
      obtain ⟨⟨R, Q, eR⟩, hF⟩ := g2 rfl
      rw [if_neg (by simp)] at eo
      refine ⟨s1, _, o1, ⟨s', e0, f1', rfl⟩, ?_, hfl1, eo, hos, hI, hU⟩
      subst eR
      have hty : ({ s' with now := k3, count := s'.count + 1, R := R, Q := Q, haveCholesky := true } : QPC K).retyped (some s.lb) (some s.ub) =
          { s' with now := k3, count := s'.count + 1, R := R, Q := Q, haveCholesky := true } := by
        have h0 : ({ s' with now := k3, count := s'.count + 1, R := R, Q := Q, haveCholesky := true } : QPC K).retyped (some s.lb) (some s.ub) =
          { s'.retyped (some s.lb) (some s.ub) with now := k3, count := s'.count + 1, R := R, Q := Q, haveCholesky := true } := rfl
        rw [h0, show s'.retyped (some s.lb) (some s.ub) = s' from hA.types]
      refine ⟨⟨hF, ⟨hA.opt.stat, hA.opt.bounds, hA.opt.cons⟩, hA.ax⟩, hty, ⟨hA.target.box, hA.target.eq, hA.target.boxA, hA.target.eqA⟩, ?_⟩
      refine ⟨hP.nV, hP.nC, hP.A, hP.H, hP.hess.trans ?_, hP.options, rfl, hP.reg, hP.ramps, hP.typeB, hP.noLowerB, hP.noUpperB, hP.typeC, hP.noLowerC, hP.noUpperC⟩
      rw [show ({ s with now := k } : QPC K).toQPB = { s.toQPB with now := k } from rfl, hdh]
      rfl
    · rw [if_pos hr] at eo
      simp only [Res.ok.injEq] at eo
      subst eo
      have h1 : s1.infeasible = false := congrArg Prod.fst hfl1
      have h2 : s1.unbounded = false := congrArg Prod.snd hfl1
      rw [h1, h2] at hflag
      simp at hflag

theorem solveInitialQP_report {sq : K → K} (fuel : Nat) {s : QPC K} (h : s.ColdOK) (hden : 0 < s.options.epsDen) (hf : s.flags = (false, false))
    (hreg : s.usingRegularisation = false) (hfar : s.options.enableFarBounds = false)
    (habs : ∀ k < s.nC, s.lbA k < -INFTY + s.options.boundTolerance → INFTY - s.options.boundTolerance < s.ubA k → s.lbA k ≤ -INFTY ∧ INFTY ≤ s.ubA k)
    {xOpt yOpt : Option (Nat → K)} {gB gC : Option WS} {nWSR : Int} {cputime : Option K} (hc : ColdClean sq s xOpt yOpt gB gC nWSR cputime) {o : OutC K}
    (e : solveInitialQP sq fuel s xOpt yOpt gB gC none nWSR cputime = .ok o)
    (hrv : o.rv = RET_INIT_FAILED_INFEASIBILITY ∨ o.rv = RET_INIT_FAILED_UNBOUNDEDNESS) :
    Verdict o.s s.g s.lb s.ub s.lbA s.ubA ∧ o.s.Good ∧ ForProblem o.s s ∧ (o.rv = RET_INIT_FAILED_INFEASIBILITY → o.s.infeasible = true) ∧
      (o.rv = RET_INIT_FAILED_UNBOUNDEDNESS → o.s.unbounded = true) := by
  obtain ⟨s2, c, o1, ⟨s', e1, e2, rfl⟩, hR, hfl, hrun, es, hI, hB⟩ := solveInitialQP_launched fuel h hf hc.start e hrv
  have hP := hR.problem
  have hopt : s2.options = s.options := hP.options
  have hcr := (hc.run s' e1).2 s2 e2
  unfold runOn at hrun
  rw [if_pos (by rw [hopt]; exact hfar)] at hrun
  unfold solveRegularisedQP at hrun
  rw [if_pos (show s2.toQPB.usingRegularisation = false by unfold QPB.usingRegularisation; rw [hP.reg]; exact hreg)] at hrun
  have hU : s2.Unlimited s.lbA s.ubA := by
    intro k hk hty
    have hk : k < s.nC := by rw [← hP.nC]; exact hk
    rcases hP.typeC k hk with h1 | ⟨_, h1⟩
    · rw [h1] at hty
      have := (typeOfC_unbounded hty).1
      exact habs k hk this.1 this.2
    · rw [h1] at hty; cases hty
  have hrep := solveQP_report (by rw [hR.types]; exact hR.good)
    ⟨by rw [hopt]; exact h.params.options, fun hh => (by rw [hopt] at hh; rw [hP.ramps.1, hP.ramps.2]; exact h.params.ramp hh)⟩
    (by rw [hopt]; exact hden) (by rw [hopt]; exact h.relax) (by rw [hR.types]; exact hR.target) hU hcr hrun
  rw [hR.types] at hrep
  rw [es]
  have hflag : o1.s.infeasible = true ∨ o1.s.unbounded = true := by
    rcases hrv with hh | hh
    · exact Or.inl (hI hh)
    · exact Or.inr (hB hh)
  rcases hrep with hrep | ⟨_, h1, h2⟩
  · obtain ⟨j1, j2⟩ := hrep.kept hflag
    exact ⟨hrep.verdict, j1, hP.same j2, hI, hB⟩
  · rw [h1, h2, show s2.infeasible = false from congrArg Prod.fst hfl, show s2.unbounded = false from congrArg Prod.snd hfl] at hflag
    simp at hflag

theorem Usable.flags {s : QPC K} (h : Usable s) (H : Option (Nat → K)) (g A : Nat → K) (lb ub lbA ubA : Option (Nat → K)) :
    (s.coldData H g A lb ub lbA ubA).flags = (false, false) := by
  unfold coldData
  cases h with
  | fresh n m t clk o =>
    rw [if_neg (fun h => h rfl)]
    obtain ⟨h', t', a, l, u, ax, al, au, e, hd⟩ := setupQPdata_some ({ QPC.new n m t clk with toQPB := (QPC.new n m t clk).toQPB.setOptions o } : QPC K) H g A lb ub lbA ubA
    rw [e]
    rfl
  | used _ h hn hT =>
    rw [if_pos h]
    obtain ⟨h', t', a, l, u, ax, al, au, e, hd⟩ := setupQPdata_some s.reset H g A lb ub lbA ubA
    rw [e]
    rfl

/-- A cold start that ends with a report has got past the checks of the data. -/
theorem init_reported {sq : K → K} (fuel : Nat) {s : QPC K} {H : Option (Nat → K)} {g A : Nat → K} {lb ub lbA ubA : Option (Nat → K)}
    {nWSR : Int} {cputime : Option K} {xOpt yOpt : Option (Nat → K)} {gB gC : Option WS} {o : OutC K}
    (e : init sq fuel s H (some g) (some A) lb ub lbA ubA nWSR cputime xOpt yOpt gB gC none = .ok o)
    (hrv : o.rv = RET_INIT_FAILED_INFEASIBILITY ∨ o.rv = RET_INIT_FAILED_UNBOUNDEDNESS) :
    init sq fuel s H (some g) (some A) lb ub lbA ubA nWSR cputime xOpt yOpt gB gC none =
      solveInitialQP sq fuel (s.coldData H g A lb ub lbA ubA) xOpt yOpt gB gC none nWSR cputime := by
  have he := e
  unfold init at he
  unfold init coldData
  split
  · next hh => rw [if_pos hh] at he; simp only [Res.ok.injEq] at he; subst he; simp at hrv
  next hh =>
  rw [if_neg hh] at he
  dsimp only at he ⊢
  generalize (if s.status ≠ QPS_NOTINITIALISED then s.reset else s) = s0 at he
  split
  · next hh => rw [if_pos hh] at he; simp only [Res.ok.injEq] at he; subst he; simp at hrv
  next hh =>
  rw [if_neg hh] at he
  split
  · next hh => rw [if_pos hh] at he; simp only [Res.ok.injEq] at he; subst he; simp at hrv
  next hh =>
  rw [if_neg hh] at he
  split
  · next hh => rw [if_pos hh] at he; simp only [Res.ok.injEq] at he; subst he; simp at hrv
  rw [if_neg (by simp)]
  obtain ⟨h', t', a, l, u, ax, al, au, e, hd⟩ := setupQPdata_some s0 H g A lb ub lbA ubA
  rw [e]
  rfl

/-- What the reports of a cold start mean -/
theorem init_report {sq : K → K} (fuel : Nat) {s : QPC K} (h : Usable s) (hfar : s.options.enableFarBounds = false) (hden : 0 < s.options.epsDen)
    {H : Option (Nat → K)} {g A : Nat → K} {lb ub lbA ubA : Option (Nat → K)}
    (ha : Admissible s (lowerOf lb) (upperOf ub) (lowerOf lbA) (upperOf ubA))
    (habs : ∀ k < s.nC, lowerOf lbA k < -INFTY + s.options.boundTolerance → INFTY - s.options.boundTolerance < upperOf ubA k →
      lowerOf lbA k ≤ -INFTY ∧ INFTY ≤ upperOf ubA k) {M : Nat → Nat → K}
    (hM : GivenHessian (s.coldData H g A lb ub lbA ubA).toQPB M) (hsym : QP.Symmetric s.nV M) (hst : (s.coldData H g A lb ub lbA ubA).SymH)
    {nWSR : Int} {cputime : Option K} {xOpt yOpt : Option (Nat → K)} {gB gC : Option WS}
    (hc : ColdClean sq (s.coldData H g A lb ub lbA ubA) xOpt yOpt gB gC nWSR cputime) {o : OutC K}
    (e : init sq fuel s H (some g) (some A) lb ub lbA ubA nWSR cputime xOpt yOpt gB gC none = .ok o)
    (hrv : o.rv = RET_INIT_FAILED_INFEASIBILITY ∨ o.rv = RET_INIT_FAILED_UNBOUNDEDNESS) :
    Verdict o.s g (lowerOf lb) (upperOf ub) (s.coldData H g A lb ub lbA ubA).lbA (s.coldData H g A lb ub lbA ubA).ubA ∧
      Live s.nV s.nC M (fun k j => A (k * s.nV + j)) (lowerOf lbA) (upperOf ubA) o.s ∧ o.s.options = s.options ∧
      (o.rv = RET_INIT_FAILED_INFEASIBILITY → o.s.infeasible = true) ∧ (o.rv = RET_INIT_FAILED_UNBOUNDEDNESS → o.s.unbounded = true) := by
  rw [init_reported fuel e hrv] at e
  have c := h.cold H g A lb ub lbA ubA
  obtain ⟨a1, a2, a3, a4⟩ := solveInitialQP_report fuel (h.coldOK ha hM hsym hst) (by rw [c.options]; exact hden) (h.flags H g A lb ub lbA ubA)
    (by unfold QPB.usingRegularisation; rw [c.regVal]; exact decide_eq_false (not_lt.2 ZERO_pos.le)) (by rw [c.options]; exact hfar)
    (by
      intro k hk
      obtain ⟨_, d2, d3⟩ := c.data (by omega)
      rw [c.options, d2, d3]
      exact habs k (by rw [← c.nC]; exact hk)) hc e hrv
  rw [c.g, c.lb, c.ub] at a1
  exact ⟨a1, Live.of_init h ha hM hsym hst a2 a3, a3.options.trans c.options, a4⟩

/-- What the reports of a hotstart mean -/
theorem Live.hotstart_report {sq : K → K} (fuel : Nat) {n m : Nat} {M A : Nat → Nat → K} {l0 u0 : Nat → K} {s : QPC K} (h : Live n m M A l0 u0 s)
    (hfar : s.options.enableFarBounds = false) (hden : 0 < s.options.epsDen) {g : Nat → K}
    {lbNew ubNew lbANew ubANew : Option (Nat → K)} {nWSR : Int} {cputime : Option K} (hbox : ∀ i < n, lowerOf lbNew i ≤ upperOf ubNew i)
    (hboxA : ∀ k < m, lowerOf lbANew k ≤ upperOf ubANew k)
    (hkind : SameKind (s.options.enableEqualities = true) s.options.boundTolerance m l0 u0 (lowerOf lbANew) (upperOf ubANew))
    (hx : ∀ i < n, s.lb i ≤ s.x i ∧ s.x i ≤ s.ub i) (heq : EqualitiesOK s.toQPB lbNew ubNew)
    (hc : RunClean sq { s with count := s.count + 1 } g lbNew ubNew lbANew ubANew nWSR cputime 0) {o : OutC K}
    (e : QPC.hotstart sq fuel s g lbNew ubNew lbANew ubANew nWSR cputime .null .null = .ok o)
    (hrv : o.rv = RET_HOTSTART_STOPPED_INFEASIBILITY ∨ o.rv = RET_HOTSTART_STOPPED_UNBOUNDEDNESS) :
    Verdict o.s g (lowerOf lbNew) (upperOf ubNew) (lowerOf lbANew) (upperOf ubANew) ∧ Live n m M A l0 u0 o.s ∧ o.s.options = s.options ∧
      (o.rv = RET_HOTSTART_STOPPED_INFEASIBILITY → o.s.infeasible = true) ∧ (o.rv = RET_HOTSTART_STOPPED_UNBOUNDEDNESS → o.s.unbounded = true) := by
  have hG : (s.retyped lbNew ubNew).Good := h.good.retype (fun i hi e => ⟨(heq.now i hi e).1, (heq.now i hi e).2.1⟩) heq.before
    (fun _ i hi _ => (hx i (by rw [← h.nV]; exact hi)).1) (fun _ i hi _ => (hx i (by rw [← h.nV]; exact hi)).2)
  have hty : ∀ i < s.nV, (s.retyped lbNew ubNew).bounds.type i = s.toQPB.typeOf lbNew ubNew i := fun i hi => if_pos hi
  have hT : Target (s.retyped lbNew ubNew) (lowerOf lbNew) (upperOf ubNew) (lowerOf lbANew) (upperOf ubANew) := by
    refine ⟨fun i hi => hbox i (by rw [← h.nV]; exact hi), fun i hi e => ?_, fun k hk => hboxA k (by rw [← h.nC]; exact hk), fun k hk e => ?_⟩
    · rw [hty i hi] at e
      exact (heq.now i hi e).2.2
    · have hk : k < m := by rw [← h.nC]; exact hk
      have := h.equal k hk e
      exact hkind.equal this.1 k hk this.2
  have hU : s.Unlimited (lowerOf lbANew) (upperOf ubANew) := by
    intro k hk hty
    have hk : k < m := by rw [← h.nC]; exact hk
    have h1 := h.unbounded k hk hty
    exact hkind.absent k hk h1.1.1 h1.1.2
  rcases QPC.hotstart_report fuel nWSR cputime h.chol hfar h.reg hG h.params hden h.relax hT hU hc e with hh | ⟨⟨h1, h2⟩, _⟩
  · have hflag : o.s.infeasible = true ∨ o.s.unbounded = true := by
      rcases hrv with hr | hr
      · exact Or.inl (hh.infeasible hr)
      · exact Or.inr (hh.unbounded hr)
    obtain ⟨j1, j2⟩ := hh.kept hflag
    exact ⟨hh.verdict, h.next j1 j2, j2.options, hh.infeasible, hh.unbounded⟩
  · rcases hrv with hr | hr
    · exact absurd hr h1
    · exact absurd hr h2

end QPC
end QpOASES
