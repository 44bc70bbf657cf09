import Verif.Proofs.QPCOutcome
import Verif.Proofs.QPCRuns
import Verif.Proofs.QPBFar
import Verif.Props.C42_C44_Limits

/-!
C38: the budget of working set recalculations; C39: the status protocol; C41: inconsistent limits; C44: the limit on CPU time
(solver for general constraints).

No assumption is made about the state of the object: these theorems also hold for objects in which something went wrong.
-/
namespace QpOASES.Props.General
open Spec QpOASES.QPC ReturnValue SubjectToStatus SubjectToType HessianType QProblemStatus

set_option linter.unusedSectionVars false

variable {K : Type} [Field K] [LinearOrder K] [IsStrictOrderedRing K]

/-! ### Calls -/

/-- The object in the state `s1` in which `hotstart` starts the homotopy: guessed working sets are installed before. -/
def StartsFrom (sq : K → K) (s : QPC K) (c : Option K) (gB gC : QPB.Guess) (s1 : QPC K) : Prop :=
  match gB, gC with
  | .null, .null => s1 = s
  | gB, gC => ∃ r, setupAuxiliaryQP sq { s with toQPB := (s.toQPB.startClock c).2 } gB.toOption gC.toOption = .ok (r, s1)

theorem StartsFrom.dims {sq : K → K} {s s1 : QPC K} {c : Option K} {gB gC : QPB.Guess} (h : StartsFrom sq s c gB gC s1) :
    s1.dims = s.dims := by
  have key : (∃ r, setupAuxiliaryQP sq { s with toQPB := (s.toQPB.startClock c).2 } gB.toOption gC.toOption = .ok (r, s1)) →
      s1.dims = s.dims := by
    rintro ⟨r, e⟩
    have a := setupAuxiliaryQP_dims e
    obtain ⟨k, ek⟩ := startClock_fields s c
    rw [ek] at a
    exact a
  cases gB with
  | null =>
    cases gC with
    | null =>
      have h : s1 = s := h
      rw [h]
    | self => exact key h
    | other w => exact key h
  | self => exact key h
  | other w => exact key h

/-- All calls of `hotstart` on an object with variables. -/
theorem hotstart_cases {sq : K → K} {fuel : Nat} {s : QPC K} {gNew : Nat → K} {lbNew ubNew lbANew ubANew : Option (Nat → K)} {nWSR : Int}
    {c : Option K} {gB gC : QPB.Guess} {o : OutC K} (hn : s.nV ≠ 0) (hb : 0 ≤ nWSR)
    (h : hotstart sq fuel s gNew lbNew ubNew lbANew ubANew nWSR c gB gC = .ok o) :
    ∃ s1, StartsFrom sq s c gB gC s1 ∧
      ((o.rv = RET_SETUP_AUXILIARYQP_FAILED ∧ o.nWSR = nWSR ∧ o.s = s1 ∧ ¬ (gB = .null ∧ gC = .null)) ∨
       ∃ s2 : QPC K, s2.active = s1.active ∧ s2.dims = s1.dims ∧
         (gB = .null ∧ gC = .null → s2 = s1) ∧ (¬ (gB = .null ∧ gC = .null) → s2.status = QPS_AUXILIARYQPSOLVED) ∧
         Main sq s2 lbNew ubNew lbANew ubANew nWSR o) := by
  unfold hotstart at h
  rw [if_neg hn] at h
  have key : ∀ gB gC : QPB.Guess, ¬ (gB = .null ∧ gC = .null) → (do
      let p := s.toQPB.startClock c
      let (r, s) ← setupAuxiliaryQP sq { s with toQPB := p.2 } gB.toOption gC.toOption
      if r ≠ SUCCESSFUL_RETURN then Res.ok (⟨RET_SETUP_AUXILIARYQP_FAILED, nWSR, c, s⟩ : OutC K) else
      let s := { s with status := QPS_AUXILIARYQPSOLVED }
      let q := s.toQPB.stopClock c p.1
      let auxTime := q.1.getD 0
      hotstartMain sq fuel { s with toQPB := q.2 } gNew lbNew ubNew lbANew ubANew nWSR (c.map fun c => c - auxTime) auxTime) = .ok o →
      ∃ s1, (∃ r, setupAuxiliaryQP sq { s with toQPB := (s.toQPB.startClock c).2 } gB.toOption gC.toOption = .ok (r, s1)) ∧
      ((o.rv = RET_SETUP_AUXILIARYQP_FAILED ∧ o.nWSR = nWSR ∧ o.s = s1 ∧ ¬ (gB = .null ∧ gC = .null)) ∨
       ∃ s2 : QPC K, s2.active = s1.active ∧ s2.dims = s1.dims ∧
         (gB = .null ∧ gC = .null → s2 = s1) ∧ (¬ (gB = .null ∧ gC = .null) → s2.status = QPS_AUXILIARYQPSOLVED) ∧
         Main sq s2 lbNew ubNew lbANew ubANew nWSR o) := by
    intro gB gC hg h
    dsimp only at h
    obtain ⟨⟨r, s1⟩, e1, h⟩ := Res.bind_eq_ok.1 h
    dsimp only at h
    split at h
    · cases h
      exact ⟨s1, ⟨r, e1⟩, Or.inl ⟨rfl, rfl, rfl, hg⟩⟩
    · have hm := hotstartMain_cases hb h
      obtain ⟨k', e⟩ := stopClock_fields ({ s1 with status := QPS_AUXILIARYQPSOLVED } : QPC K) c (s.toQPB.startClock c).1
      exact ⟨s1, ⟨r, e1⟩, Or.inr ⟨_, by rw [e]; rfl, by rw [e]; rfl, fun h => absurd h hg, fun _ => by rw [e], hm⟩⟩
  cases gB with
  | null =>
    cases gC with
    | null => exact ⟨s, rfl, Or.inr ⟨s, rfl, rfl, fun _ => rfl, fun h => absurd ⟨rfl, rfl⟩ h, hotstartMain_cases hb h⟩⟩
    | self => exact key .null .self (fun h => by cases h.2) h
    | other w => exact key .null (.other w) (fun h => by cases h.2) h
  | self => exact key .self gC (fun h => by cases h.1) h
  | other w => exact key (.other w) gC (fun h => by cases h.1) h

theorem hotstart_empty {sq : K → K} {fuel : Nat} {s : QPC K} {gNew : Nat → K} {lbNew ubNew lbANew ubANew : Option (Nat → K)} {nWSR : Int}
    {c : Option K} {gB gC : QPB.Guess} (hn : s.nV = 0) :
    hotstart sq fuel s gNew lbNew ubNew lbANew ubANew nWSR c gB gC = .ok ⟨RET_QPOBJECT_NOT_SETUP, nWSR, c, s⟩ := by
  unfold hotstart
  rw [if_pos hn]

/-! ### C38 -/

/-- The problem is reported to be solved, or the maximum to be reached. -/
def Exact (r : ReturnValue) : Prop := r = SUCCESSFUL_RETURN ∨ r = RET_MAX_NWSR_REACHED

theorem main_budget {sq : K → K} {s : QPC K} {lbNew ubNew lbANew ubANew : Option (Nat → K)} {nWSR : Int} {o : OutC K} (hb : 0 ≤ nWSR)
    (h : Main sq s lbNew ubNew lbANew ubANew nWSR o) :
    o.nWSR ≤ nWSR ∧ ∃ k : Nat, Recalcs sq k s o.s ∧ (k : Int) ≤ nWSR ∧
      (Exact o.rv → o.s.infeasible = false → (k : Int) = o.nWSR) := by
  cases h with
  | inconsistent hc rv n e =>
    exact ⟨n.le, 0, .none (by rw [e]; rfl), hb, fun _ h => by rw [e] at h; cases h⟩
  | setupFailed hc rv n k =>
    refine ⟨n.le, 0, .none k.active, hb, fun h => ?_⟩
    rcases rv with rv | rv <;> rw [rv] at h <;> rcases h with h | h <;> cases h
  | refused hc hr rv n k =>
    refine ⟨n.le, 0, .none k.active, hb, fun h => ?_⟩
    rcases rv with rv | ⟨rv, _⟩ <;> rw [rv] at h <;> rcases h with h | h <;> cases h
  | solved hc hr s1 k S =>
    obtain ⟨j, a, b', c⟩ := S.count
    have base : Recalcs sq 0 s s1 := .none k.active
    refine ⟨S.upper, 0 + j, base.trans a, by omega, fun h _ => ?_⟩
    have : (j : Int) = o.nWSR - 0 := by
      rcases h with h | h
      · exact c (Or.inl (by rw [(S.outcome.success h).1]; decide))
      · exact c (Or.inr h)
    omega

/-- C38, `hotstart`: the number reported is at most the given maximum, and so is the number `k` of recalculations of the working
set that have been made since the start of the homotopy, over all restarts with larger far bounds and all regularisation steps.
When the problem is reported to be solved, or the maximum to be reached, the number reported is the number made (calls with
crossing limits, which report success for an infeasible problem, excepted). -/
theorem C38_hotstart {sq : K → K} {fuel : Nat} {s : QPC K} {gNew : Nat → K} {lbNew ubNew lbANew ubANew : Option (Nat → K)} {nWSR : Int}
    {c : Option K} {gB gC : QPB.Guess} {o : OutC K} (hn : s.nV ≠ 0) (hb : 0 ≤ nWSR)
    (h : hotstart sq fuel s gNew lbNew ubNew lbANew ubANew nWSR c gB gC = .ok o) :
    o.nWSR ≤ nWSR ∧ ∃ s1, StartsFrom sq s c gB gC s1 ∧ ∃ k : Nat, Recalcs sq k s1 o.s ∧ (k : Int) ≤ nWSR ∧
      (Exact o.rv → o.s.infeasible = false → (k : Int) = o.nWSR) := by
  obtain ⟨s1, hs, ⟨rv, n, e, _⟩ | ⟨s2, b, nv, _, _, hm⟩⟩ := hotstart_cases hn hb h
  · refine ⟨n.le, s1, hs, 0, .none (by rw [e]), hb, fun h => ?_⟩
    rw [rv] at h
    rcases h with h | h <;> cases h
  · obtain ⟨m1, k, m2, m3, m4⟩ := main_budget hb hm
    have base : Recalcs sq 0 s1 s2 := .none b
    refine ⟨m1, s1, hs, 0 + k, base.trans m2, by omega, fun h hc => ?_⟩
    have := m4 h hc
    omega

/-- The auxiliary problem of a cold start with data `s0` is set up in `s1`, where the homotopy starts. -/
def ColdStart (sq : K → K) (s0 : QPC K) (xOpt yOpt : Option (Nat → K)) (gB gC : Option WS) (R : Option (Nat → K)) (nWSR : Int)
    (c : Option K) (s1 : QPC K) : Prop :=
  prepareInitialQP sq { s0 with toQPB := (s0.toQPB.startClock c).2 } xOpt yOpt gB gC R nWSR c = .ok (.ok s1)

/-- All calls of `init`: invalid arguments, failures before the homotopy starts, and results of the homotopy. -/
theorem init_outcome {sq : K → K} {fuel : Nat} {s : QPC K} {H g A lb ub lbA ubA : Option (Nat → K)} {nWSR : Int} {c : Option K}
    {xOpt yOpt : Option (Nat → K)} {gB gC : Option WS} {R : Option (Nat → K)} {o : OutC K}
    (h : init sq fuel s H g A lb ub lbA ubA nWSR c xOpt yOpt gB gC R = .ok o) :
    (o.nWSR = nWSR ∧ ((o.rv = RET_QPOBJECT_NOT_SETUP ∧ s.nV = 0) ∨ o.rv = RET_INVALID_ARGUMENTS ∨ o.rv = RET_NO_CHOLESKY_WITH_INITIAL_GUESS ∨
      o.rv = RET_INIT_FAILED ∨ o.rv = RET_INIT_FAILED_REGULARISATION)) ∨
    ∃ d, d = s.given H g A lb ub lbA ubA ∧ ∃ s1, ColdStart sq d xOpt yOpt gB gC R nWSR c s1 ∧ s1.dims0 = s.dims0 ∧
      s1.status = QPS_AUXILIARYQPSOLVED ∧
      ((if s.status ≠ QPS_NOTINITIALISED then s.reset else s).setupQPdata H g A lb ub lbA ubA).1 = SUCCESSFUL_RETURN ∧ ∃ o1,
      hotstart sq fuel { s1 with toQPB := (s1.toQPB.stopClock c (d.toQPB.startClock c).1).2 } d.g (some d.lb) (some d.ub) (some d.lbA) (some d.ubA)
        nWSR (c.map fun t => t - (s1.toQPB.stopClock c (d.toQPB.startClock c).1).1.getD 0) .null .null = .ok o1 ∧
      o.nWSR = o1.nWSR ∧ (∃ k, o.s = { o1.s with now := k }) ∧
      ((o1.s.infeasible = true ∧ o.rv = RET_INIT_FAILED_INFEASIBILITY) ∨
       (o1.s.infeasible = false ∧ o1.s.unbounded = true ∧ o.rv = RET_INIT_FAILED_UNBOUNDEDNESS) ∨
       (o1.s.infeasible = false ∧ o1.s.unbounded = false ∧ o1.rv ≠ SUCCESSFUL_RETURN ∧ o1.rv ≠ RET_MAX_NWSR_REACHED ∧
         o.rv = RET_INIT_FAILED_HOTSTART) ∨
       (o1.s.infeasible = false ∧ o1.s.unbounded = false ∧ (o1.rv = SUCCESSFUL_RETURN ∨ o1.rv = RET_MAX_NWSR_REACHED) ∧ o.rv = o1.rv)) := by
  unfold init at h
  split at h
  · rename_i hn; cases h; exact Or.inl ⟨rfl, Or.inl ⟨rfl, hn⟩⟩
  · have hd := given_dims s H g A lb ub lbA ubA
    unfold given at hd ⊢
    dsimp only at h
    generalize (if s.status ≠ QPS_NOTINITIALISED then s.reset else s) = s0 at h hd ⊢
    split at h
    · cases h; exact Or.inl ⟨rfl, Or.inr (Or.inl rfl)⟩
    split at h
    · cases h; exact Or.inl ⟨rfl, Or.inr (Or.inl rfl)⟩
    split at h
    · cases h; exact Or.inl ⟨rfl, Or.inr (Or.inl rfl)⟩
    split at h
    · cases h; exact Or.inl ⟨rfl, Or.inr (Or.inr (Or.inl rfl))⟩
    generalize s0.setupQPdata H g A lb ub lbA ubA = p at h hd ⊢
    obtain ⟨r, d⟩ := p
    dsimp only at h hd ⊢
    split at h
    · cases h; exact Or.inl ⟨rfl, Or.inr (Or.inl rfl)⟩
    rename_i hr0
    have hr0 : r = SUCCESSFUL_RETURN := by simpa using hr0
    unfold solveInitialQP at h
    dsimp only at h
    obtain ⟨e, he, h⟩ := Res.bind_eq_ok.1 h
    have hp := prepareInitialQP_setUp he
    obtain ⟨kc, ec⟩ := startClock_fields d c
    have hd' : ({ d with toQPB := (d.toQPB.startClock c).2 } : QPC K).dims0 = s.dims0 := by rw [ec]; exact hd
    cases e with
    | error o' =>
      cases h
      exact Or.inl ⟨hp.1, Or.inr (Or.inr (Or.inr hp.2.1))⟩
    | ok s1 =>
      refine Or.inr ⟨d, rfl, s1, he, (dims0_of hp.1).trans hd', hp.2, hr0, ?_⟩
      dsimp only at h
      obtain ⟨o1, e1, h⟩ := Res.bind_eq_ok.1 h
      refine ⟨o1, e1, ?_⟩
      split at h
      · rename_i hi
        cases h
        exact ⟨rfl, ⟨o1.s.now, rfl⟩, Or.inl ⟨hi, rfl⟩⟩
      · rename_i hi
        have hi : o1.s.infeasible = false := by simpa using hi
        split at h
        · rename_i hu
          cases h
          exact ⟨rfl, ⟨o1.s.now, rfl⟩, Or.inr (Or.inl ⟨hi, hu, rfl⟩)⟩
        · rename_i hu
          have hu : o1.s.unbounded = false := by simpa using hu
          split at h
          · rename_i hr
            cases h
            exact ⟨rfl, ⟨o1.s.now, rfl⟩, Or.inr (Or.inr (Or.inl ⟨hi, hu, hr.1, hr.2, rfl⟩))⟩
          · rename_i hr
            cases h
            obtain ⟨f1, f2, k, f3⟩ := finish_fields o1.s o1.rv o1.nWSR o1.cputime (d.toQPB.startClock c).1
            refine ⟨f2, ⟨k, f3⟩, Or.inr (Or.inr (Or.inr ⟨hi, hu, ?_, f1⟩))⟩
            by_cases h1 : o1.rv = SUCCESSFUL_RETURN
            · exact Or.inl h1
            · exact Or.inr (by_contra fun h2 => hr ⟨h1, h2⟩)

/-- The homotopy of a cold start. -/
theorem cold_main {sq : K → K} {fuel : Nat} {s1 : QPC K} {gNew : Nat → K} {l u lA uA : Option (Nat → K)} {nWSR : Int} {c c' : Option K} {t : K}
    {o1 : OutC K} (hn : s1.nV ≠ 0) (hb : 0 ≤ nWSR)
    (h : hotstart sq fuel { s1 with toQPB := (s1.toQPB.stopClock c t).2 } gNew l u lA uA nWSR c' .null .null = .ok o1) :
    ∃ k, Main sq { s1 with now := k } l u lA uA nWSR o1 := by
  obtain ⟨k, e⟩ := stopClock_fields s1 c t
  rw [e] at h
  obtain ⟨s3, hs3, ⟨_, _, _, hw⟩ | ⟨s4, _, _, e4, _, hm⟩⟩ := hotstart_cases (s := { s1 with now := k }) hn hb h
  · exact absurd ⟨rfl, rfl⟩ hw
  · have hs3 : s3 = { s1 with now := k } := hs3
    rw [e4 ⟨rfl, rfl⟩, hs3] at hm
    exact ⟨k, hm⟩

/-- C38, `init`: no more than the given maximum is reported, and no more recalculations of the working set are made after the
auxiliary problem has been set up; the number reported is exact if the problem is reported to be solved or the maximum to
be reached. -/
theorem C38_init {sq : K → K} {fuel : Nat} {s : QPC K} {H g A lb ub lbA ubA : Option (Nat → K)} {nWSR : Int} {c : Option K}
    {xOpt yOpt : Option (Nat → K)} {gB gC : Option WS} {R : Option (Nat → K)} {o : OutC K} (hb : 0 ≤ nWSR)
    (h : init sq fuel s H g A lb ub lbA ubA nWSR c xOpt yOpt gB gC R = .ok o) :
    o.nWSR ≤ nWSR ∧
    ∀ s1, ColdStart sq (s.given H g A lb ub lbA ubA) xOpt yOpt gB gC R nWSR c s1 →
      (o.rv = SUCCESSFUL_RETURN ∨ o.rv = RET_MAX_NWSR_REACHED ∨ o.rv = RET_INIT_FAILED_INFEASIBILITY ∨
        o.rv = RET_INIT_FAILED_UNBOUNDEDNESS ∨ o.rv = RET_INIT_FAILED_HOTSTART) →
      ∃ k : Nat, Recalcs sq k s1 o.s ∧ (k : Int) ≤ nWSR ∧ (Exact o.rv → (k : Int) = o.nWSR) := by
  rcases init_outcome h with ⟨a, b⟩ | ⟨d, ed, s1, cs, hd, hst, hS, o1, e1, n1, ⟨k1, ek⟩, ho⟩
  · refine ⟨a.le, fun _ _ h => ?_⟩
    rcases b with ⟨b, _⟩ | b | b | b | b <;> rw [b] at h <;> exact absurd h (by decide)
  · subst ed
    by_cases hn : s1.nV = 0
    · exfalso
      unfold init at h
      have hn' : s.nV = 0 := (congrArg Prod.fst hd : s1.nV = s.nV).symm.trans hn
      rw [if_pos hn'] at h
      obtain ⟨k0, e0⟩ := stopClock_fields s1 c ((s.given H g A lb ub lbA ubA).toQPB.startClock c).1
      rw [e0, hotstart_empty (s := { s1 with now := k0 }) hn] at e1
      cases e1
      cases h
      rcases ho with ⟨_, ho⟩ | ⟨_, _, ho⟩ | ⟨_, _, _, _, ho⟩ | ⟨_, _, ho', ho⟩
      · cases ho
      · cases ho
      · cases ho
      · rcases ho' with ho' | ho' <;> cases ho'
    · obtain ⟨k0, hm⟩ := cold_main hn hb e1
      obtain ⟨hle, k, a, b, d⟩ := main_budget hb hm
      refine ⟨n1 ▸ hle, fun s1' cs' _ => ?_⟩
      have : s1' = s1 := by
        unfold ColdStart at cs cs'
        rw [cs] at cs'
        cases cs'; rfl
      subst this
      have base : Recalcs sq 0 s1' { s1' with now := k0 } := .none rfl
      refine ⟨0 + k, (base.trans a).after (by rw [ek]; rfl), by omega, fun h => ?_⟩
      rcases ho with ⟨_, ho⟩ | ⟨_, _, ho⟩ | ⟨_, _, _, _, ho⟩ | ⟨hi, _, ho', ho⟩
      · rw [ho] at h; exact absurd h (by unfold Exact; decide)
      · rw [ho] at h; exact absurd h (by unfold Exact; decide)
      · rw [ho] at h; exact absurd h (by unfold Exact; decide)
      · have := d (by unfold Exact; exact ho') hi
        omega

/-! ### C39 -/

/-- No lower limit exceeds the upper limit. -/
def Ordered (s : QPC K) (lbNew ubNew lbANew ubANew : Option (Nat → K)) : Prop :=
  Props.Ordered s.nV lbNew ubNew ∧ Props.Ordered s.nC lbANew ubANew

theorem Ordered.consistent {s : QPC K} {lbNew ubNew lbANew ubANew : Option (Nat → K)} (h : Ordered s lbNew ubNew lbANew ubANew) :
    s.areBoundsConsistent lbNew ubNew lbANew ubANew = true := by
  unfold areBoundsConsistent
  rw [Props.Ordered.consistent h.1, Bool.true_and]
  have h2 := h.2
  split
  · rename_i l u
    rw [List.all_eq_true]
    intro i hi
    have := h2 l u rfl rfl i (List.mem_range.1 hi)
    have hE : (0 : K) < EPS := EPS_pos'
    simp only [Bool.not_eq_true', decide_eq_false_iff_not, not_lt]
    linarith
  · rfl

/-- C39, the protocol of `hotstart` on an object that may be solved: a call with limits that do not cross either fails before
anything is changed but the factorisation, or return value, status and flags agree in one of the following ways.
Success: the status is `QPS_SOLVED` and neither flag is set.  Maximum reached: neither flag is set.  Infeasible and unbounded: the
respective flag is set and the status is such that the object may be used again.  Any other code: the homotopy has been aborted. -/
theorem C39_protocol {sq : K → K} {fuel : Nat} {s : QPC K} {gNew : Nat → K} {lbNew ubNew lbANew ubANew : Option (Nat → K)} {nWSR : Int}
    {c : Option K} {o : OutC K} (hn : s.nV ≠ 0) (hb : 0 ≤ nWSR) (hi : ¬ Props.NotInitialised s.toQPB) (hc : Ordered s lbNew ubNew lbANew ubANew)
    (h : hotstart sq fuel s gNew lbNew ubNew lbANew ubANew nWSR c .null .null = .ok o) :
    ((o.rv = RET_INIT_FAILED_REGULARISATION ∨ o.rv = RET_INIT_FAILED_CHOLESKY) ∧ o.s.status = s.status ∧ o.nWSR = nWSR) ∨
    (o.rv = SUCCESSFUL_RETURN ∧ o.s.status = QPS_SOLVED ∧ o.s.infeasible = false ∧ o.s.unbounded = false) ∨
    (o.rv = RET_MAX_NWSR_REACHED ∧ o.s.infeasible = false ∧ o.s.unbounded = false ∧
      (o.s.status = QPS_HOMOTOPYQPSOLVED ∨ o.s.status = QPS_PERFORMINGHOMOTOPY)) ∨
    (o.rv = RET_HOTSTART_STOPPED_INFEASIBILITY ∧ o.s.status = QPS_HOMOTOPYQPSOLVED ∧ o.s.infeasible = true ∧ o.s.unbounded = false) ∨
    (o.rv = RET_HOTSTART_STOPPED_UNBOUNDEDNESS ∧ o.s.status = QPS_HOMOTOPYQPSOLVED ∧ o.s.infeasible = false ∧ o.s.unbounded = true) ∨
    (o.rv ≠ SUCCESSFUL_RETURN ∧ o.rv ≠ RET_MAX_NWSR_REACHED ∧ o.rv ≠ RET_HOTSTART_FAILED_AS_QP_NOT_INITIALISED ∧
      o.s.status = QPS_PERFORMINGHOMOTOPY) := by
  obtain ⟨s1, h1, ⟨_, _, _, hw⟩ | ⟨s2, _, _, e2, _, hm⟩⟩ := hotstart_cases hn hb h
  · exact absurd ⟨rfl, rfl⟩ hw
  have h1 : s1 = s := h1
  have e2 := e2 ⟨rfl, rfl⟩
  subst e2; subst h1
  cases hm with
  | inconsistent h => rw [hc.consistent] at h; cases h
  | setupFailed _ rv n k => exact Or.inl ⟨rv, k.status, n⟩
  | refused _ hr => exact absurd hr hi
  | solved _ _ s1 k S =>
    refine Or.inr ?_
    cases S.outcome with
    | solved a b c d => exact Or.inl ⟨a, b, c, d⟩
    | limit a b c d => exact Or.inr (Or.inl ⟨a, c, d, b⟩)
    | infeasible a b c d => exact Or.inr (Or.inr (Or.inl ⟨a, b, c, d⟩))
    | unbounded a b c d => exact Or.inr (Or.inr (Or.inr (Or.inl ⟨a, b, c, d⟩)))
    | failed a b c => exact Or.inr (Or.inr (Or.inr (Or.inr ⟨b, a.1, a.2, c⟩)))

/-- C39, success: whatever the state of the object and the guesses, `hotstart` with limits that do not cross reports success
only if the object is left in the state `QPS_SOLVED` with neither flag set. -/
theorem C39_success_partial {sq : K → K} {fuel : Nat} {s : QPC K} {gNew : Nat → K} {lbNew ubNew lbANew ubANew : Option (Nat → K)} {nWSR : Int}
    {c : Option K} {gB gC : QPB.Guess} {o : OutC K} (hb : 0 ≤ nWSR) (h : hotstart sq fuel s gNew lbNew ubNew lbANew ubANew nWSR c gB gC = .ok o)
    (hc : Ordered s lbNew ubNew lbANew ubANew) (hs : o.rv = SUCCESSFUL_RETURN) :
    o.s.status = QPS_SOLVED ∧ o.s.infeasible = false ∧ o.s.unbounded = false := by
  by_cases hn : s.nV = 0
  · rw [hotstart_empty hn] at h
    cases h
    cases hs
  obtain ⟨s1, h1, ⟨rv, _⟩ | ⟨s2, _, h2, _, _, hm⟩⟩ := hotstart_cases hn hb h
  · rw [hs] at rv; cases rv
  · have hd : s2.dims = s.dims := h2.trans h1.dims
    have hd1 : s2.nV = s.nV := congrArg Prod.fst hd
    have hd2 : s2.nC = s.nC := congrArg (fun p => p.2.1) hd
    cases hm with
    | inconsistent h rv n e =>
      rw [Ordered.consistent (by unfold Ordered; rw [hd1, hd2]; exact hc)] at h
      cases h
    | setupFailed _ rv =>
      rcases rv with rv | rv <;> rw [hs] at rv <;> cases rv
    | refused _ _ rv =>
      rcases rv with rv | ⟨rv, _⟩ <;> rw [hs] at rv <;> cases rv
    | solved _ _ _ _ S => exact S.outcome.success hs

/-- C39: `hotstart` without a guess never succeeds on an object that is not initialised, and leaves it uninitialised. -/
theorem C39_no_success_partial {sq : K → K} {fuel : Nat} {s : QPC K} {gNew : Nat → K} {lbNew ubNew lbANew ubANew : Option (Nat → K)} {nWSR : Int}
    {c : Option K} {o : OutC K} (hn : s.nV ≠ 0) (hb : 0 ≤ nWSR) (hu : Props.NotInitialised s.toQPB) (hc : Ordered s lbNew ubNew lbANew ubANew)
    (h : hotstart sq fuel s gNew lbNew ubNew lbANew ubANew nWSR c .null .null = .ok o) :
    (o.rv = RET_HOTSTART_FAILED_AS_QP_NOT_INITIALISED ∨ o.rv = RET_INIT_FAILED_REGULARISATION ∨ o.rv = RET_INIT_FAILED_CHOLESKY ∨
      (o.rv = RET_HOTSTART_STOPPED_INFEASIBILITY ∧ s.infeasible = true)) ∧ o.nWSR = nWSR ∧ Props.NotInitialised o.s.toQPB ∧
      o.s.active = s.active := by
  obtain ⟨s1, h1, ⟨_, _, _, hw⟩ | ⟨s2, _, h2, e2, _, hm⟩⟩ := hotstart_cases hn hb h
  · exact absurd ⟨rfl, rfl⟩ hw
  have h1 : s1 = s := h1
  have e2 := e2 ⟨rfl, rfl⟩
  subst e2; subst h1
  unfold Props.NotInitialised at hu ⊢
  cases hm with
  | inconsistent h rv n e => rw [hc.consistent] at h; cases h
  | setupFailed _ rv n k =>
    rw [k.status]
    exact ⟨by rcases rv with rv | rv <;> simp [rv], n, hu, k.active⟩
  | refused _ _ rv n k =>
    rw [k.status]
    refine ⟨?_, n, hu, k.active⟩
    rcases rv with rv | rv
    · exact Or.inl rv
    · exact Or.inr (Or.inr (Or.inr rv))
  | solved _ hr => exact absurd hu hr

/-- The factorisation needed by `hotstart` exists, or it is trivial as in a freshly constructed object. -/
def FactorReady (s : QPC K) : Prop :=
  s.haveCholesky = true ∨
    (s.hessianType ≠ HST_ZERO ∧ s.bounds.nFR = 0 ∧ s.bounds.nFX = 0 ∧ s.cons.nFX = 0 ∧ s.options.enableRegularisation = false)

theorem setupInitialCholesky_trivial {sq : K → K} {s : QPC K} (h1 : s.hessianType ≠ HST_ZERO) (h2 : s.bounds.nFR = 0)
    (h2' : s.bounds.nFX = 0) (h2'' : s.cons.nFX = 0) (h3 : s.options.enableRegularisation = false) :
    ∃ R, setupInitialCholesky sq s = .ok (SUCCESSFUL_RETURN, { s with R := R, haveCholesky := true }) := by
  have hc : ∃ R, QPB.computeCholesky sq s.toQPB = .ok (SUCCESSFUL_RETURN, { s.toQPB with R := R }) := by
    unfold QPB.computeCholesky
    dsimp only
    split
    · exact absurd (by assumption) h1
    · exact ⟨_, rfl⟩
    · rw [h2]; exact ⟨_, rfl⟩
  obtain ⟨R, e⟩ := hc
  refine ⟨R, ?_⟩
  have hp : computeProjectedCholesky sq s = .ok (SUCCESSFUL_RETURN, { s with R := R }) := by
    unfold computeProjectedCholesky nFX nAC
    rw [if_pos (by rw [h2', h2'']), e, Res.bind_ok]
  unfold setupInitialCholesky
  rw [if_neg (by rw [h3]; simp), Res.bind_ok]
  dsimp only
  rw [if_neg (by simp), hp, Res.bind_ok]
  rfl

theorem farC_ok (s : QPC K) (cur : K) (lbANew ubANew : Option (Nat → K)) (hn : s.options.enableRamping = true → 2 ≤ s.nV + s.nC) :
    ∀ (m i : Nat) (lf uf : Nat → K), ∃ p, farC s cur lbANew ubANew m i lf uf = .ok p := by
  intro m
  induction m with
  | zero => intro i lf uf; exact ⟨_, rfl⟩
  | succ m ih =>
    intro i lf uf
    obtain ⟨v, _, e⟩ := QPB.farVal_spec s.toQPB cur (s.nV + i) hn
    unfold farC
    rw [e, Res.bind_ok]
    exact ih _ _ _

theorem updateFarBounds_ok (s : QPC K) (cur : K) (lbNew ubNew lbANew ubANew : Option (Nat → K)) (f : Far K)
    (hn : s.options.enableRamping = true → 2 ≤ s.nV + s.nC) : ∃ f', updateFarBounds s cur lbNew ubNew lbANew ubANew f = .ok f' := by
  obtain ⟨lf, uf, e, _⟩ := QPB.updateFarBounds_spec s.toQPB cur hn lbNew ubNew s.nV 0 f.lb f.ub
  obtain ⟨⟨lA, uA⟩, e2⟩ := farC_ok s cur lbANew ubANew hn s.nC 0 f.lbA f.ubA
  unfold updateFarBounds
  rw [e, Res.bind_ok]
  dsimp only
  rw [e2, Res.bind_ok]
  exact ⟨_, rfl⟩

/-- C39: `hotstart` on an object that is not initialised is refused, and changes neither data nor solution: no guess is
given, the limits do not cross, and the factorisation is not an obstacle. -/
theorem C39_refused_partial (sq : K → K) (fuel : Nat) {s : QPC K} (gNew : Nat → K) {lbNew ubNew lbANew ubANew : Option (Nat → K)} (nWSR : Int)
    (c : Option K) (hn : s.nV ≠ 0) (hu : Props.NotInitialised s.toQPB) (hc : Ordered s lbNew ubNew lbANew ubANew) (hf : FactorReady s)
    (hi : s.infeasible = false) (hr : s.options.enableFarBounds = true → s.options.enableRamping = true → 2 ≤ s.nV + s.nC) :
    ∃ o, hotstart sq (fuel + 1) s gNew lbNew ubNew lbANew ubANew nWSR c .null .null = .ok o ∧
      o.rv = RET_HOTSTART_FAILED_AS_QP_NOT_INITIALISED ∧
      o.nWSR = nWSR ∧ ∃ R b, o.s = { s with count := s.count + 1, R := R, haveCholesky := b } := by
  have goal2 : ∀ s1 : QPC K, (∃ R b, s1 = { s with count := s.count + 1, R := R, haveCholesky := b }) →
      ∃ o, (if s1.options.enableFarBounds = false then
          solveRegularisedQP sq s1 gNew lbNew ubNew lbANew ubANew nWSR c 0
        else do
          let f ← updateFarBounds s1 (s1.initialFar lbNew ubNew lbANew ubANew) lbNew ubNew lbANew ubANew
            ⟨fun _ => 0, fun _ => 0, fun _ => 0, fun _ => 0⟩
          let (o, needed) ← farLoop sq gNew lbNew ubNew lbANew ubANew nWSR c (fuel + 1) s1 (s1.initialFar lbNew ubNew lbANew ubANew) f 0 0 INFTY
          .ok { o with cputime := c.map fun _ => needed + 0 }) = .ok o ∧ o.rv = RET_HOTSTART_FAILED_AS_QP_NOT_INITIALISED ∧
      o.nWSR = nWSR ∧ o.s = s1 := by
    rintro s1 ⟨R, b, e1⟩
    have hu1 : QPB.NotReady s1.toQPB := by rw [e1]; exact hu
    have hi1 : s1.infeasible = false := by rw [e1]; exact hi
    have hns : s1.status ≠ QPS_SOLVED := fun h => QPB.ready_of_solved h hu1
    split
    · obtain ⟨c', e⟩ := solveRegularisedQP_notReady hu1 sq gNew lbNew ubNew lbANew ubANew nWSR c 0
      exact ⟨_, e, rfl, rfl, rfl⟩
    · rename_i hfar
      have hfar : s1.options.enableFarBounds = true := by simpa using hfar
      obtain ⟨f, e⟩ := updateFarBounds_ok s1 (s1.initialFar lbNew ubNew lbANew ubANew) lbNew ubNew lbANew ubANew
        ⟨fun _ => 0, fun _ => 0, fun _ => 0, fun _ => 0⟩ (fun h => by rw [e1] at h hfar ⊢; exact hr hfar h)
      rw [e, Res.bind_ok]
      obtain ⟨c', e⟩ := solveRegularisedQP_notReady hu1 sq gNew (some f.lb) (some f.ub) (some f.lbA) (some f.ubA) nWSR (c.map fun c => c - 0) 0
      unfold farLoop
      rw [e]
      simp only [Res.bind_ok, hi1, Bool.false_eq_true, if_false, hns]
      exact ⟨_, rfl, rfl, rfl, rfl⟩
  have fin : ∀ s1 : QPC K, (∃ R b, s1 = { s with count := s.count + 1, R := R, haveCholesky := b }) → ∀ r : Res (OutC K),
      (∃ o, r = .ok o ∧ o.rv = RET_HOTSTART_FAILED_AS_QP_NOT_INITIALISED ∧ o.nWSR = nWSR ∧ o.s = s1) →
      ∃ o, r = .ok o ∧ o.rv = RET_HOTSTART_FAILED_AS_QP_NOT_INITIALISED ∧
      o.nWSR = nWSR ∧ ∃ R b, o.s = { s with count := s.count + 1, R := R, haveCholesky := b } := by
    rintro s1 ⟨R, b, e1⟩ r ⟨o, e, a1, a2, a3⟩
    exact ⟨o, e, a1, a2, R, b, by rw [a3, e1]⟩
  unfold hotstart
  rw [if_neg hn]
  dsimp only
  unfold hotstartMain
  rw [if_neg (by rw [hc.consistent]; decide)]
  dsimp only
  by_cases hC : s.haveCholesky = true
  · rw [if_neg (by rw [hC]; decide)]
    have hs : ∃ R b, ({ s with count := s.count + 1 } : QPC K) = { s with count := s.count + 1, R := R, haveCholesky := b } :=
      ⟨s.R, s.haveCholesky, rfl⟩
    exact fin _ hs _ (goal2 { s with count := s.count + 1 } hs)
  · have hC' : s.haveCholesky = false := by simpa using hC
    rw [if_pos hC']
    obtain ⟨f1, f2, f3, f4, f5⟩ := hf.resolve_left hC
    obtain ⟨R, e⟩ := setupInitialCholesky_trivial (sq := sq) (s := { s with count := s.count + 1 }) f1 f2 f3 f4 f5
    rw [e]
    have hs : ∃ R' b, ({ s with count := s.count + 1, R := R, haveCholesky := true } : QPC K) =
      { s with count := s.count + 1, R := R', haveCholesky := b } := ⟨R, true, rfl⟩
    exact fin _ hs _ (goal2 _ hs)

/-- C39, success of `init`, without assumptions. -/
theorem C39_init_success {sq : K → K} {fuel : Nat} {s : QPC K} {H g A lb ub lbA ubA : Option (Nat → K)} {nWSR : Int} {c : Option K}
    {xOpt yOpt : Option (Nat → K)} {gB gC : Option WS} {R : Option (Nat → K)} {o : OutC K} (hb : 0 ≤ nWSR)
    (h : init sq fuel s H g A lb ub lbA ubA nWSR c xOpt yOpt gB gC R = .ok o) (hs : o.rv = SUCCESSFUL_RETURN) :
    o.s.status = QPS_SOLVED ∧ o.s.infeasible = false ∧ o.s.unbounded = false := by
  rcases init_outcome h with ⟨a, b⟩ | ⟨d, ed, s1, cs, hd, hst, hS, o1, e1, n1, ⟨k1, ek⟩, ho⟩
  · rcases b with ⟨b, _⟩ | b | b | b | b <;> rw [b] at hs <;> cases hs
  · rcases ho with ⟨_, ho⟩ | ⟨_, _, ho⟩ | ⟨_, _, _, _, ho⟩ | ⟨hi, hub, ho', ho⟩
    · rw [ho] at hs; cases hs
    · rw [ho] at hs; cases hs
    · rw [ho] at hs; cases hs
    · rw [ek]
      refine ⟨?_, hi, hub⟩
      show o1.s.status = _
      by_cases hn : s1.nV = 0
      · obtain ⟨k0, e0⟩ := stopClock_fields s1 c (d.toQPB.startClock c).1
        rw [e0, hotstart_empty (s := { s1 with now := k0 }) hn] at e1
        cases e1
        rcases ho' with ho' | ho' <;> cases ho'
      · obtain ⟨k0, hm⟩ := cold_main hn hb e1
        cases hm with
        | inconsistent _ _ _ e => rw [e] at hi; cases hi
        | setupFailed _ rv => rcases rv with rv | rv <;> rw [← ho, hs] at rv <;> cases rv
        | refused _ _ rv => rcases rv with rv | ⟨rv, _⟩ <;> rw [← ho, hs] at rv <;> cases rv
        | solved _ _ _ _ S => exact (S.outcome.success (ho ▸ hs)).1

/-- C39, aborted homotopies: a code that is none of those for refused, solved, stopped, infeasible and unbounded problems leaves the
object uninitialised, if the homotopy has been started. -/
theorem C39_aborted {sq : K → K} {fuel : Nat} {s : QPC K} {gNew : Nat → K} {lbNew ubNew lbANew ubANew : Option (Nat → K)} {nWSR : Int}
    {c : Option K} {gB gC : QPB.Guess} {o : OutC K} (hb : 0 ≤ nWSR) (h : hotstart sq fuel s gNew lbNew ubNew lbANew ubANew nWSR c gB gC = .ok o)
    (hf : o.rv = RET_STEPDIRECTION_FAILED_CHOLESKY ∨ o.rv = RET_STEPDIRECTION_FAILED_TQ ∨ o.rv = RET_REMOVE_FROM_ACTIVESET_FAILED ∨
      o.rv = RET_ADD_TO_ACTIVESET_FAILED ∨ o.rv = RET_HESSIAN_NOT_SPD ∨ o.rv = RET_CHOLESKY_OF_ZERO_HESSIAN) :
    Props.NotInitialised o.s.toQPB := by
  by_cases hn : s.nV = 0
  · rw [hotstart_empty hn] at h
    cases h
    rcases hf with hf | hf | hf | hf | hf | hf <;> cases hf
  obtain ⟨s1, _, ⟨rv, _⟩ | ⟨s2, _, _, _, _, hm⟩⟩ := hotstart_cases hn hb h
  · rw [rv] at hf; exact absurd hf (by decide)
  · cases hm with
    | inconsistent _ rv => rw [rv] at hf; exact absurd hf (by decide)
    | setupFailed _ rv => rcases rv with rv | rv <;> rw [rv] at hf <;> exact absurd hf (by decide)
    | refused _ _ rv => rcases rv with rv | ⟨rv, _⟩ <;> rw [rv] at hf <;> exact absurd hf (by decide)
    | solved _ _ _ _ S =>
      cases S.outcome with
      | solved a => rw [a] at hf; exact absurd hf (by decide)
      | limit a => rw [a] at hf; exact absurd hf (by decide)
      | infeasible a => rw [a] at hf; exact absurd hf (by decide)
      | unbounded a => rw [a] at hf; exact absurd hf (by decide)
      | failed _ _ a => exact Or.inr (Or.inr a)

/-! ### C41 -/

/-- Some lower limit of a variable or of a constraint exceeds the upper limit, by more than the tolerance `EPS` of the solver. -/
def Crossing (s : QPC K) (l u lA uA : Nat → K) : Prop := Props.Crossing s.nV l u ∨ Props.Crossing s.nC lA uA

theorem Crossing.inconsistent {s : QPC K} {l u lA uA : Nat → K} (h : Crossing s l u lA uA) :
    s.areBoundsConsistent (some l) (some u) (some lA) (some uA) = false := by
  unfold areBoundsConsistent
  rcases h with h | ⟨i, hi, h⟩
  · rw [Props.Crossing.inconsistent h, Bool.false_and]
  · have : ((List.range s.nC).all fun i => !decide (lA i > uA i + EPS)) = false := by
      rw [List.all_eq_false]
      exact ⟨i, List.mem_range.2 hi, by simpa using h⟩
    dsimp only
    rw [this, Bool.and_false]

/-- The limits stored by a successful `setupQPdata`. -/
theorem setupQPdata_limits {s d : QPC K} {H g A : Option (Nat → K)} {l u lA uA : Nat → K}
    (h : s.setupQPdata H g A (some l) (some u) (some lA) (some uA) = (SUCCESSFUL_RETURN, d)) :
    d.lb = l ∧ d.ub = u ∧ (s.nC ≠ 0 → d.lbA = lA ∧ d.ubA = uA) := by
  cases g with
  | none =>
    unfold setupQPdata QPB.setupQPdata at h
    dsimp only at h
    rw [if_pos (by decide)] at h
    cases h
  | some g =>
    have eS : s.toQPB.setupQPdata H (some g) (some l) (some u) =
      (SUCCESSFUL_RETURN, { s.toQPB.setH H with g := g, lb := l, ub := u }) := rfl
    unfold setupQPdata at h
    rw [eS] at h
    dsimp only at h
    rw [if_neg (by simp)] at h
    split at h
    · rename_i hn
      cases h
      exact ⟨rfl, rfl, fun h => absurd hn h⟩
    · cases A with
      | none => cases h
      | some A =>
        cases h
        exact ⟨rfl, rfl, fun _ => ⟨rfl, rfl⟩⟩

/-- C41, `init`: limits that cross, of variables or of constraints, are never accepted.  The homotopy is not started: either the
call has failed before, or it reports infeasibility and the object says so. -/
theorem C41_init_partial {sq : K → K} {fuel : Nat} {s : QPC K} {H g A : Option (Nat → K)} {l u lA uA : Nat → K} {nWSR : Int} {c : Option K}
    {xOpt yOpt : Option (Nat → K)} {gB gC : Option WS} {R : Option (Nat → K)} {o : OutC K} (hn : s.nV ≠ 0) (hb : 0 ≤ nWSR)
    (h : init sq fuel s H g A (some l) (some u) (some lA) (some uA) nWSR c xOpt yOpt gB gC R = .ok o) (hx : Crossing s l u lA uA) :
    o.nWSR = nWSR ∧
    ((o.rv = RET_INVALID_ARGUMENTS ∨ o.rv = RET_NO_CHOLESKY_WITH_INITIAL_GUESS ∨ o.rv = RET_INIT_FAILED ∨
        o.rv = RET_INIT_FAILED_REGULARISATION) ∨
      (o.rv = RET_INIT_FAILED_INFEASIBILITY ∧ o.s.infeasible = true)) := by
  rcases init_outcome h with ⟨a, b⟩ | ⟨d, ed, s1, cs, hd, hst, hS, o1, e1, n1, ⟨k1, ek⟩, ho⟩
  · refine ⟨a, Or.inl ?_⟩
    rcases b with ⟨_, b⟩ | b
    · exact absurd b hn
    · exact b
  · have hdl := given_dims s H g A (some l) (some u) (some lA) (some uA)
    rw [← ed] at hdl
    have hdd : (if s.status ≠ QPS_NOTINITIALISED then s.reset else s).setupQPdata H g A (some l) (some u) (some lA) (some uA) =
        (SUCCESSFUL_RETURN, d) := Prod.ext hS (by rw [ed]; rfl)
    obtain ⟨l1, l2, l3⟩ := setupQPdata_limits hdd
    have hm1 : s1.nV = s.nV := congrArg Prod.fst hd
    have hm2 : s1.nC = s.nC := congrArg (fun p => p.2.1) hd
    obtain ⟨k0, hm⟩ := cold_main (by rw [hm1]; exact hn) hb e1
    have hnC : (if s.status ≠ QPS_NOTINITIALISED then s.reset else s).nC = s.nC := by split <;> rfl
    have hx' : Crossing ({ s1 with now := k0 } : QPC K) d.lb d.ub d.lbA d.ubA := by
      rcases hx with hx | hx
      · refine Or.inl ?_
        show Props.Crossing s1.nV _ _
        rw [l1, l2, hm1]; exact hx
      · obtain ⟨i, hi, _⟩ := id hx
        obtain ⟨l4, l5⟩ := l3 (by rw [hnC]; omega)
        refine Or.inr ?_
        show Props.Crossing s1.nC _ _
        rw [l4, l5, hm2]; exact hx
    have hf := hx'.inconsistent
    cases hm with
    | inconsistent _ rv n e =>
      have hi : o1.s.infeasible = true := by rw [e]
      rcases ho with ⟨_, ho⟩ | ⟨ho, _⟩ | ⟨ho, _⟩ | ⟨ho, _⟩
      · exact ⟨n1.trans n, Or.inr ⟨ho, by rw [ek]; exact hi⟩⟩
      · rw [hi] at ho; cases ho
      · rw [hi] at ho; cases ho
      · rw [hi] at ho; cases ho
    | setupFailed h => rw [hf] at h; cases h
    | refused h => rw [hf] at h; cases h
    | solved h => rw [hf] at h; cases h

/-! ### C44 -/

/-- Without limit on the time, the main loop stops only when the budget is used up. -/
theorem solveQP_unlimited {sq : K → K} {s : QPC K} {gNew : Nat → K} {lbNew ubNew lbANew ubANew : Option (Nat → K)} {nWSR p : Int}
    {o : OutC K} (hp : p ≤ nWSR) (h : solveQP sq s gNew lbNew ubNew lbANew ubANew nWSR none p = .ok o) (hm : o.rv = RET_MAX_NWSR_REACHED) :
    o.nWSR = nWSR := by
  unfold solveQP at h
  split at h
  · cases h; rfl
  · dsimp only at h
    obtain ⟨⟨r, s1⟩, e1, h⟩ := Res.bind_eq_ok.1 h
    dsimp only at h
    split at h
    · cases h; rfl
    · have T := (solveLoop_timed sq gNew lbNew ubNew lbANew ubANew nWSR p none s1.clk 0 _ (fun h => by cases h) (nWSR - p).toNat 0
        { s1 with infeasible := false, unbounded := false } o rfl rfl (by push_cast; omega) rfl (fun h => by cases h)
        (by simpa using h)).2 hm
      obtain ⟨n, _, _, T | ⟨_, T⟩⟩ := T
      · exact T
      · exact absurd (fun c h => by cases h) T

theorem regSteps_unlimited (sq : K → K) (gNew : Nat → K) (lbNew ubNew lbANew ubANew : Option (Nat → K)) (nWSR p : Int) (s : QPC K) :
    ∀ (m : Nat) (o : OutC K) (total : K) (o' : OutC K), Solve sq s p nWSR o →
      regSteps sq gNew lbNew ubNew lbANew ubANew nWSR none m o total = .ok o' → o'.rv = RET_MAX_NWSR_REACHED → o.rv = SUCCESSFUL_RETURN →
      o'.nWSR = nWSR := by
  intro m
  induction m with
  | zero => intro o total o' _ h hm; cases h; cases hm
  | succ m ih =>
    intro o total o' hS h hm hs
    obtain ⟨o1, e1, h⟩ := Res.bind_eq_ok.1 h
    dsimp only at h
    have hr : ¬ QPB.NotReady o.s.toQPB := QPB.ready_of_solved (hS.outcome.success hs).1
    have S1 := (solveQP_cases hr hS.upper e1).1
    have u1 := fun hm => solveQP_unlimited hS.upper (by exact e1) hm
    split at h
    · cases h
      exact u1 hm
    · rename_i hs1
      exact ih o1 _ o' (hS.trans (by rw [(hS.outcome.success hs).1]; decide) rfl rfl S1) h hm (by simpa using hs1)

theorem solveRegularisedQP_unlimited {sq : K → K} {s : QPC K} {gNew : Nat → K} {lbNew ubNew lbANew ubANew : Option (Nat → K)} {nWSR p : Int}
    {o : OutC K} (hr : ¬ QPB.NotReady s.toQPB) (hp : p ≤ nWSR) (h : solveRegularisedQP sq s gNew lbNew ubNew lbANew ubANew nWSR none p = .ok o)
    (hm : o.rv = RET_MAX_NWSR_REACHED) : o.nWSR = nWSR := by
  unfold solveRegularisedQP at h
  split at h
  · exact solveQP_unlimited hp h hm
  · obtain ⟨o1, e1, h⟩ := Res.bind_eq_ok.1 h
    have u1 := solveQP_unlimited hp e1
    dsimp only at h
    split at h
    · cases h
      exact u1 hm
    · rename_i hs
      exact regSteps_unlimited sq gNew lbNew ubNew lbANew ubANew nWSR p s _ _ _ _ (solveQP_cases hr hp e1).1 h hm (by simpa using hs)

theorem farLoop_unlimited (sq : K → K) (gNew : Nat → K) (lbNew ubNew lbANew ubANew : Option (Nat → K)) (nWSR : Int) :
    ∀ (fuel : Nat) (s : QPC K) (far : K) (f : Far K) (p : Int) (needed remaining : K) (o : OutC K) (n : K),
      ¬ QPB.NotReady s.toQPB → p ≤ nWSR → farLoop sq gNew lbNew ubNew lbANew ubANew nWSR none fuel s far f p needed remaining = .ok (o, n) →
      o.rv = RET_MAX_NWSR_REACHED → o.nWSR = nWSR := by
  intro fuel
  induction fuel with
  | zero => intro s far f p needed remaining o n _ _ h; cases h
  | succ fuel ih =>
    intro s far f p needed remaining o n hr hp h hm
    unfold farLoop at h
    obtain ⟨o1, e1, h⟩ := Res.bind_eq_ok.1 h
    have h1 := solveRegularisedQP_cases hr hp e1
    dsimp only at h
    split at h
    · split at h
      · cases h; cases hm
      · obtain ⟨f', _, h⟩ := Res.bind_eq_ok.1 h
        by_cases hr1 : QPB.NotReady o1.s.toQPB
        · obtain ⟨b1, _⟩ := farLoop_refused _ _ _ _ _ _ _ _ _ _ _ _ _ _ _ _ _ (by exact hr1) h
          rcases b1 with ⟨b1, _⟩ | ⟨b1, _⟩ <;> rw [b1] at hm <;> cases hm
        · exact ih _ _ _ _ _ _ _ _ (by exact hr1) h1.upper h hm
    · split at h
      · obtain ⟨q, _, h⟩ := Res.bind_eq_ok.1 h
        split at h
        · cases h
          exact solveRegularisedQP_unlimited hr hp e1 hm
        · split at h
          · cases h; cases hm
          · obtain ⟨f', _, h⟩ := Res.bind_eq_ok.1 h
            exact ih _ _ _ _ _ _ _ _ (by unfold QPB.NotReady; simp) h1.upper h hm
      · cases h
        exact solveRegularisedQP_unlimited hr hp e1 hm

/-- C44, calls without limit on the CPU time, whatever the options, the guesses and the state of the object: `hotstart` says that
the maximum is reached only if the number of recalculations reported is the maximum given.  (The solver for bounds does not
have this property, see `C44_far_violated`.) -/
theorem C44_unlimited {sq : K → K} {fuel : Nat} {s : QPC K} {gNew : Nat → K} {lbNew ubNew lbANew ubANew : Option (Nat → K)} {nWSR : Int}
    {gB gC : QPB.Guess} {o : OutC K} (hb : 0 ≤ nWSR) (h : hotstart sq fuel s gNew lbNew ubNew lbANew ubANew nWSR none gB gC = .ok o)
    (hm : o.rv = RET_MAX_NWSR_REACHED) : o.nWSR = nWSR := by
  have main : ∀ (s : QPC K) (a : K) (o : OutC K), hotstartMain sq fuel s gNew lbNew ubNew lbANew ubANew nWSR none a = .ok o →
      o.rv = RET_MAX_NWSR_REACHED → o.nWSR = nWSR := by
    intro s a o h hm
    have goal2 : ∀ (r : ReturnValue) (s1 : QPC K),
        (if r ≠ SUCCESSFUL_RETURN then Res.ok (⟨r, nWSR, none, s1⟩ : OutC K)
        else if s1.options.enableFarBounds = false then
          solveRegularisedQP sq s1 gNew lbNew ubNew lbANew ubANew nWSR none 0
        else do
          let farbound := s1.initialFar lbNew ubNew lbANew ubANew
          let f ← updateFarBounds s1 farbound lbNew ubNew lbANew ubANew ⟨fun _ => 0, fun _ => 0, fun _ => 0, fun _ => 0⟩
          let (o, needed) ← farLoop sq gNew lbNew ubNew lbANew ubANew nWSR none fuel s1 farbound f 0 0 INFTY
          .ok { o with cputime := (none : Option K).map fun _ => needed + a }) = .ok o → o.nWSR = nWSR := by
      intro r s1 h
      split at h
      · cases h; rfl
      · by_cases hr1 : QPB.NotReady s1.toQPB
        · split at h
          · obtain ⟨c', e⟩ := solveRegularisedQP_notReady hr1 sq gNew lbNew ubNew lbANew ubANew nWSR none 0
            rw [e] at h
            cases h
            rfl
          · dsimp only at h
            obtain ⟨f, _, h⟩ := Res.bind_eq_ok.1 h
            obtain ⟨⟨o1, n⟩, e1, h⟩ := Res.bind_eq_ok.1 h
            have u1 := (farLoop_refused _ _ _ _ _ _ _ _ _ _ _ _ _ _ _ _ _ hr1 e1).2.1
            cases h
            exact u1
        · split at h
          · exact solveRegularisedQP_unlimited hr1 hb h hm
          · dsimp only at h
            obtain ⟨f, _, h⟩ := Res.bind_eq_ok.1 h
            obtain ⟨⟨o1, n⟩, e1, h⟩ := Res.bind_eq_ok.1 h
            have u1 := farLoop_unlimited _ _ _ _ _ _ _ _ _ _ _ _ _ _ _ _ hr1 hb e1
            cases h
            exact u1 hm
    unfold hotstartMain at h
    split at h
    · cases h; rfl
    · dsimp only at h
      split at h
      · obtain ⟨⟨r1, s1⟩, _, h⟩ := Res.bind_eq_ok.1 h
        exact goal2 r1 s1 h
      · exact goal2 SUCCESSFUL_RETURN { s with count := s.count + 1 } h
  by_cases hn : s.nV = 0
  · rw [hotstart_empty hn] at h
    cases h; rfl
  have key : ∀ gB gC : QPB.Guess, (do
      let p := s.toQPB.startClock none
      let (r, s) ← setupAuxiliaryQP sq { s with toQPB := p.2 } gB.toOption gC.toOption
      if r ≠ SUCCESSFUL_RETURN then Res.ok (⟨RET_SETUP_AUXILIARYQP_FAILED, nWSR, none, s⟩ : OutC K) else
      let s := { s with status := QPS_AUXILIARYQPSOLVED }
      let q := s.toQPB.stopClock none p.1
      let auxTime := q.1.getD 0
      hotstartMain sq fuel { s with toQPB := q.2 } gNew lbNew ubNew lbANew ubANew nWSR ((none : Option K).map fun c => c - auxTime) auxTime) = .ok o →
      o.nWSR = nWSR := by
    intro gB gC h
    dsimp only at h
    obtain ⟨⟨r, s1⟩, e1, h⟩ := Res.bind_eq_ok.1 h
    dsimp only at h
    split at h
    · cases h; rfl
    · exact main _ _ _ h hm
  unfold hotstart at h
  rw [if_neg hn] at h
  cases gB with
  | null =>
    cases gC with
    | null => exact main _ _ _ h hm
    | self => exact key .null .self h
    | other w => exact key .null (.other w) h
  | self => exact key .self gC h
  | other w => exact key (.other w) gC h

/-- C44, `hotstart` with a limit, without far bounds, regularisation and guess: let `k` be the number of the reading of the clock at
the start.  If the problem is solved, all predictions were within the limit.  If the maximum is said to be reached and `n`
recalculations are reported, then either `n` is the maximum given, or there is a limit, the prediction after `n ≥ 1`
iterations exceeds it, and all earlier predictions were within it. -/
theorem C44_hotstart_partial {sq : K → K} {fuel : Nat} {s : QPC K} {gNew : Nat → K} {lbNew ubNew lbANew ubANew : Option (Nat → K)} {nWSR : Int}
    {c : Option K} {o : OutC K} (hn : s.nV ≠ 0) (hb : 0 ≤ nWSR) (hu : ¬ Props.NotInitialised s.toQPB) (hc : Ordered s lbNew ubNew lbANew ubANew)
    (hC : s.haveCholesky = true) (hfar : s.options.enableFarBounds = false) (hreg : s.usingRegularisation = false)
    (h : hotstart sq fuel s gNew lbNew ubNew lbANew ubANew nWSR c .null .null = .ok o) :
    (o.rv = SUCCESSFUL_RETURN → ∃ n : Nat, o.nWSR = n ∧ ∀ t, c = some t → ∀ i, 1 ≤ i → i ≤ n → predicted s.clk s.now i ≤ t) ∧
    (o.rv = RET_MAX_NWSR_REACHED → ∃ n : Nat, o.nWSR = n ∧ (∀ t, c = some t → ∀ i, 1 ≤ i → i < n → predicted s.clk s.now i ≤ t) ∧
      (o.nWSR = nWSR ∨ (1 ≤ n ∧ ∃ t, c = some t ∧ t < predicted s.clk s.now n))) := by
  have hl : (∃ (s1 : QPC K) (t : K), s1.infeasible = false ∧ s1.unbounded = false ∧ s1.clk = s.clk ∧ (c.isSome = true → s1.now = s.now + 1) ∧
      (c.isSome = true → t = s.clk s.now) ∧ solveLoop sq gNew lbNew ubNew lbANew ubANew nWSR 0 c t (nWSR - 0).toNat 0 s1 = .ok o) ∨
      (o.rv ≠ SUCCESSFUL_RETURN ∧ o.rv ≠ RET_MAX_NWSR_REACHED) := by
    unfold hotstart at h
    rw [if_neg hn] at h
    dsimp only at h
    unfold hotstartMain at h
    rw [if_neg (by rw [hc.consistent]; decide)] at h
    dsimp only at h
    rw [if_neg (show ¬ s.haveCholesky = false by rw [hC]; decide)] at h
    simp only [Res.bind_ok, ne_eq, not_true_eq_false, if_false] at h
    rw [if_pos hfar] at h
    unfold solveRegularisedQP at h
    rw [if_pos (by exact hreg)] at h
    unfold solveQP at h
    rw [if_neg (by exact hu)] at h
    dsimp only at h
    obtain ⟨⟨r, s1⟩, e1, h⟩ := Res.bind_eq_ok.1 h
    dsimp only at h
    have ad := updateActivities_adapted e1
    split at h
    · rename_i hr
      cases h
      exact Or.inr ⟨by simpa using hr, ad.code.1⟩
    · refine Or.inl ⟨_, _, rfl, rfl, ?_, ?_, ?_, h⟩
      · have := congrArg (fun b => b.1.2.2.2.2.2.1) ad.base
        exact this.trans (by cases c <;> rfl)
      · intro hs
        have := congrArg (fun b => b.2) ad.base
        refine this.trans ?_
        cases c with
        | none => cases hs
        | some c => rfl
      · intro hs
        cases c with
        | none => cases hs
        | some c => rfl
  rcases hl with ⟨s1, t, a1, a2, a3, a4, a5, e⟩ | ⟨a, b⟩
  swap
  · exact ⟨fun h => absurd h a, fun h => absurd h b⟩
  have T := solveLoop_timed sq gNew lbNew ubNew lbANew ubANew nWSR 0 c s.clk s.now t a5 (nWSR - 0).toNat 0 s1 o a1 a2 (by omega) a3
        (fun h => by rw [a4 h]; rfl) (by simpa using e)
  refine ⟨fun h => ?_, fun h => ?_⟩
  · obtain ⟨n, e, T⟩ := T.1 h
    refine ⟨n, by omega, fun t ht i h1 h2 => ?_⟩
    by_cases hi : i = n
    · subst hi
      exact T.last rfl h1 t ht
    · exact T.passed i h1 (by omega) (by omega) t ht
  · obtain ⟨n, e, T, S⟩ := T.2 h
    refine ⟨n, by omega, fun t ht i h1 h2 => T i h1 (by omega) h2 t ht, ?_⟩
    rcases S with S | ⟨S, S'⟩
    · exact Or.inl S
    · refine Or.inr ⟨S, ?_⟩
      unfold QPB.InTime at S'
      rw [not_forall] at S'
      obtain ⟨t, S'⟩ := S'
      rw [Classical.not_imp, not_le] at S'
      exact ⟨t, S'.1, S'.2⟩

/-! ### The theorems apply -/

section Examples
open QpOASES.Runs QpOASES.Props.Runs

/-- ½|x|² - x₁ - x₂ subject to 3x₁ + 4x₂ ≤ 5 with the options `o` on the clock `clk`. -/
def cold (clk : Nat → ℚ) (o : Options ℚ) (n : Int) (lA uA : List ℚ) : Res (OutC ℚ) :=
  let s := QPC.new 2 1 HST_IDENTITY clk
  QPC.init rootC 20 { s with toQPB := s.toQPB.setOptions o } none (some (vec [-1,-1])) (some (vec [3,4])) (some (vec [-100,-100]))
    (some (vec [100,100])) (some (vec lA)) (some (vec uA)) n none none none none none none

def hot (r : Res (OutC ℚ)) (n : Int) (c : Option ℚ) (g lA uA : List ℚ) : Res (OutC ℚ) := do
  let o ← r
  QPC.hotstart rootC 20 o.s (vec g) (some (vec [-100,-100])) (some (vec [100,100])) (some (vec lA)) (some (vec uA)) n c .null .null

/-- The hypotheses of the theorems on `hotstart` are met after a solve; hot starts are solved, stopped by the budget and stopped by
the clock. -/
example :
    let r := cold seconds plain 10 [-50] [5]
    holds r (fun o => o.rv = SUCCESSFUL_RETURN ∧ o.nWSR = 3 ∧ o.s.nV = 2 ∧ o.s.status = QPS_SOLVED ∧ o.s.haveCholesky = true ∧
      o.s.options.enableFarBounds = false ∧ o.s.usingRegularisation = false) = true ∧
    holds (hot r 10 none [200,300] [-50] [5]) (fun o => o.rv = SUCCESSFUL_RETURN ∧ o.nWSR = 2 ∧ o.s.status = QPS_SOLVED) = true ∧
    holds (hot r 1 none [200,300] [-50] [5]) (fun o => o.rv = RET_MAX_NWSR_REACHED ∧ o.nWSR = 1) = true ∧
    holds (hot r 10 (some 0) [200,300] [-50] [5]) (fun o => o.rv = RET_MAX_NWSR_REACHED ∧ o.nWSR = 1) = true := by
  refine ⟨?_, ?_, ?_, ?_⟩ <;> decide +kernel

/-- Limits in the right order, and crossing ones: `init` reports infeasibility. -/
example : Ordered (startC 2 1 HST_IDENTITY plain) (some (vec [-100,-100])) (some (vec [100,100])) (some (vec [-50])) (some (vec [5])) ∧
    Crossing (startC 2 1 HST_IDENTITY plain) (vec [-100,-100]) (vec [100,100]) (vec [6]) (vec [5]) ∧
    holds (cold seconds plain 10 [6] [5]) (fun o => o.rv = RET_INIT_FAILED_INFEASIBILITY ∧ o.s.infeasible = true ∧ o.nWSR = 10) = true := by
  refine ⟨⟨?_, ?_⟩, Or.inr ⟨0, by decide, by decide +kernel⟩, by decide +kernel⟩
  · intro l u hl hu i hi
    cases hl; cases hu
    have : i = 0 ∨ i = 1 := by
      have : i < 2 := hi
      omega
    rcases this with rfl | rfl <;> decide +kernel
  · intro l u hl hu i hi
    cases hl; cases hu
    have : i = 0 := by
      have : i < 1 := hi
      omega
    subst this
    decide +kernel

/-- A new object with default options is not initialised, its trivial factorisation is no obstacle, and there are at least two
limits for the ramping. -/
example : let s := startC 2 1 HST_IDENTITY (Options.setToDefault : Options ℚ)
    s.nV ≠ 0 ∧ Props.NotInitialised s.toQPB ∧ FactorReady s ∧ s.infeasible = false ∧ 2 ≤ s.nV + s.nC :=
  ⟨by decide +kernel, Or.inl (by decide +kernel), Or.inr ⟨by decide +kernel, by decide +kernel, by decide +kernel, by decide +kernel,
    by decide +kernel⟩, by decide +kernel, by decide +kernel⟩

/-- Without limit on the time and with default options, that is with far bounds: the maximum is reached. -/
example : holds (cold squares Options.setToDefault 1 [-INFTY] [INFTY]) (fun o => o.rv = RET_MAX_NWSR_REACHED ∧ o.nWSR = 1) = true := by
  decide +kernel

end Examples

end QpOASES.Props.General
