import Verif.Proofs.QPBFar
import Verif.Proofs.QPBSession
import Verif.Proofs.QPBRuns

/-!
C38: the budget of working set recalculations; C39: the status protocol; C41: inconsistent limits (bound-constrained solver).

No assumption is made about the state of the object: these theorems also hold for objects in which something went wrong.
-/
namespace QpOASES.Props
open Spec QPB ReturnValue SubjectToStatus SubjectToType HessianType QProblemStatus

set_option linter.unusedSectionVars false

variable {K : Type} [Field K] [LinearOrder K] [IsStrictOrderedRing K]

/-! ### Calls -/

/-- The object in the state `s1` in which `hotstart` starts the homotopy: a guessed working set is installed before. -/
def StartsFrom (sq : K → K) (s : QPB K) (c : Option K) (guess : QPB.Guess) (s1 : QPB K) : Prop :=
  match guess with
  | .other w => ∃ r, setupAuxiliaryQP sq (s.startClock c).2 w = .ok (r, s1)
  | _ => s1 = s

/-- All calls of `hotstart` on an object with variables. -/
theorem hotstart_cases {sq : K → K} {fuel : Nat} {s : QPB K} {gNew : Nat → K} {lbNew ubNew : Option (Nat → K)} {nWSR : Int}
    {c : Option K} {guess : QPB.Guess} {o : Out K} (hn : s.nV ≠ 0) (hb : 0 ≤ nWSR)
    (h : hotstart sq fuel s gNew lbNew ubNew nWSR c guess = .ok o) :
    ∃ s1, StartsFrom sq s c guess s1 ∧
      ((o.rv = RET_SETUP_AUXILIARYQP_FAILED ∧ o.nWSR = nWSR ∧ o.s = s1 ∧ ∃ w, guess = .other w) ∨
       ∃ s2 : QPB K, s2.bounds = s1.bounds ∧ s2.nV = s1.nV ∧
         (match guess with | .null => s2 = s1 | _ => s2.status = QPS_AUXILIARYQPSOLVED) ∧ Main sq s2 lbNew ubNew nWSR o) := by
  unfold hotstart at h
  rw [if_neg hn] at h
  cases guess with
  | null =>
    exact ⟨s, rfl, Or.inr ⟨s, rfl, rfl, rfl, hotstartMain_cases hb h⟩⟩
  | self =>
    obtain ⟨k, ek⟩ := startClock_keep s c
    dsimp only [Res.bind_ok] at h
    rw [ek] at h
    simp only [Res.bind_ok, ne_eq, not_true_eq_false, if_false] at h
    have hm := hotstartMain_cases hb h
    obtain ⟨k', e⟩ := stopClock_keep ({ { s with now := k } with status := QPS_AUXILIARYQPSOLVED } : QPB K) c (s.startClock c).1
    exact ⟨s, rfl, Or.inr ⟨_, by rw [e], by rw [e], by show QPB.status _ = _; rw [e], hm⟩⟩
  | other w =>
    dsimp only at h
    obtain ⟨⟨r, s1⟩, e1, h⟩ := Res.bind_eq_ok.1 h
    dsimp only at h
    split at h
    · cases h
      exact ⟨s1, ⟨r, e1⟩, Or.inl ⟨rfl, rfl, rfl, w, rfl⟩⟩
    · have hm := hotstartMain_cases hb h
      obtain ⟨k', e⟩ := stopClock_keep ({ s1 with status := QPS_AUXILIARYQPSOLVED } : QPB K) c (s.startClock c).1
      exact ⟨s1, ⟨r, e1⟩, Or.inr ⟨_, by rw [e], by rw [e], by show QPB.status _ = _; rw [e], hm⟩⟩

/-! ### C38 -/

theorem main_budget {sq : K → K} {s : QPB K} {lbNew ubNew : Option (Nat → K)} {nWSR : Int} {o : Out K} (hb : 0 ≤ nWSR)
    (h : Main sq s lbNew ubNew nWSR o) :
    o.nWSR ≤ nWSR ∧ ∃ k : Nat, Recalcs sq k s o.s ∧ (k : Int) ≤ nWSR ∧
      (o.rv = SUCCESSFUL_RETURN ∨ o.rv = RET_MAX_NWSR_REACHED → s.areBoundsConsistent lbNew ubNew = true → (k : Int) = o.nWSR) := by
  cases h with
  | inconsistent hc rv n e =>
    exact ⟨n.le, 0, .none (by rw [e]), hb, fun _ h => by rw [hc] at h; cases h⟩
  | setupFailed hc rv n b st nV i u =>
    refine ⟨n.le, 0, .none (by rw [b]), hb, fun h => ?_⟩
    rcases rv with rv | rv <;> rw [rv] at h <;> exact absurd h (by decide)
  | refused hc hr rv n b st nV i u =>
    refine ⟨n.le, 0, .none (by rw [b]), hb, fun h => ?_⟩
    rcases rv with rv | rv <;> rw [rv] at h <;> exact absurd h (by decide)
  | solved hc hr s1 b st nV S =>
    obtain ⟨k, a, b', c⟩ := S.count
    have base : Recalcs sq 0 s s1 := .none (by rw [b])
    refine ⟨S.upper, 0 + k, base.trans a, by omega, fun h _ => ?_⟩
    have := c (fun hf => by rcases h with h | h; exacts [hf.ne.1 h, hf.ne.2 h])
    omega

/-- C38, `hotstart`: the number reported is at most the given maximum, and so is the number `k` of changes of the working
set that have been made since the start of the homotopy.  When the problem is reported to be solved, or the maximum to be
reached, the number reported is the number made. -/
theorem C38_hotstart {sq : K → K} {fuel : Nat} {s : QPB K} {gNew : Nat → K} {lbNew ubNew : Option (Nat → K)} {nWSR : Int}
    {c : Option K} {guess : QPB.Guess} {o : Out K} (hn : s.nV ≠ 0) (hb : 0 ≤ nWSR)
    (h : hotstart sq fuel s gNew lbNew ubNew nWSR c guess = .ok o) :
    o.nWSR ≤ nWSR ∧ ∃ s1, StartsFrom sq s c guess s1 ∧ ∃ k : Nat, Recalcs sq k s1 o.s ∧ (k : Int) ≤ nWSR ∧
      (o.rv = SUCCESSFUL_RETURN ∨ o.rv = RET_MAX_NWSR_REACHED → s1.areBoundsConsistent lbNew ubNew = true → (k : Int) = o.nWSR) := by
  obtain ⟨s1, hs, ⟨rv, n, e, _⟩ | ⟨s2, b, nv, _, hm⟩⟩ := hotstart_cases hn hb h
  · refine ⟨n.le, s1, hs, 0, .none (by rw [e]), hb, fun h => ?_⟩
    rw [rv] at h
    exact absurd h (by decide)
  · obtain ⟨m1, k, m2, m3, m4⟩ := main_budget hb hm
    have base : Recalcs sq 0 s1 s2 := .none (by rw [b])
    refine ⟨m1, s1, hs, 0 + k, base.trans m2, by omega, fun h hc => ?_⟩
    have := m4 h (by
      unfold areBoundsConsistent at hc ⊢
      rw [nv]
      exact hc)
    omega

/-- C38, as seen from outside: the number of variables whose status differs before and after `hotstart` is at most the
maximum given, and at most the number reported if the problem is reported to be solved or the maximum to be reached. -/
theorem C38_changes {sq : K → K} {fuel : Nat} {s : QPB K} {gNew : Nat → K} {lbNew ubNew : Option (Nat → K)} {nWSR : Int}
    {c : Option K} {o : Out K} (hn : s.nV ≠ 0) (hb : 0 ≤ nWSR)
    (h : hotstart sq fuel s gNew lbNew ubNew nWSR c .null = .ok o) :
    ((List.range s.nV).countP fun i => o.s.bounds.status i ≠ s.bounds.status i : Int) ≤ nWSR ∧
    (o.rv = SUCCESSFUL_RETURN ∨ o.rv = RET_MAX_NWSR_REACHED → s.areBoundsConsistent lbNew ubNew = true →
      ((List.range s.nV).countP fun i => o.s.bounds.status i ≠ s.bounds.status i : Int) ≤ o.nWSR) := by
  obtain ⟨_, s1, hs, k, a, b, d⟩ := C38_hotstart hn hb h
  have hs : s1 = s := hs
  subst hs
  have hcard := a.card s1.nV
  refine ⟨?_, fun h hc => ?_⟩
  · omega
  · have := d h hc
    omega

theorem prepareInitialQP_error {sq : K → K} {s : QPB K} {xOpt yOpt : Option (Nat → K)} {guess : Option WS} {R : Option (Nat → K)}
    {nWSR : Int} {c : Option K} {o : Out K} (h : prepareInitialQP sq s xOpt yOpt guess R nWSR c = .ok (.error o)) :
    o.nWSR = nWSR ∧ (o.rv = RET_INIT_FAILED ∨ o.rv = RET_INIT_FAILED_REGULARISATION) := by
  unfold prepareInitialQP at h
  dsimp only at h
  split at h
  · cases h; exact ⟨rfl, Or.inl rfl⟩
  · unfold prepareAuxiliary at h
    split at h
    · cases h; exact ⟨rfl, Or.inl rfl⟩
    · obtain ⟨⟨r, s1⟩, _, h⟩ := Res.bind_eq_ok.1 h
      dsimp only at h
      split at h
      · cases h; exact ⟨rfl, Or.inl rfl⟩
      · have fin : ∀ (r : ReturnValue) (s1 : QPB K),
            (if r ≠ SUCCESSFUL_RETURN then Res.ok (Except.error ⟨RET_INIT_FAILED_REGULARISATION, nWSR, c, s1⟩) else do
              let s := takeFactor { s1 with haveCholesky := false } (xOpt.isNone && yOpt.isNone && guess.isNone) R
              let (r, s) ← (do
                let s ← setupAuxiliaryQPgradient s
                Res.ok (setupAuxiliaryQPbounds true s.nV 0 s))
              if r ≠ SUCCESSFUL_RETURN then .ok (.error ⟨RET_INIT_FAILED, nWSR, c, s⟩)
              else .ok (.ok { s with status := QPS_AUXILIARYQPSOLVED })) = .ok (.error o) →
            o.nWSR = nWSR ∧ (o.rv = RET_INIT_FAILED ∨ o.rv = RET_INIT_FAILED_REGULARISATION) := by
          intro r s1 h
          split at h
          · cases h; exact ⟨rfl, Or.inr rfl⟩
          · obtain ⟨⟨r, s2⟩, _, h⟩ := Res.bind_eq_ok.1 h
            dsimp only at h
            split at h
            · cases h; exact ⟨rfl, Or.inl rfl⟩
            · cases h
        split at h
        · obtain ⟨⟨r, s1⟩, _, h⟩ := Res.bind_eq_ok.1 h
          exact fin r s1 h
        · exact fin SUCCESSFUL_RETURN s1 h

/-- The auxiliary problem of a cold start with data `s0` is set up in `s1`, where the homotopy starts. -/
def ColdStart (sq : K → K) (s0 : QPB K) (xOpt yOpt : Option (Nat → K)) (guess : Option WS) (R : Option (Nat → K)) (nWSR : Int)
    (c : Option K) (s1 : QPB K) : Prop :=
  prepareInitialQP sq (s0.startClock c).2 xOpt yOpt guess R nWSR c = .ok (.ok s1)

/-- All calls of `init`: invalid arguments, failures before the homotopy starts, and results of the homotopy. -/
theorem init_outcome {sq : K → K} {fuel : Nat} {s : QPB K} {H g lb ub : Option (Nat → K)} {nWSR : Int} {c : Option K}
    {xOpt yOpt : Option (Nat → K)} {guess : Option WS} {R : Option (Nat → K)} {o : Out K}
    (h : init sq fuel s H g lb ub nWSR c xOpt yOpt guess R = .ok o) :
    (o.nWSR = nWSR ∧ (o.rv = RET_QPOBJECT_NOT_SETUP ∨ o.rv = RET_INVALID_ARGUMENTS ∨ o.rv = RET_NO_CHOLESKY_WITH_INITIAL_GUESS ∨
      o.rv = RET_INIT_FAILED ∨ o.rv = RET_INIT_FAILED_REGULARISATION)) ∨
    ∃ g', g = some g' ∧ ∃ s1, ColdStart sq (s.coldData H g' lb ub) xOpt yOpt guess R nWSR c s1 ∧ ∃ o1,
      hotstart sq fuel (s1.stopClock c ((s.coldData H g' lb ub).startClock c).1).2 g' (some (lowerOf lb)) (some (upperOf ub)) nWSR
        (c.map fun t => t - (s1.stopClock c ((s.coldData H g' lb ub).startClock c).1).1.getD 0) .null = .ok o1 ∧
      o.nWSR = o1.nWSR ∧ (∃ k, o.s = { o1.s with now := k }) ∧
      ((o1.s.infeasible = true ∧ o.rv = RET_INIT_FAILED_INFEASIBILITY) ∨
       (o1.s.infeasible = false ∧ o1.s.unbounded = true ∧ o.rv = RET_INIT_FAILED_UNBOUNDEDNESS) ∨
       (o1.s.infeasible = false ∧ o1.s.unbounded = false ∧ o1.rv ≠ SUCCESSFUL_RETURN ∧ o1.rv ≠ RET_MAX_NWSR_REACHED ∧
         o.rv = RET_INIT_FAILED_HOTSTART) ∨
       (o1.s.infeasible = false ∧ o1.s.unbounded = false ∧ (o1.rv = SUCCESSFUL_RETURN ∨ o1.rv = RET_MAX_NWSR_REACHED) ∧ o.rv = o1.rv)) := by
  unfold init at h
  split at h
  · cases h; exact Or.inl ⟨rfl, Or.inl rfl⟩
  · dsimp only at h
    unfold coldData
    generalize (if s.status ≠ QPS_NOTINITIALISED then s.reset else s) = s0 at h ⊢
    split at h
    · cases h; exact Or.inl ⟨rfl, Or.inr (Or.inl rfl)⟩
    split at h
    · cases h; exact Or.inl ⟨rfl, Or.inr (Or.inl rfl)⟩
    split at h
    · cases h; exact Or.inl ⟨rfl, Or.inr (Or.inr (Or.inl rfl))⟩
    cases g with
    | none =>
      unfold setupQPdata at h
      dsimp only at h
      rw [if_pos (by decide)] at h
      cases h; exact Or.inl ⟨rfl, Or.inr (Or.inl rfl)⟩
    | some g' =>
      have eS : s0.setupQPdata H (some g') lb ub =
          (SUCCESSFUL_RETURN, { s0.setH H with g := g', lb := lowerOf lb, ub := upperOf ub }) := rfl
      rw [eS] at h
      dsimp only at h
      rw [if_neg (by simp)] at h
      unfold solveInitialQP at h
      obtain ⟨e, he, h⟩ := Res.bind_eq_ok.1 h
      cases e with
      | error o' =>
        cases h
        obtain ⟨a, b⟩ := prepareInitialQP_error he
        exact Or.inl ⟨a, Or.inr (Or.inr (Or.inr b))⟩
      | ok s1 =>
        refine Or.inr ⟨g', rfl, s1, ?_, ?_⟩
        · unfold ColdStart
          rw [eS]
          exact he
        rw [eS]
        dsimp only at h ⊢
        obtain ⟨o1, e1, h⟩ := Res.bind_eq_ok.1 h
        refine ⟨o1, e1, ?_⟩
        split at h
        · rename_i hi
          cases h
          exact ⟨rfl, ⟨o1.s.now, rfl⟩, Or.inl ⟨hi, rfl⟩⟩
        · rename_i hi
          have hi : o1.s.infeasible = false := by simpa using hi
          split at h
          · rename_i hu
            cases h
            exact ⟨rfl, ⟨o1.s.now, rfl⟩, Or.inr (Or.inl ⟨hi, hu, rfl⟩)⟩
          · rename_i hu
            have hu : o1.s.unbounded = false := by simpa using hu
            split at h
            · rename_i hr
              cases h
              exact ⟨rfl, ⟨o1.s.now, rfl⟩, Or.inr (Or.inr (Or.inl ⟨hi, hu, hr.1, hr.2, rfl⟩))⟩
            · rename_i hr
              cases h
              obtain ⟨f1, f2, k, f3⟩ := finish_keep o1.s o1.rv o1.nWSR o1.cputime
                (({ s0.setH H with g := g', lb := lowerOf lb, ub := upperOf ub } : QPB K).startClock c).1
              refine ⟨f2, ⟨k, f3⟩, Or.inr (Or.inr (Or.inr ⟨hi, hu, ?_, f1⟩))⟩
              by_cases h1 : o1.rv = SUCCESSFUL_RETURN
              · exact Or.inl h1
              · exact Or.inr (by_contra fun h2 => hr ⟨h1, h2⟩)

theorem hotstart_empty {sq : K → K} {fuel : Nat} {s : QPB K} {gNew : Nat → K} {lbNew ubNew : Option (Nat → K)} {nWSR : Int}
    {c : Option K} {guess : QPB.Guess} (hn : s.nV = 0) :
    hotstart sq fuel s gNew lbNew ubNew nWSR c guess = .ok ⟨RET_QPOBJECT_NOT_SETUP, nWSR, c, s⟩ := by
  unfold hotstart
  rw [if_pos hn]

/-- C38, `init`: no more than the given maximum is reported, and no more changes of the working set are made after the
auxiliary problem has been set up; the number reported is exact if the problem is reported to be solved or the maximum to
be reached. -/
theorem C38_init {sq : K → K} {fuel : Nat} {s : QPB K} {H g lb ub : Option (Nat → K)} {nWSR : Int} {c : Option K}
    {xOpt yOpt : Option (Nat → K)} {guess : Option WS} {R : Option (Nat → K)} {o : Out K} (hb : 0 ≤ nWSR)
    (h : init sq fuel s H g lb ub nWSR c xOpt yOpt guess R = .ok o) :
    o.nWSR ≤ nWSR ∧
    ∀ g' s1, g = some g' → ColdStart sq (s.coldData H g' lb ub) xOpt yOpt guess R nWSR c s1 →
      (o.rv = SUCCESSFUL_RETURN ∨ o.rv = RET_MAX_NWSR_REACHED ∨ o.rv = RET_INIT_FAILED_INFEASIBILITY ∨
        o.rv = RET_INIT_FAILED_UNBOUNDEDNESS ∨ o.rv = RET_INIT_FAILED_HOTSTART) →
      ∃ k : Nat, Recalcs sq k s1 o.s ∧ (k : Int) ≤ nWSR ∧
        (o.rv = SUCCESSFUL_RETURN ∨ o.rv = RET_MAX_NWSR_REACHED → (k : Int) = o.nWSR) := by
  rcases init_outcome h with ⟨a, b⟩ | ⟨g', rfl, s1, cs, o1, e1, n1, ⟨k1, ek⟩, ho⟩
  · refine ⟨a.le, fun _ _ _ _ h => ?_⟩
    rcases b with b | b | b | b | b <;> rw [b] at h <;> exact absurd h (by decide)
  · obtain ⟨k0, e0⟩ := stopClock_keep s1 c ((s.coldData H g' lb ub).startClock c).1
    rw [e0] at e1
    by_cases hn : s1.nV = 0
    · rw [hotstart_empty (s := { s1 with now := k0 }) hn] at e1
      cases e1
      refine ⟨n1.le, fun g'' s1' hg cs' _ => ?_⟩
      cases hg
      have : s1' = s1 := by
        unfold ColdStart at cs cs'
        rw [cs] at cs'
        cases cs'; rfl
      subst this
      refine ⟨0, .none (by rw [ek]), hb, fun h => ?_⟩
      rcases ho with ⟨_, ho⟩ | ⟨_, _, ho⟩ | ⟨_, _, _, _, ho⟩ | ⟨_, _, ho', ho⟩
      · rw [ho] at h; exact absurd h (by decide)
      · rw [ho] at h; exact absurd h (by decide)
      · rw [ho] at h; exact absurd h (by decide)
      · rcases ho' with ho' | ho' <;> cases ho'
    · obtain ⟨hle, s2, hs2, k, a, b, d⟩ := C38_hotstart (s := { s1 with now := k0 }) hn hb e1
      have hs2 : s2 = { s1 with now := k0 } := hs2
      subst hs2
      refine ⟨n1 ▸ hle, fun g'' s1' hg cs' _ => ?_⟩
      cases hg
      have : s1' = s1 := by
        unfold ColdStart at cs cs'
        rw [cs] at cs'
        cases cs'; rfl
      subst this
      have base : Recalcs sq 0 s1' { s1' with now := k0 } := .none rfl
      refine ⟨0 + k, (base.trans a).after (by rw [ek]), by omega, fun h => ?_⟩
      rcases ho with ⟨_, ho⟩ | ⟨_, _, ho⟩ | ⟨_, _, _, _, ho⟩ | ⟨hi, _, ho', ho⟩
      · rw [ho] at h; exact absurd h (by decide)
      · rw [ho] at h; exact absurd h (by decide)
      · rw [ho] at h; exact absurd h (by decide)
      · have hc : ({ s1' with now := k0 } : QPB K).areBoundsConsistent (some (lowerOf lb)) (some (upperOf ub)) = true := by
          obtain ⟨s3, hs3, ⟨_, _, _, w, hw⟩ | ⟨s4, _, _, e4, hm⟩⟩ := hotstart_cases (s := { s1' with now := k0 }) hn hb e1
          · cases hw
          · have hs3 : s3 = { s1' with now := k0 } := hs3
            have e4 : s4 = s3 := e4
            subst e4
            subst hs3
            cases hm with
            | inconsistent _ _ _ e => rw [e] at hi; cases hi
            | setupFailed h => exact h
            | refused h => exact h
            | solved h => exact h
        have := d ho' hc
        omega

/-- Four recalculations are needed here; with a budget of two the solver stops and says so. -/
example : Runs.holds (QPB.init Runs.root 5 (Runs.start 2 HST_IDENTITY Runs.plain) none (some (Runs.vec [-5, -7])) (some (Runs.vec [0, 0]))
      (some (Runs.vec [1, 1])) 10 none none none none none) (fun o => o.rv = SUCCESSFUL_RETURN ∧ o.nWSR = 4) = true ∧
    Runs.holds (QPB.init Runs.root 5 (Runs.start 2 HST_IDENTITY Runs.plain) none (some (Runs.vec [-5, -7])) (some (Runs.vec [0, 0]))
      (some (Runs.vec [1, 1])) 2 none none none none none) (fun o => o.rv = RET_MAX_NWSR_REACHED ∧ o.nWSR = 2) = true ∧
    Runs.holds (Runs.hot (Runs.cold (Runs.start 2 HST_IDENTITY Runs.plain) none [5, 7] [0, 0] [1, 1]) [-5, -7]
      (some [0, 0]) (some [1, 1]) .null) (fun o => o.rv = SUCCESSFUL_RETURN ∧ o.nWSR = 4) = true := by
  refine ⟨?_, ?_, ?_⟩ <;> decide +kernel

/-! ### C39 -/

/-- The object has never been initialised, its initialisation has failed, or its last homotopy has been aborted. -/
def NotInitialised (s : QPB K) : Prop :=
  s.status = QPS_NOTINITIALISED ∨ s.status = QPS_PREPARINGAUXILIARYQP ∨ s.status = QPS_PERFORMINGHOMOTOPY

/-- The limits do not cross. -/
def Ordered (n : Nat) (lbNew ubNew : Option (Nat → K)) : Prop :=
  ∀ l u, lbNew = some l → ubNew = some u → ∀ i < n, l i ≤ u i

theorem Ordered.consistent {s : QPB K} {lbNew ubNew : Option (Nat → K)} (h : Ordered s.nV lbNew ubNew) :
    s.areBoundsConsistent lbNew ubNew = true := by
  unfold areBoundsConsistent
  split
  · rename_i l u
    rw [List.all_eq_true]
    intro i hi
    have := h l u rfl rfl i (List.mem_range.1 hi)
    have hE : (0 : K) < EPS := EPS_pos'
    simp only [Bool.not_eq_true', decide_eq_false_iff_not, not_lt]
    linarith
  · rfl

theorem startsFrom_nV {sq : K → K} {s s1 : QPB K} {c : Option K} {guess : QPB.Guess} (h : StartsFrom sq s c guess s1) : s1.nV = s.nV := by
  cases guess with
  | null => rw [show s1 = s from h]
  | self => rw [show s1 = s from h]
  | other w =>
    obtain ⟨r, e⟩ := h
    obtain ⟨k, ek⟩ := startClock_keep s c
    rw [ek] at e
    exact congrArg (fun a => a.2.2.2.2.1) (setupAuxiliaryQP_far (s := { s with now := k }) e)

/-- C39, success: whatever the state of the object and the guess, `hotstart` with limits that do not cross reports success
only if the object is left in the state `QPS_SOLVED`. -/
theorem C39_success_partial {sq : K → K} {fuel : Nat} {s : QPB K} {gNew : Nat → K} {lbNew ubNew : Option (Nat → K)} {nWSR : Int}
    {c : Option K} {guess : QPB.Guess} {o : Out K} (hb : 0 ≤ nWSR) (h : hotstart sq fuel s gNew lbNew ubNew nWSR c guess = .ok o)
    (hc : Ordered s.nV lbNew ubNew) (hs : o.rv = SUCCESSFUL_RETURN) : o.s.status = QPS_SOLVED := by
  by_cases hn : s.nV = 0
  · rw [hotstart_empty hn] at h
    cases h
    cases hs
  obtain ⟨s1, h1, ⟨rv, _⟩ | ⟨s2, _, h2, _, hm⟩⟩ := hotstart_cases hn hb h
  · rw [hs] at rv; cases rv
  · cases hm with
    | inconsistent h rv n e =>
      rw [Ordered.consistent (by rw [h2, startsFrom_nV h1]; exact hc)] at h
      cases h
    | setupFailed _ rv =>
      rcases rv with rv | rv <;> rw [hs] at rv <;> cases rv
    | refused _ _ rv =>
      rcases rv with rv | rv <;> rw [hs] at rv <;> cases rv
    | solved _ _ _ _ _ _ S => exact S.solved hs

/-- C39: `hotstart` without a guess never succeeds on an object that is not initialised, and leaves it uninitialised. -/
theorem C39_no_success_partial {sq : K → K} {fuel : Nat} {s : QPB K} {gNew : Nat → K} {lbNew ubNew : Option (Nat → K)} {nWSR : Int}
    {c : Option K} {o : Out K} (hn : s.nV ≠ 0) (hb : 0 ≤ nWSR) (hu : NotInitialised s) (hc : Ordered s.nV lbNew ubNew)
    (h : hotstart sq fuel s gNew lbNew ubNew nWSR c .null = .ok o) :
    (o.rv = RET_HOTSTART_FAILED_AS_QP_NOT_INITIALISED ∨ o.rv = RET_INIT_FAILED_REGULARISATION ∨ o.rv = RET_INIT_FAILED_CHOLESKY ∨
      o.rv = RET_HOTSTART_STOPPED_INFEASIBILITY) ∧ o.nWSR = nWSR ∧ NotInitialised o.s ∧ o.s.bounds = s.bounds := by
  obtain ⟨s1, h1, ⟨_, _, _, w, hw⟩ | ⟨s2, _, h2, e2, hm⟩⟩ := hotstart_cases hn hb h
  · cases hw
  have h1 : s1 = s := h1
  have e2 : s2 = s1 := e2
  subst e2; subst h1
  unfold NotInitialised at hu ⊢
  cases hm with
  | inconsistent h rv n e => rw [hc.consistent] at h; cases h
  | setupFailed _ rv n b st =>
    rw [st]
    exact ⟨by rcases rv with rv | rv <;> rw [rv] <;> simp, n, hu, b⟩
  | refused _ _ rv n b st =>
    rw [st]
    exact ⟨by rcases rv with rv | rv <;> rw [rv] <;> simp, n, hu, b⟩
  | solved _ hr => exact absurd hu hr

/-- The factorisation needed by `hotstart` exists, or it is trivial as in a freshly constructed object. -/
def FactorReady (s : QPB K) : Prop :=
  s.haveCholesky = true ∨ (s.hessianType ≠ HST_ZERO ∧ s.bounds.nFR = 0 ∧ s.options.enableRegularisation = false)

theorem setupInitialCholesky_trivial {sq : K → K} {s : QPB K} (h1 : s.hessianType ≠ HST_ZERO) (h2 : s.bounds.nFR = 0)
    (h3 : s.options.enableRegularisation = false) :
    ∃ R, setupInitialCholesky sq s = .ok (SUCCESSFUL_RETURN, { s with R := R, haveCholesky := true }) := by
  have hc : ∃ R, computeCholesky sq s = .ok (SUCCESSFUL_RETURN, { s with R := R }) := by
    unfold computeCholesky
    dsimp only
    split
    · exact absurd (by assumption) h1
    · exact ⟨_, rfl⟩
    · rw [h2]; exact ⟨_, rfl⟩
  obtain ⟨R, e⟩ := hc
  refine ⟨R, ?_⟩
  unfold setupInitialCholesky
  rw [if_neg (by rw [h3]; simp)]
  simp only [Res.bind_ok, ne_eq, not_true_eq_false, if_false, e]
  rw [if_neg (by decide)]

/-- C39: `hotstart` on an object that is not initialised is refused, and changes neither data nor solution: no guess is
given, the limits do not cross, and the factorisation is not an obstacle.  (With a guess, with crossing limits or if the
factorisation needs a regularisation, the property fails: see below.) -/
theorem C39_refused_partial (sq : K → K) (fuel : Nat) {s : QPB K} (gNew : Nat → K) {lbNew ubNew : Option (Nat → K)} (nWSR : Int)
    (c : Option K) (hn : s.nV ≠ 0) (hu : NotInitialised s) (hc : Ordered s.nV lbNew ubNew) (hf : FactorReady s)
    (hi : s.infeasible = false) (hr : s.options.enableFarBounds = true → s.options.enableRamping = true → 2 ≤ s.nV) :
    ∃ o, hotstart sq (fuel + 1) s gNew lbNew ubNew nWSR c .null = .ok o ∧ o.rv = RET_HOTSTART_FAILED_AS_QP_NOT_INITIALISED ∧
      o.nWSR = nWSR ∧ o.s.H = s.H ∧ o.s.g = s.g ∧ o.s.lb = s.lb ∧ o.s.ub = s.ub ∧ o.s.x = s.x ∧ o.s.y = s.y ∧
      o.s.bounds = s.bounds ∧ o.s.status = s.status ∧ o.s.options = s.options := by
  have goal2 : ∀ s1 : QPB K, (∃ R b, s1 = { s with count := s.count + 1, R := R, haveCholesky := b }) →
      ∃ o, (if s1.options.enableFarBounds = false then
          solveRegularisedQP sq s1 gNew lbNew ubNew nWSR c 0
        else do
          let (lf, uf) ← updateFarBounds s1 (s1.initialFar lbNew ubNew) s1.nV lbNew ubNew s1.nV 0 (fun _ => 0) (fun _ => 0)
          let (o, needed) ← farLoop sq gNew lbNew ubNew nWSR c (fuel + 1) s1 (s1.initialFar lbNew ubNew) lf uf 0 0 INFTY
          .ok { o with cputime := c.map fun _ => needed + 0 }) = .ok o ∧ o.rv = RET_HOTSTART_FAILED_AS_QP_NOT_INITIALISED ∧
      o.nWSR = nWSR ∧ o.s = s1 := by
    rintro s1 ⟨R, b, e1⟩
    have hu1 : NotReady s1 := by rw [e1]; exact hu
    have hi1 : s1.infeasible = false := by rw [e1]; exact hi
    split
    · obtain ⟨c', e⟩ := solveRegularisedQP_notReady hu1 sq gNew lbNew ubNew nWSR c 0
      exact ⟨_, e, rfl, rfl, rfl⟩
    · rename_i hfar
      have hfar : s1.options.enableFarBounds = true := by simpa using hfar
      obtain ⟨lf, uf, e, _⟩ := updateFarBounds_spec s1 (s1.initialFar lbNew ubNew) (n := s1.nV)
        (fun h => by rw [e1] at h hfar ⊢; exact hr hfar h) lbNew ubNew s1.nV 0 (fun _ => 0) (fun _ => 0)
      rw [e]
      obtain ⟨c', n, e⟩ := farLoop_notReady sq gNew lbNew ubNew nWSR c fuel s1 (s1.initialFar lbNew ubNew) lf uf 0 0 INFTY hu1 hi1
      simp only [Res.bind_ok, e]
      exact ⟨_, rfl, rfl, rfl, rfl⟩
  have fin : ∀ s1 : QPB K, (∃ R b, s1 = { s with count := s.count + 1, R := R, haveCholesky := b }) → ∀ r : Res (Out K),
      (∃ o, r = .ok o ∧ o.rv = RET_HOTSTART_FAILED_AS_QP_NOT_INITIALISED ∧ o.nWSR = nWSR ∧ o.s = s1) →
      ∃ o, r = .ok o ∧ o.rv = RET_HOTSTART_FAILED_AS_QP_NOT_INITIALISED ∧
      o.nWSR = nWSR ∧ o.s.H = s.H ∧ o.s.g = s.g ∧ o.s.lb = s.lb ∧ o.s.ub = s.ub ∧ o.s.x = s.x ∧ o.s.y = s.y ∧
      o.s.bounds = s.bounds ∧ o.s.status = s.status ∧ o.s.options = s.options := by
    rintro s1 ⟨R, b, e1⟩ r ⟨o, e, a1, a2, a3⟩
    exact ⟨o, e, a1, a2, by rw [a3, e1], by rw [a3, e1], by rw [a3, e1], by rw [a3, e1], by rw [a3, e1], by rw [a3, e1],
      by rw [a3, e1], by rw [a3, e1], by rw [a3, e1]⟩
  unfold hotstart
  rw [if_neg hn]
  dsimp only
  unfold hotstartMain
  rw [if_neg (by rw [hc.consistent]; decide)]
  dsimp only
  by_cases hC : s.haveCholesky = true
  · rw [if_neg (by rw [hC]; decide)]
    have hs : ∃ R b, ({ s with count := s.count + 1 } : QPB K) = { s with count := s.count + 1, R := R, haveCholesky := b } :=
      ⟨s.R, s.haveCholesky, rfl⟩
    exact fin _ hs _ (goal2 { s with count := s.count + 1 } hs)
  · have hC' : s.haveCholesky = false := by simpa using hC
    rw [if_pos hC']
    obtain ⟨f1, f2, f3⟩ := hf.resolve_left hC
    obtain ⟨R, e⟩ := setupInitialCholesky_trivial (sq := sq) (s := { s with count := s.count + 1 }) f1 f2 f3
    rw [e]
    have hs : ∃ R' b, ({ s with count := s.count + 1, R := R, haveCholesky := true } : QPB K) =
      { s with count := s.count + 1, R := R', haveCholesky := b } := ⟨R, true, rfl⟩
    exact fin _ hs _ (goal2 _ hs)

/-- A fresh object is refused for both presets without regularisation. -/
example : NotInitialised (Runs.start 2 HST_UNKNOWN Runs.plain) ∧ FactorReady (Runs.start 2 HST_UNKNOWN Runs.plain) ∧
    NotInitialised (Runs.start 2 HST_UNKNOWN Options.setToDefault) ∧ FactorReady (Runs.start 2 HST_UNKNOWN Options.setToDefault) ∧
    Runs.holds (Runs.hot (.ok ⟨SUCCESSFUL_RETURN, 0, none, Runs.start 2 HST_UNKNOWN Options.setToDefault⟩) [1, 2] (some [0, 0]) (some [1, 1]) .null)
      (fun o => o.rv = RET_HOTSTART_FAILED_AS_QP_NOT_INITIALISED) = true :=
  ⟨Or.inl (by decide +kernel), Or.inr ⟨by decide +kernel, by decide +kernel, by decide +kernel⟩, Or.inl (by decide +kernel),
    Or.inr ⟨by decide +kernel, by decide +kernel, by decide +kernel⟩, by decide +kernel⟩

/-- C39, success of `init`, without assumptions. -/
theorem C39_init_success {sq : K → K} {fuel : Nat} {s : QPB K} {H g lb ub : Option (Nat → K)} {nWSR : Int} {c : Option K}
    {xOpt yOpt : Option (Nat → K)} {guess : Option WS} {R : Option (Nat → K)} {o : Out K} (hb : 0 ≤ nWSR)
    (h : init sq fuel s H g lb ub nWSR c xOpt yOpt guess R = .ok o) (hs : o.rv = SUCCESSFUL_RETURN) : o.s.status = QPS_SOLVED := by
  rcases init_outcome h with ⟨a, b⟩ | ⟨g', rfl, s1, cs, o1, e1, n1, ⟨k1, ek⟩, ho⟩
  · rcases b with b | b | b | b | b <;> rw [b] at hs <;> cases hs
  · rcases ho with ⟨_, ho⟩ | ⟨_, _, ho⟩ | ⟨_, _, _, _, ho⟩ | ⟨hi, _, ho', ho⟩
    · rw [ho] at hs; cases hs
    · rw [ho] at hs; cases hs
    · rw [ho] at hs; cases hs
    · rw [ek]
      show o1.s.status = _
      obtain ⟨k0, e0⟩ := stopClock_keep s1 c ((s.coldData H g' lb ub).startClock c).1
      rw [e0] at e1
      by_cases hn : s1.nV = 0
      · rw [hotstart_empty (s := { s1 with now := k0 }) hn] at e1
        cases e1
        rcases ho' with ho' | ho' <;> cases ho'
      · obtain ⟨s3, hs3, ⟨_, _, _, w, hw⟩ | ⟨s4, _, _, e4, hm⟩⟩ := hotstart_cases (s := { s1 with now := k0 }) hn hb e1
        · cases hw
        · cases hm with
          | inconsistent _ _ _ e => rw [e] at hi; cases hi
          | setupFailed _ rv => rcases rv with rv | rv <;> rw [← ho, hs] at rv <;> cases rv
          | refused _ _ rv => rcases rv with rv | rv <;> rw [← ho, hs] at rv <;> cases rv
          | solved _ _ _ _ _ _ S => exact S.solved (ho ▸ hs)

/-- C39, aborted homotopies: an internal error in the homotopy leaves the object uninitialised. -/
theorem C39_aborted {sq : K → K} {fuel : Nat} {s : QPB K} {gNew : Nat → K} {lbNew ubNew : Option (Nat → K)} {nWSR : Int}
    {c : Option K} {guess : QPB.Guess} {o : Out K} (hb : 0 ≤ nWSR) (h : hotstart sq fuel s gNew lbNew ubNew nWSR c guess = .ok o)
    (hf : o.rv = RET_STEPDIRECTION_FAILED_CHOLESKY ∨ o.rv = RET_REMOVE_FROM_ACTIVESET_FAILED ∨ o.rv = RET_ADD_TO_ACTIVESET_FAILED ∨
      o.rv = RET_HESSIAN_NOT_SPD ∨ o.rv = RET_CHOLESKY_OF_ZERO_HESSIAN) : NotInitialised o.s := by
  by_cases hn : s.nV = 0
  · rw [hotstart_empty hn] at h
    cases h
    rcases hf with hf | hf | hf | hf | hf <;> cases hf
  obtain ⟨s1, _, ⟨rv, _⟩ | ⟨s2, _, _, _, hm⟩⟩ := hotstart_cases hn hb h
  · rw [rv] at hf; exact absurd hf (by decide)
  · cases hm with
    | inconsistent _ rv => rw [rv] at hf; exact absurd hf (by decide)
    | setupFailed _ rv => rcases rv with rv | rv <;> rw [rv] at hf <;> exact absurd hf (by decide)
    | refused _ _ rv => rcases rv with rv | rv <;> rw [rv] at hf <;> exact absurd hf (by decide)
    | solved _ _ _ _ _ _ S =>
      rcases S.outcome with h | h | h | h
      · rw [h.1] at hf; exact absurd hf (by decide)
      · rw [h.1] at hf; exact absurd hf (by decide)
      · exact Or.inr (Or.inr h.2.1)
      · rw [h.1] at hf; exact absurd hf (by decide)

/-- The working set in which every variable is free. -/
def Runs.allFree : WS := (WS.init 2).setupAllFree

/-- An object with two variables that has not been initialised. -/
def Runs.fresh (t : HessianType) (o : Options ℚ) : Res (Out ℚ) := .ok ⟨SUCCESSFUL_RETURN, 0, none, Runs.start 2 t o⟩

/-- C39 fails: `hotstart` on objects that have never been initialised.  1. With a guessed working set the status is
overwritten before it is tested: the call succeeds with the identity as Hessian matrix.  2. If no matrix is known, null is
dereferenced.  3. Crossing limits: success, although the object is not solved.  4. With regularisation enabled a different
code is returned, or null is dereferenced (src/QProblemB.cpp:433-446, 449-462, 464-475). -/
theorem C39_violated :
    Runs.holds (Runs.hot (Runs.fresh HST_IDENTITY Runs.plain) [1, 2] (some [0, 0]) (some [1, 1]) (.other Runs.allFree))
      (fun o => o.rv = SUCCESSFUL_RETURN ∧ o.s.status = QPS_SOLVED) = true ∧
    Runs.nullDeref (Runs.hot (Runs.fresh HST_UNKNOWN Runs.plain) [1, 2] (some [0, 0]) (some [1, 1]) (.other Runs.allFree)) = true ∧
    Runs.holds (Runs.hot (Runs.fresh HST_UNKNOWN Runs.plain) [1, 2] (some [2, 0]) (some [1, 1]) .null)
      (fun o => o.rv = SUCCESSFUL_RETURN ∧ o.s.status = QPS_NOTINITIALISED) = true ∧
    Runs.holds (Runs.hot (Runs.fresh HST_IDENTITY Options.setToMPC) [1, 2] (some [0, 0]) (some [1, 1]) .null)
      (fun o => o.rv = RET_INIT_FAILED_REGULARISATION) = true ∧
    Runs.nullDeref (Runs.hot (Runs.fresh HST_UNKNOWN Options.setToMPC) [1, 2] (some [0, 0]) (some [1, 1]) .null) = true := by
  refine ⟨?_, ?_, ?_, ?_, ?_⟩ <;> decide +kernel

/-! ### C41 -/

/-- Some lower limit exceeds the upper limit, by more than the tolerance `EPS` of the solver. -/
def Crossing (n : Nat) (l u : Nat → K) : Prop := ∃ i < n, u i + EPS < l i

theorem Crossing.inconsistent {s : QPB K} {l u : Nat → K} (h : Crossing s.nV l u) :
    s.areBoundsConsistent (some l) (some u) = false := by
  obtain ⟨i, hi, h⟩ := h
  unfold areBoundsConsistent
  rw [List.all_eq_false]
  exact ⟨i, List.mem_range.2 hi, by simpa using h⟩

/-- C41, `init`: crossing limits are never accepted.  The homotopy is not started: either the call has failed before, or it
reports infeasibility and the object says so. -/
theorem C41_init_partial {sq : K → K} {fuel : Nat} {s : QPB K} {H g : Option (Nat → K)} {l u : Nat → K} {nWSR : Int} {c : Option K}
    {xOpt yOpt : Option (Nat → K)} {guess : Option WS} {R : Option (Nat → K)} {o : Out K} (hb : 0 ≤ nWSR)
    (h : init sq fuel s H g (some l) (some u) nWSR c xOpt yOpt guess R = .ok o) (hx : Crossing s.nV l u) :
    o.nWSR = nWSR ∧
    ((o.rv = RET_INVALID_ARGUMENTS ∨ o.rv = RET_NO_CHOLESKY_WITH_INITIAL_GUESS ∨ o.rv = RET_INIT_FAILED ∨
        o.rv = RET_INIT_FAILED_REGULARISATION) ∨
      (o.rv = RET_INIT_FAILED_INFEASIBILITY ∧ o.s.infeasible = true)) := by
  have hn : s.nV ≠ 0 := by
    obtain ⟨i, hi, _⟩ := hx
    omega
  rcases init_outcome h with ⟨a, b⟩ | ⟨g', rfl, s1, cs, o1, e1, n1, ⟨k1, ek⟩, ho⟩
  · refine ⟨a, Or.inl ?_⟩
    rcases b with b | b
    · exfalso
      unfold init at h
      rw [if_neg hn] at h
      dsimp only at h
      generalize (if s.status ≠ QPS_NOTINITIALISED then s.reset else s) = s0 at h
      split at h
      · cases h; cases b
      split at h
      · cases h; cases b
      split at h
      · cases h; cases b
      cases g with
      | none =>
        unfold setupQPdata at h
        dsimp only at h
        rw [if_pos (by decide)] at h
        cases h; cases b
      | some g' =>
        have eS : s0.setupQPdata H (some g') (some l) (some u) =
          (SUCCESSFUL_RETURN, { s0.setH H with g := g', lb := l, ub := u }) := rfl
        rw [eS] at h
        dsimp only at h
        rw [if_neg (by simp)] at h
        unfold solveInitialQP at h
        obtain ⟨e, he, h⟩ := Res.bind_eq_ok.1 h
        cases e with
        | error o' =>
          cases h
          obtain ⟨_, b'⟩ := prepareInitialQP_error he
          rcases b' with b' | b' <;> rw [b] at b' <;> cases b'
        | ok s1 =>
          dsimp only at h
          obtain ⟨o1, e1, h⟩ := Res.bind_eq_ok.1 h
          split at h
          · cases h; cases b
          · split at h
            · cases h; cases b
            · split at h
              · cases h; cases b
              · rename_i hr
                cases h
                obtain ⟨f1, _⟩ := finish_keep o1.s o1.rv o1.nWSR o1.cputime
                  (({ s0.setH H with g := g', lb := l, ub := u } : QPB K).startClock c).1
                rw [f1] at b
                rw [b] at hr
                exact hr ⟨by decide, by decide⟩
    · exact b
  · have hv : s1.nV = s.nV := by
      have := congrArg (fun a => a.2.2.2.2.1) ((prepareInitialQP_far sq ((s.coldData H g' (some l) (some u)).startClock c).2 xOpt yOpt guess R
        nWSR c).2 s1 cs)
      refine this.trans ?_
      obtain ⟨k, e⟩ := startClock_keep (s.coldData H g' (some l) (some u)) c
      rw [e]
      show (s.coldData H g' (some l) (some u)).nV = s.nV
      have hr : (if s.status ≠ QPS_NOTINITIALISED then s.reset else s).nV = s.nV := by split <;> rfl
      unfold coldData setupQPdata setH
      dsimp only
      generalize (if s.status ≠ QPS_NOTINITIALISED then s.reset else s) = s0 at hr ⊢
      cases H with
      | none =>
        dsimp only
        split <;> exact hr
      | some H' => exact hr
    obtain ⟨k0, e0⟩ := stopClock_keep s1 c ((s.coldData H g' (some l) (some u)).startClock c).1
    rw [e0] at e1
    have e2 : ∃ c', o1 = ⟨SUCCESSFUL_RETURN, nWSR, c', { ({ s1 with now := k0 } : QPB K) with infeasible := true }⟩ := by
      unfold hotstart at e1
      rw [if_neg (show ({ s1 with now := k0 } : QPB K).nV ≠ 0 by show s1.nV ≠ 0; rw [hv]; exact hn)] at e1
      dsimp only at e1
      unfold hotstartMain at e1
      rw [if_pos (Crossing.inconsistent (s := { s1 with now := k0 }) (by show Crossing s1.nV l u; rw [hv]; exact hx))] at e1
      exact ⟨_, (Res.ok.inj e1).symm⟩
    obtain ⟨c', e2⟩ := e2
    have hi : o1.s.infeasible = true := by rw [e2]
    refine ⟨by rw [n1, e2], Or.inr ?_⟩
    rcases ho with ⟨_, ho⟩ | ⟨ho, _⟩ | ⟨ho, _⟩ | ⟨ho, _⟩
    · exact ⟨ho, by rw [ek]; exact hi⟩
    · rw [hi] at ho; cases ho
    · rw [hi] at ho; cases ho
    · rw [hi] at ho; cases ho

/-- C41, `hotstart`: crossing limits are noticed, and the object then says that the problem is infeasible; data, iterate and
working set are left alone.  But the return value is `SUCCESSFUL_RETURN`, for every state of the object: the code of
`areBoundsConsistent` is overwritten (src/QProblemB.cpp:455-461).  The property is violated by every such call. -/
theorem C41_hotstart_violated (sq : K → K) (fuel : Nat) {s : QPB K} (gNew : Nat → K) {l u : Nat → K} (nWSR : Int) (c : Option K)
    (hx : Crossing s.nV l u) :
    hotstart sq fuel s gNew (some l) (some u) nWSR c .null = .ok ⟨SUCCESSFUL_RETURN, nWSR, c, { s with infeasible := true }⟩ := by
  unfold hotstart
  rw [if_neg (by obtain ⟨i, hi, _⟩ := hx; omega)]
  dsimp only
  unfold hotstartMain
  rw [if_pos hx.inconsistent]

/-- C41: crossings up to `EPS` are accepted by both functions. -/
theorem C41_tolerance_violated :
    Runs.holds (Runs.cold (Runs.start 2 HST_IDENTITY Runs.plain) none [1, 2] [EPS / 2, 0] [0, 1])
      (fun o => o.rv = SUCCESSFUL_RETURN ∧ o.s.infeasible = false) = true := by
  decide +kernel

/-- Limits crossing in the second variable: `init` reports infeasibility, `hotstart` does not. -/
example : Crossing 2 (Runs.vec [0, 3]) (Runs.vec [1, 2]) ∧
    Runs.holds (Runs.cold (Runs.start 2 HST_IDENTITY Runs.plain) none [1, 2] [0, 3] [1, 2])
      (fun o => o.rv = RET_INIT_FAILED_INFEASIBILITY ∧ o.s.infeasible = true) = true ∧
    Runs.holds (Runs.hot (Runs.cold (Runs.start 2 HST_IDENTITY Runs.plain) none [1, 2] [0, 0] [1, 1]) [1, 2] (some [0, 3]) (some [1, 2]) .null)
      (fun o => o.rv = SUCCESSFUL_RETURN ∧ o.s.infeasible = true) = true := by
  refine ⟨⟨1, by decide, by decide +kernel⟩, ?_, ?_⟩ <;> decide +kernel

end QpOASES.Props
