import Verif.Proofs.QPBRuns
import Verif.Proofs.QPCRuns

/-!
C65: a cold start does not depend on what the object was used for before.
-/
namespace QpOASES.Props
open ReturnValue SubjectToStatus SubjectToType HessianType QProblemStatus

set_option linter.unusedSectionVars false

variable {K : Type} [Field K] [LinearOrder K] [IsStrictOrderedRing K]

/-- Two calls have the same outcome: both hit the same undefined behaviour, or both return the same values and leave the same object or two
objects that are not initialised. -/
def SameOutcome : Res (Out K) → Res (Out K) → Prop
  | .ok o, .ok o' => o.rv = o'.rv ∧ o.nWSR = o'.nWSR ∧ o.cputime = o'.cputime ∧
      (o.s = o'.s ∨ o.s.status = QPS_NOTINITIALISED ∧ o'.s.status = QPS_NOTINITIALISED)
  | .ub e, .ub e' => e = e'
  | _, _ => False

theorem SameOutcome.rfl' (r : Res (Out K)) : SameOutcome r r := by
  cases r with
  | ok o => exact ⟨rfl, rfl, rfl, Or.inl rfl⟩
  | ub e => exact rfl

theorem determineHessianType_xy (b : QPB K) (x y : Nat → K) :
    ({ b with x := x, y := y } : QPB K).determineHessianType = (b.determineHessianType.1, { b.determineHessianType.2 with x := x, y := y }) ∧
    (b.determineHessianType).2.status = b.status := by
  obtain ⟨nV, bounds, H, g, lb, ub, x0, y0, R, hc, tau, ht, regVal, infeasible, unbounded, status, count, ramp0, ramp1, rampOffset, flip, options, clk, now⟩ := b
  unfold QPB.determineHessianType QPB.ensureRegularisation
  dsimp only
  have hb : ∀ {α : Type} (a z : α), (if false = true then a else z) = z := fun _ _ => rfl
  have ht' : ∀ {α : Type} (a z : α), (if true = true then a else z) = a := fun _ _ => rfl
  cases hE : options.enableRegularisation <;> cases ht <;> cases H <;> dsimp only <;>
    first
    | exact ⟨rfl, rfl⟩
    | (simp only [hE, hb, ht']; done)
    | skip
  all_goals
    split
    · split
      · split <;> exact ⟨rfl, rfl⟩
      · exact ⟨rfl, rfl⟩
      · rename_i a z _
        cases a <;> cases z <;> simp [hE]
    · exact ⟨rfl, rfl⟩

theorem prepareInitialQP_xy (sq : K → K) (b : QPB K) (x y : Nat → K) (xOpt yOpt : Option (Nat → K)) (guess : Option WS) (R : Option (Nat → K))
    (nWSR : Int) (c : Option K) :
    QPB.prepareInitialQP sq { b with x := x, y := y } xOpt yOpt guess R nWSR c = QPB.prepareInitialQP sq b xOpt yOpt guess R nWSR c ∨
    ∃ s, s.status = QPS_NOTINITIALISED ∧ QPB.prepareInitialQP sq b xOpt yOpt guess R nWSR c = .ok (.error ⟨RET_INIT_FAILED, nWSR, c, s⟩) ∧
      QPB.prepareInitialQP sq { b with x := x, y := y } xOpt yOpt guess R nWSR c = .ok (.error ⟨RET_INIT_FAILED, nWSR, c, { s with x := x, y := y }⟩) := by
  obtain ⟨e, es⟩ := determineHessianType_xy { b with status := QPS_NOTINITIALISED } x y
  unfold QPB.prepareInitialQP
  dsimp only at e es ⊢
  rw [e]
  generalize ({ b with status := QPS_NOTINITIALISED } : QPB K).determineHessianType = p at es ⊢
  obtain ⟨r, p⟩ := p
  dsimp only at es ⊢
  by_cases hr : r ≠ SUCCESSFUL_RETURN
  · rw [if_pos hr, if_pos hr]
    exact Or.inr ⟨p, es, rfl, rfl⟩
  · rw [if_neg hr, if_neg hr]
    exact Or.inl rfl

theorem solveInitialQP_xy (sq : K → K) (fuel : Nat) (b : QPB K) (x y : Nat → K) (xOpt yOpt : Option (Nat → K)) (guess : Option WS) (R : Option (Nat → K))
    (nWSR : Int) (c : Option K) :
    SameOutcome (QPB.solveInitialQP sq fuel { b with x := x, y := y } xOpt yOpt guess R nWSR c) (QPB.solveInitialQP sq fuel b xOpt yOpt guess R nWSR c) := by
  have ec : (({ b with x := x, y := y } : QPB K).startClock c).1 = (b.startClock c).1 ∧
      (({ b with x := x, y := y } : QPB K).startClock c).2 = { (b.startClock c).2 with x := x, y := y } := by
    cases c <;> exact ⟨rfl, rfl⟩
  unfold QPB.solveInitialQP
  dsimp only
  rw [ec.1, ec.2]
  rcases prepareInitialQP_xy sq (b.startClock c).2 x y xOpt yOpt guess R nWSR c with h | ⟨s, hs, h1, h2⟩
  · rw [h]
    exact SameOutcome.rfl' _
  · rw [h1, h2, Res.bind_ok, Res.bind_ok]
    exact ⟨rfl, rfl, rfl, Or.inr ⟨hs, hs⟩⟩

/-- The object has been used, or it is as a `reset` would leave it: a new object of unknown Hessian type. -/
def Erased (s : QPB K) : Prop := s.status ≠ QPS_NOTINITIALISED ∨ s.reset = s

theorem Erased.init {s : QPB K} (h : Erased s) : (if s.status ≠ QPS_NOTINITIALISED then s.reset else s) = s.reset := by
  rcases h with h | h
  · rw [if_pos h]
  · split
    · rfl
    · exact h.symm

/-- **C65** (part), bound-constrained solver: for two objects of the same size with the same options, clock and number of solved QPs, which have been
used for anything or are new and of unknown type, `init` has the same outcome. -/
theorem C65_bounds_partial (sq : K → K) (fuel : Nat) {s t : QPB K} (hs : Erased s) (ht : Erased t) (hn : s.nV = t.nV) (h0 : s.nV ≠ 0)
    (ho : s.options = t.options) (hc : s.clk = t.clk) (hw : s.now = t.now) (hk : s.count = t.count) (H g lb ub : Option (Nat → K)) (nWSR : Int)
    (c : Option K) (xOpt yOpt : Option (Nat → K)) (guess : Option WS) (R : Option (Nat → K)) :
    SameOutcome (s.init sq fuel H g lb ub nWSR c xOpt yOpt guess R) (t.init sq fuel H g lb ub nWSR c xOpt yOpt guess R) := by
  have er : s.reset = { t.reset with H := s.H, g := s.g, lb := s.lb, ub := s.ub, x := s.x, y := s.y } := by
    unfold QPB.reset
    rw [← hn, ← ho, ← hc, ← hw, ← hk]
  unfold QPB.init
  rw [if_neg h0, if_neg (show ¬ t.nV = 0 by rw [← hn]; exact h0), hs.init, ht.init, er]
  have hst : t.reset.status = QPS_NOTINITIALISED := rfl
  have hht : t.reset.hessianType = HST_UNKNOWN := rfl
  generalize t.reset = b at hst hht
  dsimp only
  split
  · exact ⟨rfl, rfl, rfl, Or.inr ⟨hst, hst⟩⟩
  split
  · exact ⟨rfl, rfl, rfl, Or.inr ⟨hst, hst⟩⟩
  split
  · exact ⟨rfl, rfl, rfl, Or.inr ⟨hst, hst⟩⟩
  have key : ∀ (b' : QPB K), ({ b with H := s.H, g := s.g, lb := s.lb, ub := s.ub, x := s.x, y := s.y } : QPB K).setH H = { b' with g := s.g, lb := s.lb, ub := s.ub, x := s.x, y := s.y } →
      b.setH H = b' → b'.status = QPS_NOTINITIALISED → SameOutcome
      (match ({ b with H := s.H, g := s.g, lb := s.lb, ub := s.ub, x := s.x, y := s.y } : QPB K).setupQPdata H g lb ub with
      | (r, s) => if r ≠ SUCCESSFUL_RETURN then .ok ⟨RET_INVALID_ARGUMENTS, nWSR, c, s⟩ else QPB.solveInitialQP sq fuel s xOpt yOpt guess R nWSR c)
      (match b.setupQPdata H g lb ub with
      | (r, s) => if r ≠ SUCCESSFUL_RETURN then .ok ⟨RET_INVALID_ARGUMENTS, nWSR, c, s⟩ else QPB.solveInitialQP sq fuel s xOpt yOpt guess R nWSR c) := by
    intro b' e1 e2 e3
    unfold QPB.setupQPdata
    dsimp only
    rw [e1, e2]
    cases g with
    | none =>
      dsimp only
      rw [if_pos (by decide), if_pos (by decide)]
      exact ⟨rfl, rfl, rfl, Or.inr ⟨e3, e3⟩⟩
    | some g =>
      dsimp only
      rw [if_neg (by simp), if_neg (by simp)]
      exact solveInitialQP_xy sq fuel { b' with g := g, lb := QPB.lowerOf lb, ub := QPB.upperOf ub } s.x s.y xOpt yOpt guess R nWSR c
  cases H with
  | none =>
    refine key { b with hessianType := HST_ZERO, H := none } ?_ ?_ hst
    · unfold QPB.setH
      dsimp only
      rw [if_neg (by rw [hht]; decide)]
    · unfold QPB.setH
      dsimp only
      rw [if_neg (by rw [hht]; decide)]
  | some H => exact key { b with H := some fun i j => H (i * b.nV + j) } rfl rfl hst

/-- The same for the solver for general constraints. -/
def SameOutcomeC : Res (OutC K) → Res (OutC K) → Prop
  | .ok o, .ok o' => o.rv = o'.rv ∧ o.nWSR = o'.nWSR ∧ o.cputime = o'.cputime ∧
      (o.s = o'.s ∨ o.s.status = QPS_NOTINITIALISED ∧ o'.s.status = QPS_NOTINITIALISED)
  | .ub e, .ub e' => e = e'
  | _, _ => False

theorem SameOutcomeC.rfl' (r : Res (OutC K)) : SameOutcomeC r r := by
  cases r with
  | ok o => exact ⟨rfl, rfl, rfl, Or.inl rfl⟩
  | ub e => exact rfl

/-- The object with other iterates. -/
def withIterates (b : QPC K) (x y Ax Axl Axu : Nat → K) : QPC K :=
  { b with
    toQPB := { b.toQPB with x := x, y := y }
    Ax := Ax
    Axl := Axl
    Axu := Axu }

theorem prepareInitialQP_iterates (sq : K → K) (b : QPC K) (x y Ax Axl Axu : Nat → K) (xOpt yOpt : Option (Nat → K)) (gB gC : Option WS)
    (R : Option (Nat → K)) (nWSR : Int) (c : Option K) :
    QPC.prepareInitialQP sq (withIterates b x y Ax Axl Axu) xOpt yOpt gB gC R nWSR c = QPC.prepareInitialQP sq b xOpt yOpt gB gC R nWSR c ∨
    ∃ s, s.status = QPS_NOTINITIALISED ∧ QPC.prepareInitialQP sq b xOpt yOpt gB gC R nWSR c = .ok (.error ⟨RET_INIT_FAILED, nWSR, c, s⟩) ∧
      QPC.prepareInitialQP sq (withIterates b x y Ax Axl Axu) xOpt yOpt gB gC R nWSR c =
        .ok (.error ⟨RET_INIT_FAILED, nWSR, c, withIterates s x y Ax Axl Axu⟩) := by
  obtain ⟨e, es⟩ := determineHessianType_xy { b.toQPB with status := QPS_NOTINITIALISED } x y
  unfold QPC.prepareInitialQP withIterates
  dsimp only at e es ⊢
  rw [e]
  generalize ({ b.toQPB with status := QPS_NOTINITIALISED } : QPB K).determineHessianType = p at es ⊢
  obtain ⟨r, p⟩ := p
  dsimp only at es ⊢
  by_cases hr : r ≠ SUCCESSFUL_RETURN
  · rw [if_pos hr, if_pos hr]
    exact Or.inr ⟨{ b with toQPB := p }, es, rfl, rfl⟩
  · rw [if_neg hr, if_neg hr]
    exact Or.inl rfl

theorem solveInitialQP_iterates (sq : K → K) (fuel : Nat) (b : QPC K) (x y Ax Axl Axu : Nat → K) (xOpt yOpt : Option (Nat → K)) (gB gC : Option WS)
    (R : Option (Nat → K)) (nWSR : Int) (c : Option K) :
    SameOutcomeC (QPC.solveInitialQP sq fuel (withIterates b x y Ax Axl Axu) xOpt yOpt gB gC R nWSR c)
      (QPC.solveInitialQP sq fuel b xOpt yOpt gB gC R nWSR c) := by
  have ec : ((withIterates b x y Ax Axl Axu).toQPB.startClock c).1 = (b.toQPB.startClock c).1 ∧
      ({ withIterates b x y Ax Axl Axu with toQPB := ((withIterates b x y Ax Axl Axu).toQPB.startClock c).2 } : QPC K) =
        withIterates { b with toQPB := (b.toQPB.startClock c).2 } x y Ax Axl Axu := by
    cases c <;> exact ⟨rfl, rfl⟩
  unfold QPC.solveInitialQP
  dsimp only
  rw [ec.1, ec.2]
  rcases prepareInitialQP_iterates sq { b with toQPB := (b.toQPB.startClock c).2 } x y Ax Axl Axu xOpt yOpt gB gC R nWSR c with h | ⟨s, hs, h1, h2⟩
  · rw [h]
    exact SameOutcomeC.rfl' _
  · rw [h1, h2, Res.bind_ok, Res.bind_ok]
    exact ⟨rfl, rfl, rfl, Or.inr ⟨hs, hs⟩⟩

theorem solveInitialQP_same (sq : K → K) (fuel : Nat) (u v : QPC K) (e : u = withIterates v u.x u.y u.Ax u.Axl u.Axu)
    (xOpt yOpt : Option (Nat → K)) (gB gC : Option WS) (R : Option (Nat → K)) (nWSR : Int) (c : Option K) :
    SameOutcomeC (QPC.solveInitialQP sq fuel u xOpt yOpt gB gC R nWSR c) (QPC.solveInitialQP sq fuel v xOpt yOpt gB gC R nWSR c) := by
  rw [e]
  exact solveInitialQP_iterates sq fuel v _ _ _ _ _ xOpt yOpt gB gC R nWSR c

/-- The object has been used, or it is as a `reset` would leave it: a new object of unknown Hessian type. -/
def ErasedC (s : QPC K) : Prop := s.status ≠ QPS_NOTINITIALISED ∨ s.reset = s

theorem ErasedC.init {s : QPC K} (h : ErasedC s) : (if s.status ≠ QPS_NOTINITIALISED then s.reset else s) = s.reset := by
  rcases h with h | h
  · rw [if_pos h]
  · split
    · rfl
    · exact h.symm

/-- The data `init` overwrites: those of `s` in `b`. -/
def withData (b s : QPC K) : QPC K :=
  { b with
    toQPB := { b.toQPB with H := s.H, g := s.g, lb := s.lb, ub := s.ub, x := s.x, y := s.y }
    A := s.A
    lbA := s.lbA
    ubA := s.ubA
    Ax := s.Ax
    Axl := s.Axl
    Axu := s.Axu }

/-- **C65** (part), solver for general constraints. -/
theorem C65_general_partial (sq : K → K) (fuel : Nat) {s t : QPC K} (hs : ErasedC s) (ht : ErasedC t) (hn : s.nV = t.nV) (hm : s.nC = t.nC)
    (hz : s.sizeT = t.sizeT) (h0 : s.nV ≠ 0) (hA : s.nC = 0 → s.A = t.A ∧ s.lbA = t.lbA ∧ s.ubA = t.ubA)
    (ho : s.options = t.options) (hc : s.clk = t.clk) (hw : s.now = t.now) (hk : s.count = t.count) (H g A lb ub lbA ubA : Option (Nat → K))
    (nWSR : Int) (c : Option K) (xOpt yOpt : Option (Nat → K)) (gB gC : Option WS) (R : Option (Nat → K)) :
    SameOutcomeC (s.init sq fuel H g A lb ub lbA ubA nWSR c xOpt yOpt gB gC R) (t.init sq fuel H g A lb ub lbA ubA nWSR c xOpt yOpt gB gC R) := by
  have er : s.reset = withData t.reset s := by
    unfold withData QPC.reset QPB.reset
    rw [← hn, ← hm, ← hz, ← ho, ← hc, ← hw, ← hk]
  unfold QPC.init
  rw [if_neg h0, if_neg (show ¬ t.nV = 0 by rw [← hn]; exact h0), hs.init, ht.init, er]
  have hst : t.reset.status = QPS_NOTINITIALISED := rfl
  have hht : t.reset.hessianType = HST_UNKNOWN := rfl
  have hm' : s.nC = t.reset.nC := hm
  have hA' : t.reset.nC = 0 → s.A = t.reset.A ∧ s.lbA = t.reset.lbA ∧ s.ubA = t.reset.ubA := fun h => hA (hm.trans h)
  generalize t.reset = b at hst hht hA' hm'
  dsimp only
  rw [show (withData b s).nV = b.nV from rfl, show (withData b s).nC = b.nC from rfl]
  split
  · exact ⟨rfl, rfl, rfl, Or.inr ⟨hst, hst⟩⟩
  split
  · exact ⟨rfl, rfl, rfl, Or.inr ⟨hst, hst⟩⟩
  split
  · exact ⟨rfl, rfl, rfl, Or.inr ⟨hst, hst⟩⟩
  split
  · exact ⟨rfl, rfl, rfl, Or.inr ⟨hst, hst⟩⟩
  have key : ∀ (b' : QPB K), (withData b s).toQPB.setH H = { b' with g := s.g, lb := s.lb, ub := s.ub, x := s.x, y := s.y } →
      b.toQPB.setH H = b' → b'.status = QPS_NOTINITIALISED → SameOutcomeC
      (match (withData b s).setupQPdata H g A lb ub lbA ubA with
      | (r, s) => if r ≠ SUCCESSFUL_RETURN then .ok ⟨RET_INVALID_ARGUMENTS, nWSR, c, s⟩ else QPC.solveInitialQP sq fuel s xOpt yOpt gB gC R nWSR c)
      (match b.setupQPdata H g A lb ub lbA ubA with
      | (r, s) => if r ≠ SUCCESSFUL_RETURN then .ok ⟨RET_INVALID_ARGUMENTS, nWSR, c, s⟩ else QPC.solveInitialQP sq fuel s xOpt yOpt gB gC R nWSR c) := by
    intro b' e1 e2 e3
    unfold QPC.setupQPdata QPB.setupQPdata
    dsimp only
    rw [e1, e2]
    cases g with
    | none =>
      dsimp only
      rw [if_pos (show RET_INVALID_ARGUMENTS ≠ SUCCESSFUL_RETURN by decide), if_pos (show RET_INVALID_ARGUMENTS ≠ SUCCESSFUL_RETURN by decide)]
      exact ⟨rfl, rfl, rfl, Or.inr ⟨e3, e3⟩⟩
    | some g =>
      dsimp only
      rw [if_neg (show ¬ SUCCESSFUL_RETURN ≠ SUCCESSFUL_RETURN by decide), if_neg (show ¬ SUCCESSFUL_RETURN ≠ SUCCESSFUL_RETURN by decide),
        show (withData b s).nC = b.nC from rfl]
      by_cases hC : b.nC = 0
      · obtain ⟨a1, a2, a3⟩ := hA' hC
        rw [if_pos hC, if_pos hC]
        dsimp only
        rw [if_neg (show ¬ SUCCESSFUL_RETURN ≠ SUCCESSFUL_RETURN by decide), if_neg (show ¬ SUCCESSFUL_RETURN ≠ SUCCESSFUL_RETURN by decide)]
        have := solveInitialQP_iterates sq fuel { b with toQPB := { b' with g := g, lb := QPB.lowerOf lb, ub := QPB.upperOf ub } } s.x s.y s.Ax s.Axl s.Axu
          xOpt yOpt gB gC R nWSR c
        unfold withIterates at this
        unfold withData
        rw [a1, a2, a3]
        exact this
      · rw [if_neg hC, if_neg hC]
        cases A with
        | none =>
          dsimp only
          rw [if_pos (show RET_INVALID_ARGUMENTS ≠ SUCCESSFUL_RETURN by decide), if_pos (show RET_INVALID_ARGUMENTS ≠ SUCCESSFUL_RETURN by decide)]
          exact ⟨rfl, rfl, rfl, Or.inr ⟨e3, e3⟩⟩
        | some A =>
          dsimp only
          rw [if_neg (show ¬ SUCCESSFUL_RETURN ≠ SUCCESSFUL_RETURN by decide), if_neg (show ¬ SUCCESSFUL_RETURN ≠ SUCCESSFUL_RETURN by decide)]
          exact solveInitialQP_same sq fuel _ _ rfl xOpt yOpt gB gC R nWSR c
  cases H with
  | none =>
    refine key { b.toQPB with hessianType := HST_ZERO, H := none } ?_ ?_ hst
    · unfold QPB.setH withData
      dsimp only
      rw [if_neg (by rw [hht]; decide)]
    · unfold QPB.setH
      dsimp only
      rw [if_neg (by rw [hht]; decide)]
  | some H => exact key { b.toQPB with H := some fun i j => H (i * b.nV + j) } rfl rfl hst

/-! ### Non-vacuity -/

/-- A new object of unknown type with default ramping parameters is as `reset` leaves it. -/
theorem Erased.new (n : Int) (clk : Nat → K) (o : Options K) (h0 : o.initialRamping = (Options.setToDefault : Options K).initialRamping)
    (h1 : o.finalRamping = (Options.setToDefault : Options K).finalRamping) :
    Erased ({ QPB.new n HST_UNKNOWN clk with options := o } : QPB K) := by
  refine Or.inr ?_
  unfold QPB.reset QPB.new
  dsimp only
  rw [h0, h1]

theorem ErasedC.new (n m : Int) (clk : Nat → K) (o : Options K) (h0 : o.initialRamping = (Options.setToDefault : Options K).initialRamping)
    (h1 : o.finalRamping = (Options.setToDefault : Options K).finalRamping) :
    ErasedC ({ QPC.new n m HST_UNKNOWN clk with options := o } : QPC K) := by
  refine Or.inr ?_
  unfold QPC.reset QPB.reset QPC.new QPB.new
  dsimp only
  rw [h0, h1]

section
open QpOASES.Runs

/-- A new object. -/
example : Erased (start 1 HST_UNKNOWN plain) := Erased.new 1 _ _ (by decide +kernel) (by decide +kernel)

/-- An object that has solved a QP, after `resetCounter`: it counts as used, and it has the size, options, clock and counter of the new object. -/
example : ∃ o, cold (start 1 HST_UNKNOWN plain) (some [1]) [-1] [-5] [5] = .ok o ∧
    (decide (o.s.status ≠ QPS_NOTINITIALISED) && o.s.nV == 1 && o.s.now == 0 && o.s.count == 1) = true := of_holds (by decide +kernel)

example : ErasedC (startC 2 1 HST_UNKNOWN plain) := ErasedC.new 2 1 _ _ (by decide +kernel) (by decide +kernel)

example : ∃ o, coldC (startC 2 1 HST_UNKNOWN plain) (some [4, 0, 0, 25]) [0, 0] [3, 4] [-5, -5] [5, 5] [1] [2] = .ok o ∧
    (decide (o.s.status ≠ QPS_NOTINITIALISED) && o.s.nV == 2 && o.s.nC == 1 && o.s.sizeT == 1 && o.s.now == 0) = true := of_holds (by decide +kernel)

/-! ### Counterexamples to the full statement -/

/-- A second call with the arguments of the first. -/
def callAgain (r : Res (Out ℚ)) (H : Option (List ℚ)) (g l u : List ℚ) : Res (Out ℚ) := do
  let o ← r
  cold o.s H g l u

/-- A call without Hessian and gradient. -/
def nothingGiven (s : QPB ℚ) : Res (Out ℚ) := QPB.init root 5 s none none none none 10 none none none none none

/-- A cold start with a limit for the number of working set recalculations. -/
def coldLimit (s : QPB ℚ) (H : List ℚ) (g l u : List ℚ) (nWSR : Int) : Res (Out ℚ) :=
  QPB.init root 5 s (some (vec H)) (some (vec g)) (some (vec l)) (some (vec u)) nWSR none none none none none

/-- **C65** is violated: the Hessian type given to the constructor holds for the first `init` only.  The same call on the same object solves
`min 1/2 x² - x` the first time and `min -x` the second time. -/
theorem C65_type_violated :
    (∃ o, cold (start 1 HST_IDENTITY plain) none [-1] [-5] [5] = .ok o ∧
      (o.rv == SUCCESSFUL_RETURN && o.s.status == QPS_SOLVED && decide (o.s.x 0 = 1)) = true) ∧
    ∃ o, callAgain (cold (start 1 HST_IDENTITY plain) none [-1] [-5] [5]) none [-1] [-5] [5] = .ok o ∧
      (o.rv == SUCCESSFUL_RETURN && o.s.status == QPS_SOLVED && decide (o.s.x 0 = 5)) = true :=
  ⟨of_holds (by decide +kernel), of_holds (by decide +kernel)⟩

/-- **C65** is violated: a refused call without Hessian makes the next `init` ignore the Hessian it is given.  On a new object `min 1/2 x² - x` is
solved; after the refused call the same arguments solve `min -x`. -/
theorem C65_refused_violated :
    (∃ o, cold (start 1 HST_UNKNOWN plain) (some [1]) [-1] [-5] [5] = .ok o ∧
      (o.rv == SUCCESSFUL_RETURN && o.s.status == QPS_SOLVED && decide (o.s.x 0 = 1)) = true) ∧
    (∃ o, nothingGiven (start 1 HST_UNKNOWN plain) = .ok o ∧ (o.rv == RET_INVALID_ARGUMENTS && o.s.status == QPS_NOTINITIALISED) = true) ∧
    ∃ o, callAgain (nothingGiven (start 1 HST_UNKNOWN plain)) (some [1]) [-1] [-5] [5] = .ok o ∧
      (o.rv == SUCCESSFUL_RETURN && o.s.status == QPS_SOLVED && decide (o.s.x 0 = 5)) = true :=
  ⟨of_holds (by decide +kernel), of_holds (by decide +kernel), of_holds (by decide +kernel)⟩

/-- Options with other ramping parameters. -/
def ramped : Options ℚ := { plain with enableRamping := true, initialRamping := 10, finalRamping := 20 }

/-- **C65** is violated: ramping parameters passed to `setOptions` do not count before the second `init`.  An object that has been used and is then
given the options does two recalculations to another point than a new object given the same options. -/
theorem C65_ramp_violated :
    (∃ o, coldLimit (start 2 HST_UNKNOWN ramped) [4, 0, 0, 4] [-1, -30] [-5, -5] [5, 5] 2 = .ok o ∧
      (o.rv == RET_MAX_NWSR_REACHED && decide (o.s.x 0 = 1 / 204)) = true) ∧
    ∃ o, (cold (start 2 HST_UNKNOWN plain) (some [4, 0, 0, 4]) [-1, -30] [-5, -5] [5, 5] >>= fun o =>
        coldLimit (o.s.setOptions ramped) [4, 0, 0, 4] [-1, -30] [-5, -5] [5, 5] 2) = .ok o ∧
      (o.rv == RET_MAX_NWSR_REACHED && decide (o.s.x 0 = 1 / 14)) = true :=
  ⟨of_holds (by decide +kernel), of_holds (by decide +kernel)⟩

end

end QpOASES.Props
