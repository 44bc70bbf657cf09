import Verif.Proofs.QPBCheck

/-!
Calls of the bound-constrained solver: one cold start, then any number of hotstarts.
-/
namespace QpOASES
open Finset Props Spec SubjectToStatus SubjectToType ReturnValue HessianType QProblemStatus

set_option linter.unusedSectionVars false

variable {K : Type} [Field K] [LinearOrder K] [IsStrictOrderedRing K]

namespace QPB

theorem diagScan_zero {H : Nat → Nat → K} : ∀ (m i : Nat) (a b : Bool) {isId : Bool},
    diagScan H m i a b = some (some (isId, true)) → b = true ∧ ∀ j, i ≤ j → j < i + m → |H j j| ≤ EPS := by
  intro m
  induction m with
  | zero =>
    intro i a b isId h
    simp only [diagScan, Option.some.injEq, Prod.mk.injEq] at h
    exact ⟨h.2, fun j h1 h2 => by omega⟩
  | succ m ih =>
    intro i a b isId h
    simp only [diagScan] at h
    split at h
    · cases h
    · split at h
      · cases h
      · obtain ⟨h1, h2⟩ := ih _ _ _ h
        split at h1
        · cases h1
        · rename_i hE
          refine ⟨h1, fun j k1 k2 => ?_⟩
          by_cases e : j = i
          · subst e; exact not_lt.1 hE
          · exact h2 j (by omega) (by omega)

/-- The Hessian described by the declared type and the array passed: the identity if declared as such, else the array. -/
structure GivenHessian (s : QPB K) (M : Nat → Nat → K) : Prop where
  ident : s.hessianType = HST_IDENTITY → ∀ i j, M i j = if i = j then 1 else 0
  stored : s.hessianType ≠ HST_IDENTITY → s.hessianType ≠ HST_ZERO ∧ s.H = some M
  unknown : s.hessianType = HST_UNKNOWN → ∃ i < s.nV, ∃ j < s.nV, EPS < |M i j|

theorem GivenHessian.spec {s : QPB K} {M : Nat → Nat → K} (h : GivenHessian s M) (hsym : QP.Symmetric s.nV M) :
    (s.determineHessianType).2.hessianType ≠ HST_ZERO ∧ QP.Symmetric s.nV (s.determineHessianType).2.Heff ∧
    (∀ i < s.nV, ∀ j < s.nV, |(s.determineHessianType).2.Heff i j - M i j| ≤ EPS) ∧
    (s.hessianType ≠ HST_UNKNOWN → (s.determineHessianType).2.Heff = M) := by
  by_cases hid : s.hessianType = HST_IDENTITY
  · have e : s.determineHessianType = (SUCCESSFUL_RETURN, s) := by
      unfold determineHessianType; rw [hid]
    have hM : s.Heff = M := by
      funext i j
      rw [h.ident hid]
      unfold Heff
      rw [hid]
    rw [e]
    dsimp only
    rw [hM]
    exact ⟨by rw [hid]; decide, hsym, fun i _ j _ => by rw [sub_self, abs_zero]; exact EPS_pos'.le, fun _ => rfl⟩
  · obtain ⟨hz, hH⟩ := h.stored hid
    have hz' : (s.determineHessianType).2.hessianType ≠ HST_ZERO := by
      unfold determineHessianType
      split
      · exact absurd ‹_› hz
      · exact absurd ‹_› hid
      · rename_i H' h1 h2
        rw [hH] at h2; cases h2
        dsimp only
        split
        · rename_i hd
          split
          · split <;> (show HST_INDEF ≠ HST_ZERO; decide)
          · show HST_POSDEF ≠ HST_ZERO; decide
          · rename_i isId isZ hsc
            have hzf : isZ = false := by
              cases isZ with
              | false => rfl
              | true =>
                exfalso
                obtain ⟨i, hi, j, hj, hb⟩ := h.unknown h1
                by_cases e : i = j
                · subst e
                  exact absurd hb (not_lt.2 ((diagScan_zero _ _ _ _ hsc).2 i (Nat.zero_le _) (by omega)))
                · exact absurd hb (not_lt.2 (isDiag_spec hd hi hj e))
            subst hzf
            dsimp only
            rw [if_neg (by decide)]
            split
            · show HST_IDENTITY ≠ HST_ZERO; decide
            · show HST_POSDEF ≠ HST_ZERO; decide
        · show HST_POSDEF ≠ HST_ZERO; decide
      · exact hz
      · simp_all
    obtain ⟨k1, k2⟩ := determineHessianType_near hH hid hz'
    refine ⟨hz', ?_, k2, k1⟩
    obtain ⟨t, o, e1, e2⟩ := determineHessianType_frame s
    have : (s.determineHessianType).2.Heff = ({ s with hessianType := t, options := o } : QPB K).Heff := by rw [e1]
    rw [this]
    by_cases ht : ({ s with hessianType := t, options := o } : QPB K).scalarH
    · intro i _ j _
      rw [Heff_scalar ht, Heff_scalar ht]
      by_cases e : i = j
      · rw [if_pos e, if_pos e.symm]
      · rw [if_neg e, if_neg (Ne.symm e)]
    · intro i hi j hj
      rw [Heff_of_H ht hH, Heff_of_H ht hH]
      exact hsym i hi j hj

/-- The object after the data of a cold start have been stored. -/
def coldData (s : QPB K) (H : Option (Nat → K)) (g : Nat → K) (lb ub : Option (Nat → K)) : QPB K :=
  ((if s.status ≠ QPS_NOTINITIALISED then s.reset else s).setupQPdata H (some g) lb ub).2

/-- A new object, or one that has been used before. -/
inductive Usable : QPB K → Prop
  | fresh (n : Int) (t : HessianType) (clk : Nat → K) (o : Options K) : Usable ((QPB.new n t clk).setOptions o)
  | used (s : QPB K) (h : s.status ≠ QPS_NOTINITIALISED) (hn : s.nV ≠ 0) : Usable s

theorem setH_frame (s : QPB K) (H : Option (Nat → K)) : ∃ h t, s.setH H = { s with H := h, hessianType := t } := by
  unfold setH
  split
  · split
    · exact ⟨s.H, s.hessianType, rfl⟩
    · exact ⟨_, _, rfl⟩
  · exact ⟨_, s.hessianType, rfl⟩

theorem Usable.cold {s : QPB K} (h : Usable s) (H : Option (Nat → K)) (g : Nat → K) (lb ub : Option (Nat → K)) :
    let c := s.coldData H g lb ub
    c.bounds.free = [] ∧ c.bounds.fixed = [] ∧ c.bounds.n = c.nV ∧ c.nV = s.nV ∧ c.nV ≠ 0 ∧ c.regVal = 0 ∧ c.options = s.options ∧
    c.g = g ∧ c.lb = lowerOf lb ∧ c.ub = upperOf ub ∧
    (c.ramp0 = s.options.initialRamping ∧ c.ramp1 = s.options.finalRamping ∨
      c.ramp0 = (Options.setToDefault : Options K).initialRamping ∧ c.ramp1 = (Options.setToDefault : Options K).finalRamping) := by
  intro c
  have hc : c = s.coldData H g lb ub := rfl
  cases h with
  | fresh n t clk o =>
    unfold coldData at hc
    rw [if_neg (show ¬ ((QPB.new n t clk).setOptions o).status ≠ QPS_NOTINITIALISED from fun h => h rfl)] at hc
    obtain ⟨h', t', e⟩ := setH_frame ((QPB.new n t clk).setOptions o) H
    unfold setupQPdata at hc
    rw [e] at hc
    rw [hc]
    refine ⟨rfl, rfl, rfl, rfl, ?_, rfl, rfl, rfl, rfl, rfl, Or.inr ⟨rfl, rfl⟩⟩
    show (if n ≤ 0 then 1 else n.toNat) ≠ 0
    split <;> omega
  | used _ h hn =>
    unfold coldData at hc
    rw [if_pos h] at hc
    obtain ⟨h', t', e⟩ := setH_frame s.reset H
    unfold setupQPdata at hc
    rw [e] at hc
    rw [hc]
    exact ⟨rfl, rfl, rfl, rfl, hn, rfl, rfl, rfl, rfl, rfl, Or.inl ⟨rfl, rfl⟩⟩

/-- Options and limits a cold start is specified for: tolerances with the right signs, no
regularisation, ramping only for at least two variables, consistent limits. -/
structure Admissible (s : QPB K) (l u : Nat → K) : Prop where
  options : OptionsOK s.options
  ramp : s.options.enableRamping = true → 2 ≤ s.nV ∧ 0 ≤ s.options.initialRamping ∧ 0 ≤ s.options.finalRamping
  relax : 0 ≤ s.options.boundRelaxation
  noReg : s.options.enableRegularisation = false
  box : ∀ i < s.nV, l i ≤ u i
  eq : s.options.enableEqualities = true → ∀ i < s.nV, l i > u i - s.options.boundTolerance → l i = u i

theorem Usable.coldOK {s : QPB K} (h : Usable s) {H : Option (Nat → K)} {g : Nat → K} {lb ub : Option (Nat → K)}
    (ha : Admissible s (lowerOf lb) (upperOf ub)) {M : Nat → Nat → K} (hM : GivenHessian (s.coldData H g lb ub) M)
    (hsym : QP.Symmetric s.nV M) : ColdOK (s.coldData H g lb ub) := by
  obtain ⟨c1, c2, c3, c4, c5, c6, c7, c8, c9, c10, c11⟩ := h.cold H g lb ub
  obtain ⟨m1, m2, m3, m4⟩ := hM.spec (by rw [c4]; exact hsym)
  refine ⟨c1, c2, c3, c5, by rw [c7]; exact ha.options, ?_, by rw [c7]; exact ha.relax, by rw [c7]; exact ha.noReg,
    ?_, by rw [c4, c9, c10]; exact ha.box, by rw [c4, c7, c9, c10]; exact ha.eq, m1, m2⟩
  · rw [c7, c4]
    intro hr
    obtain ⟨r1, r2, r3⟩ := ha.ramp hr
    rcases c11 with ⟨e1, e2⟩ | ⟨e1, e2⟩
    · rw [e1, e2]; exact ⟨r1, r2, r3⟩
    · rw [e1, e2]
      refine ⟨r1, ?_, ?_⟩
      · show (0 : K) ≤ 1/2; positivity
      · show (0 : K) ≤ 1; exact zero_le_one
  · unfold usingRegularisation
    rw [c6]
    exact decide_eq_false (not_lt.2 ZERO_pos.le)

/-- Either the arguments are rejected or the initial QP is solved. -/
theorem init_cases (sq : K → K) (fuel : Nat) {s : QPB K} (hn : s.nV ≠ 0) (H : Option (Nat → K)) (g : Nat → K) (lb ub : Option (Nat → K))
    (nWSR : Int) (cputime : Option K) (xOpt yOpt : Option (Nat → K)) (guess : Option WS) :
    (∃ o, init sq fuel s H (some g) lb ub nWSR cputime xOpt yOpt guess none = .ok o ∧ o.rv = RET_INVALID_ARGUMENTS) ∨
    init sq fuel s H (some g) lb ub nWSR cputime xOpt yOpt guess none =
      solveInitialQP sq fuel (s.coldData H g lb ub) xOpt yOpt guess none nWSR cputime := by
  unfold init coldData
  rw [if_neg hn]
  dsimp only
  generalize (if s.status ≠ QPS_NOTINITIALISED then s.reset else s) = s0
  split
  · exact Or.inl ⟨_, rfl, rfl⟩
  · split
    · exact Or.inl ⟨_, rfl, rfl⟩
    · rw [if_neg (by simp)]
      exact Or.inr rfl

theorem init_spec {sq : K → K} (fuel : Nat) {s : QPB K} (h : Usable s) (hfar : s.options.enableFarBounds = false) {H : Option (Nat → K)} {g : Nat → K} {lb ub : Option (Nat → K)}
    (ha : Admissible s (lowerOf lb) (upperOf ub)) {M : Nat → Nat → K} (hM : GivenHessian (s.coldData H g lb ub) M)
    (hsym : QP.Symmetric s.nV M) (hsq : ((s.coldData H g lb ub).determineHessianType).2.SqrtFor sq)
    (nWSR : Int) (cputime : Option K) (xOpt yOpt : Option (Nat → K)) (guess : Option WS)
    (hsign : SignOK (s.coldData H g lb ub) xOpt yOpt guess) (hc : ColdClean sq (s.coldData H g lb ub) xOpt yOpt guess nWSR cputime) :
    ∃ o, init sq fuel s H (some g) lb ub nWSR cputime xOpt yOpt guess none = .ok o ∧
      (o.rv = SUCCESSFUL_RETURN → Solved o.s g (some (lowerOf lb)) (some (upperOf ub)) ∧ ForProblem o.s (s.coldData H g lb ub)) ∧
      (o.rv = RET_MAX_NWSR_REACHED → o.s.Inv ∧ ForProblem o.s (s.coldData H g lb ub) ∧
        (o.s.status = QPS_AUXILIARYQPSOLVED ∨ o.s.status = QPS_HOMOTOPYQPSOLVED)) := by
  obtain ⟨c1, c2, c3, c4, c5, c6, c7, c8, c9, c10, c11⟩ := h.cold H g lb ub
  rcases init_cases sq fuel (s := s) (by rw [← c4]; exact c5) H g lb ub nWSR cputime xOpt yOpt guess with ⟨o, e, hr⟩ | e
  · refine ⟨o, e, fun h => ?_, fun h => ?_⟩ <;> rw [hr] at h <;> cases h
  · rw [e]
    obtain ⟨o, o1, o2, o3⟩ := solveInitialQP_spec fuel hsq (h.coldOK ha hM hsym) (by rw [c7]; exact hfar) xOpt yOpt guess nWSR cputime hsign hc
    rw [c8, c9, c10] at o2
    exact ⟨o, o1, o2, o3⟩

/-- What holds between two calls: the current point is optimal for the current data of the QP with Hessian `M`. -/
structure Live (sq : K → K) (n : Nat) (M : Nat → Nat → K) (s : QPB K) : Prop where
  inv : s.Inv
  status : s.status = QPS_AUXILIARYQPSOLVED ∨ s.status = QPS_HOMOTOPYQPSOLVED ∨ s.status = QPS_SOLVED
  nV : s.nV = n
  pos : n ≠ 0
  chol : s.haveCholesky = true
  reg : s.usingRegularisation = false
  hess : ∀ i < n, ∀ j < n, |s.Heff i j - M i j| ≤ EPS
  sqrt : s.SqrtFor sq
  types : ∀ i < n, s.bounds.type i = ST_EQUALITY → s.options.enableEqualities = true

theorem typeOf_eq {s : QPB K} {lbNew ubNew : Option (Nat → K)} {i : Nat} (h : s.typeOf lbNew ubNew i = ST_EQUALITY) :
    s.options.enableEqualities = true := by
  unfold typeOf at h
  split at h
  · split at h
    · cases h
    · split at h
      · rename_i hc; exact hc.1
      · cases h
  · cases h
  · cases h

/-- A hotstart with equality detection: a variable whose limits coincide, for the old and the new QP, is active; one whose
limits no longer coincide has a multiplier with the sign of its active limit. -/
structure EqualitiesOK (s : QPB K) (lbNew ubNew : Option (Nat → K)) : Prop where
  now : ∀ i < s.nV, s.typeOf lbNew ubNew i = ST_EQUALITY →
    s.bounds.status i ≠ ST_INACTIVE ∧ s.lb i = s.ub i ∧ lowerOf lbNew i = upperOf ubNew i
  before : ∀ i < s.nV, s.typeOf lbNew ubNew i ≠ ST_EQUALITY → s.bounds.type i = ST_EQUALITY →
    (s.bounds.status i = ST_LOWER → 0 ≤ s.y i) ∧ (s.bounds.status i = ST_UPPER → s.y i ≤ 0)

theorem Live.equalities {sq : K → K} {n : Nat} {M : Nat → Nat → K} {s : QPB K} (h : Live sq n M s) (ho : s.options.enableEqualities = false)
    (lbNew ubNew : Option (Nat → K)) : EqualitiesOK s lbNew ubNew := by
  refine ⟨fun i _ e => ?_, fun i hi _ e => ?_⟩
  · have := typeOf_eq e; rw [ho] at this; cases this
  · have := h.types i (by rw [← h.nV]; exact hi) e; rw [ho] at this; cases this

theorem Live.of_init {sq : K → K} {s : QPB K} (h : Usable s) {H : Option (Nat → K)} {g : Nat → K} {lb ub : Option (Nat → K)}
    (ha : Admissible s (lowerOf lb) (upperOf ub)) {M : Nat → Nat → K} (hM : GivenHessian (s.coldData H g lb ub) M)
    (hsym : QP.Symmetric s.nV M) (hsq : ((s.coldData H g lb ub).determineHessianType).2.SqrtFor sq) {s' : QPB K}
    (hI : s'.Inv) (hF : ForProblem s' (s.coldData H g lb ub))
    (hst : s'.status = QPS_AUXILIARYQPSOLVED ∨ s'.status = QPS_HOMOTOPYQPSOLVED ∨ s'.status = QPS_SOLVED) : Live sq s.nV M s' := by
  obtain ⟨c1, c2, c3, c4, c5, c6, c7, c8, c9, c10, c11⟩ := h.cold H g lb ub
  obtain ⟨m1, m2, m3, m4⟩ := hM.spec (by rw [c4]; exact hsym)
  refine ⟨hI, hst, hF.nV.trans c4, by rw [← c4]; exact c5, hF.chol, ?_, ?_, ?_, ?_⟩
  · unfold usingRegularisation; rw [hF.regVal, c6]; exact decide_eq_false (not_lt.2 ZERO_pos.le)
  · rw [hF.hess, ← c4]; exact m3
  · exact hF.ident.sqrt hsq
  · intro i hi e
    rw [hF.type i (by rw [c4]; exact hi)] at e
    rw [hF.options]
    exact typeOf_eq e

theorem Live.hotstart {sq : K → K} (fuel : Nat) {n : Nat} {M : Nat → Nat → K} {s : QPB K} (h : Live sq n M s)
    (hfar : s.options.enableFarBounds = false) {g : Nat → K}
    {lbNew ubNew : Option (Nat → K)} (nWSR : Int) (cputime : Option K) (hbox : ∀ i < n, lowerOf lbNew i ≤ upperOf ubNew i)
    (hx : ∀ i < n, s.lb i ≤ s.x i ∧ s.x i ≤ s.ub i) (heq : EqualitiesOK s lbNew ubNew)
    (hc : RunClean sq { s with count := s.count + 1 } g lbNew ubNew nWSR cputime 0) :
    ∃ o, QPB.hotstart sq fuel s g lbNew ubNew nWSR cputime .null = .ok o ∧
      (o.rv = SUCCESSFUL_RETURN → Solved o.s g lbNew ubNew ∧ SameProblem o.s (s.setupSubjectToType lbNew ubNew) ∧ Live sq n M o.s) ∧
      (o.rv = RET_MAX_NWSR_REACHED → Live sq n M o.s) := by
  have hI : (s.setupSubjectToType lbNew ubNew).Inv := h.inv.retype (fun i hi e => ⟨(heq.now i hi e).1, (heq.now i hi e).2.1⟩) heq.before
    (fun _ i hi _ => (hx i (by rw [← h.nV]; exact hi)).1) (fun _ i hi _ => (hx i (by rw [← h.nV]; exact hi)).2)
  have hty : ∀ i < s.nV, (s.setupSubjectToType lbNew ubNew).bounds.type i = s.typeOf lbNew ubNew i := fun i hi => if_pos hi
  have hT : Target (s.setupSubjectToType lbNew ubNew) (lowerOf lbNew) (upperOf ubNew) := by
    refine ⟨fun i hi => hbox i (by rw [← h.nV]; exact hi), fun i hi e => ?_⟩
    rw [hty i hi] at e
    exact (heq.now i hi e).2.2
  obtain ⟨o, o1, o2, o3⟩ := hotstart_spec fuel h.sqrt nWSR cputime h.status (by rw [h.nV]; exact h.pos) h.chol hfar h.reg hI hT hc
  have key : o.s.Inv → SameProblem o.s (s.setupSubjectToType lbNew ubNew) →
      (o.s.status = QPS_AUXILIARYQPSOLVED ∨ o.s.status = QPS_HOMOTOPYQPSOLVED ∨ o.s.status = QPS_SOLVED) → Live sq n M o.s := by
    intro k1 k2 k3
    refine ⟨k1, k3, k2.nV.trans h.nV, h.pos, k2.chol.trans h.chol, ?_, ?_, ?_, ?_⟩
    · unfold usingRegularisation; rw [k2.reg]; exact h.reg
    · rw [k2.hess]; exact h.hess
    · exact k2.sqrt h.sqrt
    · intro i hi e
      rw [k2.type, hty i (by rw [h.nV]; exact hi)] at e
      rw [k2.options]
      exact typeOf_eq e
  refine ⟨o, o1, fun hr => ?_, fun hr => ?_⟩
  · obtain ⟨a1, a2⟩ := o2 hr
    exact ⟨a1, a2, key a1.inv a2 (Or.inr (Or.inr a1.status))⟩
  · obtain ⟨a1, a2, a3⟩ := o3 hr
    refine key a1 a2 ?_
    rcases a3 with a3 | a3
    · rw [a3]; exact h.status
    · exact Or.inr (Or.inl a3)

/-- Without a dual guess there is nothing to check. -/
theorem signOK_none (s : QPB K) (xOpt : Option (Nat → K)) (guess : Option WS) : SignOK s xOpt none guess := by
  intro i _
  dsimp only [Option.getD_none]
  split
  · exact fun _ => le_refl _
  · exact fun _ => le_refl _
  · rfl

end QPB
end QpOASES
