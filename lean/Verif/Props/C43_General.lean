import Verif.Proofs.QPCReg
import Verif.Proofs.QPCCheck
import Verif.Proofs.QPCFar
import Verif.Proofs.QPCRuns
import Verif.Proofs.QPBRuns
import Mathlib.Tactic.Linarith
import Mathlib.Tactic.Ring

/-!
C43: regularisation (general constraints).
-/
namespace QpOASES.Props.General
open Finset Spec QPC ReturnValue SubjectToStatus SubjectToType HessianType QProblemStatus
open QPB (lowerOf upperOf)

set_option linter.unusedSectionVars false

variable {K : Type} [Field K] [LinearOrder K] [IsStrictOrderedRing K]

/-- **C43** (part): a regularised solve that succeeds has performed the configured number of correction steps for the QP without
regularisation; the object holds the user's gradient and the last iterate. -/
theorem C43_general_steps_partial {sq : K → K} {q s : QPC K} (h : Sound q) (hl : Launched s q) {P : QP K} (hd : Describes q P) {g : Nat → K}
    (hg : ∀ i < q.nV, P.g i = g i) (hH : ∀ i < q.nV, ∀ j < q.nV, P.H i j + (if i = j then s.regVal else 0) = s.Heff i j)
    (hu : s.toQPB.usingRegularisation = true) {nWSR : Int} {c : Option K} (hc : RegClean sq s g q.lb q.ub q.lbA q.ubA nWSR c) {o : OutC K}
    (e : solveRegularisedQP sq s g (some q.lb) (some q.ub) (some q.lbA) (some q.ubA) nWSR c 0 = .ok o) (hr : o.rv = SUCCESSFUL_RETURN) :
    ProximalPoint P s.options.terminationTolerance s.regVal s.options.numRegularisationSteps.toNat o.s.x o.s.y ∧ o.s.g = g ∧
      o.s.status = QPS_SOLVED :=
  have key := hl.regularised h hd hg hH hu hc e hr
  ⟨key.1, key.2.1, key.2.2.1⟩

/-- **C43** (part): a successful cold start for a zero Hessian, or for a Hessian that is declared positive semidefinite while
regularisation is enabled, has performed the configured number of correction steps of the proximal point iteration for the QP of the
user (one if regularisation is switched on by the cold start itself).  The parameter is the norm of the gradient or of the Hessian
times `epsRegularisation`. -/
theorem C43_general_init_partial {sq : K → K} (fuel : Nat) {s : QPC K} (h : Usable s) (hfar : s.options.enableFarBounds = false) {H : Option (Nat → K)}
    {g A : Nat → K} {lb ub lbA ubA : Option (Nat → K)} (ha : RegularData s (lowerOf lb) (upperOf ub) (lowerOf lbA) (upperOf ubA)) {M : Nat → Nat → K} {v : K}
    (hM : Singular sq (s.coldData H g A lb ub lbA ubA).toQPB M v) (hst : (s.coldData H g A lb ub lbA ubA).SymH)
    {nWSR : Int} {cputime : Option K} {xOpt yOpt : Option (Nat → K)} {gB gC : Option WS}
    (hc : StartClean sq ((s.coldData H g A lb ub lbA ubA).early sq) xOpt yOpt gB gC nWSR cputime)
    (hrun : ∀ s2 c, StartsAt sq ((s.coldData H g A lb ub lbA ubA).early sq) xOpt yOpt gB gC nWSR cputime s2 c →
      RegClean sq s2 g (lowerOf lb) (upperOf ub) (s.coldData H g A lb ub lbA ubA).lbA (s.coldData H g A lb ub lbA ubA).ubA nWSR c) {o : OutC K}
    (e : init sq fuel s H (some g) (some A) lb ub lbA ubA nWSR cputime xOpt yOpt gB gC none = .ok o) (hr : o.rv = SUCCESSFUL_RETURN) :
    ProximalPoint (qp s.nV s.nC M g (lowerOf lb) (upperOf ub) (fun k j => A (k * s.nV + j)) (lowerOf lbA) (upperOf ubA)) s.options.terminationTolerance v
      (if s.options.enableRegularisation = true then s.options.numRegularisationSteps.toNat else 1) o.s.x o.s.y ∧
    o.s.g = g ∧ o.s.status = QPS_SOLVED ∧ o.s.regVal = v :=
  init_singular fuel h hfar ha hM hst hc hrun e hr

/-- Stationarity for the regularised QP is stationarity for the QP with its gradient shifted. -/
theorem stationary_proximal {P : QP K} {eps : K} {z g' lb' ub' lbA' ubA' x y : Nat → K}
    (h : QP.Stationary { P.proximal eps z with g := g', lb := lb', ub := ub', lbA := lbA', ubA := ubA' } x y) :
    QP.Stationary { P with g := fun i => g' i + eps * x i, lb := lb', ub := ub', lbA := lbA', ubA := ubA' } x y := by
  refine ⟨fun i hi => ?_, h.pos, h.neg, h.posA, h.negA⟩
  have hi : i < P.nV := hi
  have s := h.stat i hi
  have e : QP.row P.nV (P.proximal eps z).H x i = QP.row P.nV P.H x i + eps * x i := by
    unfold QP.row QP.proximal
    have : ∀ j ∈ range P.nV, (P.H i j + if i = j then eps else 0) * x j = P.H i j * x j + if i = j then eps * x j else 0 := by
      intro j _
      rw [add_mul]
      congr 1
      split <;> simp
    dsimp only
    rw [sum_congr rfl this, sum_add_distrib, sum_ite_eq, if_pos (mem_range.2 hi)]
  have s : QP.row P.nV (P.proximal eps z).H x i + g' i = y i + ∑ k ∈ range P.nC, P.A k i * y (P.nV + k) := s
  show QP.row P.nV P.H x i + (g' i + eps * x i) = y i + ∑ k ∈ range P.nC, P.A k i * y (P.nV + k)
  rw [← s, e]
  ring

/-- **C43** (part): after at least one correction step, the result satisfies the optimality conditions of the problem *without*
regularisation, up to the tolerance and `eps` times the difference of the last two iterates. -/
theorem C43_general_original {P : QP K} {tol eps : K} {k : Nat} {x y : Nat → K} (h : ProximalPoint P tol eps (k+1) x y) :
    ∃ z w, ProximalPoint P tol eps k z w ∧ ∃ g' lb' ub' lbA' ubA',
      (∀ i < P.nV, |P.g i - g' i| ≤ tol * max 1 |P.g i - eps * z i| + |eps| * |x i - z i|) ∧
      Near P.nV tol P.lb lb' ∧ Near P.nV tol P.ub ub' ∧ Near P.nC tol P.lbA lbA' ∧ Near P.nC tol P.ubA ubA' ∧
      Optimal { P with g := g', lb := lb', ub := ub', lbA := lbA', ubA := ubA' } P x y := by
  cases h with
  | @next _ z w _ _ h h' =>
    obtain ⟨g', lb', ub', lbA', ubA', n1, n2, n3, n4, n5, b⟩ := h'
    refine ⟨z, w, h, fun i => g' i + eps * x i, lb', ub', lbA', ubA', fun i hi => ?_, n2, n3, n4, n5,
      ⟨stationary_proximal b.stationary, b.lower, b.upper, b.lowerA, b.upperA⟩⟩
    have e : P.g i - (g' i + eps * x i) = (P.g i - eps * z i - g' i) - eps * (x i - z i) := by ring
    rw [e, ← abs_mul]
    exact (abs_sub _ _).trans (add_le_add_left (n1 i hi) _)

/-- **C43** (part): without correction steps the result is optimal for the gradient `g + eps*x`. -/
theorem C43_general_first {P : QP K} {tol eps : K} {x y : Nat → K} (h : ProximalPoint P tol eps 0 x y) :
    ∃ g' lb' ub' lbA' ubA', (∀ i < P.nV, |P.g i + eps * x i - g' i| ≤ tol * max 1 |P.g i|) ∧
      Near P.nV tol P.lb lb' ∧ Near P.nV tol P.ub ub' ∧ Near P.nC tol P.lbA lbA' ∧ Near P.nC tol P.ubA ubA' ∧
      Optimal { P with g := g', lb := lb', ub := ub', lbA := lbA', ubA := ubA' } P x y := by
  cases h with
  | first h =>
    obtain ⟨g', lb', ub', lbA', ubA', n1, n2, n3, n4, n5, b⟩ := h
    refine ⟨fun i => g' i + eps * x i, lb', ub', lbA', ubA', fun i hi => ?_, n2, n3, n4, n5,
      ⟨stationary_proximal b.stationary, b.lower, b.upper, b.lowerA, b.upperA⟩⟩
    have n := n1 i hi
    have e1 : (P.proximal eps fun _ => 0).g i = P.g i := by show P.g i - eps * 0 = P.g i; ring
    rw [e1] at n
    rw [show P.g i + eps * x i - (g' i + eps * x i) = P.g i - g' i by ring]
    exact n

/-! ### the hypotheses are met -/
section
open Runs

instance decStepsClean (sq : K → K) (g l u lA uA : Nat → K) (nWSR : Int) (c : Option K) :
    (m : Nat) → (o : OutC K) → (total : K) → Decidable (StepsCleanC sq g l u lA uA nWSR c m o total)
  | 0, _, _ => isTrue trivial
  | m+1, o, total =>
    have : ∀ o' : OutC K, Decidable (StepsCleanC sq g l u lA uA nWSR c m o' (total + o'.cputime.getD 0)) :=
      fun o' => decStepsClean sq g l u lA uA nWSR c m o' _
    by unfold StepsCleanC; infer_instance

instance (sq : K → K) (s : QPC K) (g l u lA uA : Nat → K) (nWSR : Int) (c : Option K) : Decidable (RegClean sq s g l u lA uA nWSR c) := by
  unfold RegClean; infer_instance

/-- Minimise -4x₀-3x₁ subject to 3x₀+4x₁ ≤ 10 and -2 ≤ x ≤ 4: regularisation parameter 1, three correction steps. -/
def lp0 : QPC ℚ := startC 2 1 HST_ZERO { plain with enableRegularisation := true, epsRegularisation := 1/5, numRegularisationSteps := 3 }
def lp1 : Res (OutC ℚ) := coldC lp0 none [-4,-3] [3,4] [-2,-2] [4,4] [-50] [10]
def lp0c : QPC ℚ := lp0.coldData none (vec [-4,-3]) (vec [3,4]) (some (vec [-2,-2])) (some (vec [4,4])) (some (vec [-50])) (some (vec [10]))

/-- Minimise (21/2)x₀² - 42x₀ - x₁ subject to 4x₀+3x₁ ≤ 10 and -5 ≤ x ≤ 5: regularisation parameter 4, two correction steps. -/
def sd0 : QPC ℚ := startC 2 1 HST_SEMIDEF { plain with enableRegularisation := true, epsRegularisation := 4/21, numRegularisationSteps := 2 }
def sd1 : Res (OutC ℚ) := coldC sd0 (some [21,0,0,0]) [-42,-1] [4,3] [-5,-5] [5,5] [-50] [10]
def sd0c : QPC ℚ := sd0.coldData (some (vec [21,0,0,0])) (vec [-42,-1]) (vec [4,3]) (some (vec [-5,-5])) (some (vec [5,5])) (some (vec [-50])) (some (vec [10]))

theorem lp0_usable : Usable lp0 := .fresh 2 1 HST_ZERO _ _

theorem lp0_regular : RegularData lp0 (lowerOf (some (vec [-2,-2]))) (upperOf (some (vec [4,4]))) (lowerOf (some (vec [-50]))) (upperOf (some (vec [10]))) := by
  refine ⟨⟨?_, ?_, ?_, Or.inl ?_, ?_, ?_⟩, ?_, ?_, ?_, ?_, ?_, ?_, ?_⟩
  all_goals decide +kernel

theorem lp0_singular : Singular rootC lp0c.toQPB (fun _ _ => 0) 1 :=
  ⟨fun _ => ⟨fun _ _ => rfl, by decide +kernel⟩, fun h => absurd (by decide +kernel) h, by decide +kernel, by decide +kernel⟩

theorem lp0_sym : lp0c.SymH := fun H h => by cases h

/-- The cold start attains the solution of the LP, with its multipliers. -/
theorem lp1_proximal : ∃ o, lp1 = .ok o ∧ o.rv = SUCCESSFUL_RETURN ∧ (o.s.x 0 = 4 ∧ o.s.x 1 = -1/2 ∧ o.s.y 0 = -7/4 ∧ o.s.y 1 = 0 ∧ o.s.y 2 = -3/4) ∧
    ProximalPoint (qp 2 1 (fun _ _ => 0) (vec [-4,-3]) (vec [-2,-2]) (vec [4,4]) (fun k j => vec [3,4] (k * 2 + j)) (vec [-50]) (vec [10])) lp0.options.terminationTolerance 1 3
      o.s.x o.s.y := by
  obtain ⟨o, e, h⟩ := of_holds (r := lp1) (p := fun o => decide (o.rv = SUCCESSFUL_RETURN ∧ o.s.x 0 = 4 ∧ o.s.x 1 = -1/2 ∧ o.s.y 0 = -7/4 ∧ o.s.y 1 = 0 ∧ o.s.y 2 = -3/4)) (by decide +kernel)
  have h := of_decide_eq_true h
  refine ⟨o, e, h.1, h.2, ?_⟩
  have key := C43_general_init_partial 5 lp0_usable (by decide +kernel) lp0_regular (M := (fun _ _ => 0)) (v := 1)
    lp0_singular lp0_sym (show StartClean rootC (lp0c.early rootC) none none none none 10 none by decide +kernel)
    (startsAt_all rootC (lp0c.early rootC) none none none none 10 none (P := fun s2 c => RegClean rootC s2 (vec [-4,-3]) (vec [-2,-2]) (vec [4,4]) lp0c.lbA lp0c.ubA 10 c)
      (by decide +kernel)) e h.1
  rw [show (if lp0.options.enableRegularisation = true then lp0.options.numRegularisationSteps.toNat else 1) = 3 by decide +kernel] at key
  exact key.1

theorem sd0_usable : Usable sd0 := .fresh 2 1 HST_SEMIDEF _ _

theorem sd0_regular : RegularData sd0 (lowerOf (some (vec [-5,-5]))) (upperOf (some (vec [5,5]))) (lowerOf (some (vec [-50]))) (upperOf (some (vec [10]))) := by
  refine ⟨⟨?_, ?_, ?_, Or.inl ?_, ?_, ?_⟩, ?_, ?_, ?_, ?_, ?_, ?_, ?_⟩
  all_goals decide +kernel

def sdH : Nat → Nat → ℚ := fun i j => vec [21,0,0,0] (i * 2 + j)

theorem sd0_singular : Singular rootC sd0c.toQPB sdH 4 :=
  ⟨fun h => absurd h (by decide +kernel), fun _ => ⟨by decide +kernel, rfl, by decide +kernel, by decide +kernel⟩, by decide +kernel, by decide +kernel⟩

theorem sd0_sym : sd0c.SymH := fun H h => by
  obtain rfl : sdH = H := Option.some.inj h
  show ∀ i < 2, ∀ j < 2, sdH i j = sdH j i
  decide +kernel

/-- The constraint becomes active in the second correction step. -/
theorem sd1_proximal : ∃ o, sd1 = .ok o ∧ o.rv = SUCCESSFUL_RETURN ∧ (o.s.x 0 = 357598/180625 ∧ o.s.x 1 = 125286/180625 ∧ o.s.y 2 = -13577/180625 ∧ o.s.cons.getStatus 0 = ST_UPPER) ∧
    ProximalPoint (qp 2 1 sdH (vec [-42,-1]) (vec [-5,-5]) (vec [5,5]) (fun k j => vec [4,3] (k * 2 + j)) (vec [-50]) (vec [10])) sd0.options.terminationTolerance 4 2
      o.s.x o.s.y := by
  obtain ⟨o, e, h⟩ := of_holds (r := sd1) (p := fun o => decide (o.rv = SUCCESSFUL_RETURN ∧ o.s.x 0 = 357598/180625 ∧ o.s.x 1 = 125286/180625 ∧ o.s.y 2 = -13577/180625 ∧ o.s.cons.getStatus 0 = ST_UPPER)) (by decide +kernel)
  have h := of_decide_eq_true h
  refine ⟨o, e, h.1, h.2, ?_⟩
  have key := C43_general_init_partial 5 sd0_usable (by decide +kernel) sd0_regular (M := sdH) (v := 4)
    sd0_singular sd0_sym (show StartClean rootC (sd0c.early rootC) none none none none 10 none by decide +kernel)
    (startsAt_all rootC (sd0c.early rootC) none none none none 10 none (P := fun s2 c => RegClean rootC s2 (vec [-42,-1]) (vec [-5,-5]) (vec [5,5]) sd0c.lbA sd0c.ubA 10 c)
      (by decide +kernel)) e h.1
  rw [show (if sd0.options.enableRegularisation = true then sd0.options.numRegularisationSteps.toNat else 1) = 2 by decide +kernel] at key
  exact key.1

/-! ### violation -/

/-- **C43 is violated** by a hotstart: it is called with the data of the cold start, which has found the solution of the LP and its multipliers
-7/4 and -3/4, and returns `SUCCESSFUL_RETURN` with multipliers -49/8 and -5/8, although those of the solution are unique. -/
theorem C43_general_hotstart_violated : ∃ o o', lp1 = .ok o ∧ o.rv = SUCCESSFUL_RETURN ∧ o.s.y 0 = -7/4 ∧ o.s.y 2 = -3/4 ∧
    hotC lp1 [-4,-3] (some [-2,-2]) (some [4,4]) (some [-50]) (some [10]) .null .null = .ok o' ∧ o'.rv = SUCCESSFUL_RETURN ∧ o'.s.status = QPS_SOLVED ∧
    o'.s.x 0 = 4 ∧ o'.s.x 1 = -1/2 ∧ o'.s.y 0 = -49/8 ∧ o'.s.y 1 = 0 ∧ o'.s.y 2 = -5/8 ∧
    ∀ P : QP ℚ, P = qp 2 1 (fun _ _ => 0) (vec [-4,-3]) (vec [-2,-2]) (vec [4,4]) (fun k j => vec [3,4] (k * 2 + j)) (vec [-50]) (vec [10]) →
      P.Stationary o.s.x o.s.y ∧ ¬ P.Stationary o'.s.x o'.s.y := by
  obtain ⟨o, e, h⟩ := of_holds (r := lp1) (p := fun o => decide (o.rv = SUCCESSFUL_RETURN ∧ o.s.x 0 = 4 ∧ o.s.x 1 = -1/2 ∧ o.s.y 0 = -7/4 ∧ o.s.y 1 = 0 ∧ o.s.y 2 = -3/4))
    (by decide +kernel)
  obtain ⟨h1, h2, h3, h4, h5, h6⟩ := of_decide_eq_true h
  obtain ⟨o', e', h'⟩ := of_holds (r := hotC lp1 [-4,-3] (some [-2,-2]) (some [4,4]) (some [-50]) (some [10]) .null .null)
    (p := fun o => decide (o.rv = SUCCESSFUL_RETURN ∧ o.s.status = QPS_SOLVED ∧ o.s.x 0 = 4 ∧ o.s.x 1 = -1/2 ∧ o.s.y 0 = -49/8 ∧ o.s.y 1 = 0 ∧ o.s.y 2 = -5/8))
    (by decide +kernel)
  obtain ⟨k1, k2, k3, k4, k5, k6, k7⟩ := of_decide_eq_true h'
  refine ⟨o, o', e, h1, h4, h6, e', k1, k2, k3, k4, k5, k6, k7, ?_⟩
  rintro P rfl
  constructor
  · constructor
    · intro i hi
      have hi : i = 0 ∨ i = 1 := by have : i < 2 := hi; omega
      rcases hi with rfl | rfl <;> simp [qp, QP.row, sum_range_succ, h4, h5, h6, vec] <;> norm_num
    · intro i hi
      have hi : i = 0 ∨ i = 1 := by have : i < 2 := hi; omega
      rcases hi with rfl | rfl <;> simp [qp, h4, h5] <;> norm_num
    · intro i hi
      have hi : i = 0 ∨ i = 1 := by have : i < 2 := hi; omega
      rcases hi with rfl | rfl <;> simp [qp, h2, h4, h5, vec]
    · intro k hk
      obtain rfl : k = 0 := Nat.lt_one_iff.1 hk
      simp [qp, h6]
    · intro k hk
      obtain rfl : k = 0 := Nat.lt_one_iff.1 hk
      simp [qp, QP.row, sum_range_succ, h2, h3, h6, vec]; norm_num
  · intro hs
    have := hs.stat 0 (by decide)
    simp [qp, QP.row, sum_range_succ, k5, k7, vec] at this
    norm_num at this

end

end QpOASES.Props.General
