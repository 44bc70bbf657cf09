import Verif.Proofs.SQRun
import Verif.Props.C34_General
import Verif.Props.C29_C33_General

/-!
C54: hotstarts of an SQProblem with new matrices.
-/
namespace QpOASES.Props
open Finset Spec QpOASES.QPC ReturnValue SubjectToStatus SubjectToType HessianType QProblemStatus
open QPB (lowerOf upperOf EqualitiesOK)

set_option linter.unusedSectionVars false

variable {K : Type} [Field K] [LinearOrder K] [IsStrictOrderedRing K]

/-- **C54** (part): if the old solution satisfies the optimality conditions of the QP the object holds, and the slacks of the constraints are
stored correctly, then after a successful change of the matrices the same point and multipliers satisfy the optimality conditions of the QP
with the new matrices and the gradient and limits the object holds now.  Whatever happens to the working set, and for both attempts at it.
Not covered: objects with regularised Hessian, a zero Hessian. -/
theorem C54_optimal_partial {sq : K → K} {s s' : QPC K} {H A lb ub lbA ubA : Option (Nat → K)} {M : Nat → Nat → K} {a : Nat → K}
    (hA : A = some a ∨ A = none ∧ s.nC = 0) (hM : NewHessian s H M) (hsym : QP.Symmetric s.nV M) (hreg : s.usingRegularisation = false)
    (hopt : (QPC.current s).KKT s.x s.y)
    (hslack : ∀ k < s.nC, s.Axl k = QP.row s.nV s.A s.x k - s.lbA k ∧ s.Axu k = s.ubA k - QP.row s.nV s.A s.x k)
    (e : setupNewAuxiliaryQP sq s H A lb ub lbA ubA = .ok (SUCCESSFUL_RETURN, s')) :
    s'.status = QPS_AUXILIARYQPSOLVED ∧ s'.x = s.x ∧ s'.y = s.y ∧
    ∃ H', (∀ i < s.nV, ∀ j < s.nV, |H' i j - M i j| ≤ EPS) ∧
      QP.KKT { nV := s.nV, nC := s.nC, H := H', g := s'.g, lb := s'.lb, ub := s'.ub, A := fun k j => a (k * s.nV + j), lbA := s'.lbA, ubA := s'.ubA }
        s.x s.y := by
  obtain ⟨s1, s2, -, -, p, e⟩ := setupNewAuxiliaryQP_prepared hA hM hsym hreg e
  obtain ⟨sp, st⟩ := newFactors_samePoint e
  dsimp only at sp st
  obtain ⟨b, lA', uA', ax, al, au, ty, H', t, g, hfr, -⟩ := p.frame
  have nV2 : s2.nV = s.nV := by rw [hfr]
  have nC2 : s2.nC = s.nC := by rw [hfr]
  have x2 : s2.x = s.x := by rw [hfr]
  have y2 : s2.y = s.y := by rw [hfr]
  have lb2 : s2.lb = s.lb := by rw [hfr]
  have ub2 : s2.ub = s.ub := by rw [hfr]
  have hax : ∀ k < s.nC, s2.Ax k = QP.row s.nV (fun k j => a (k * s.nV + j)) s.x k := by
    intro k hk
    rw [(p.ax k hk).1]
    unfold QPC.prodA
    rw [sumTo_eq, p.A k hk, nV2, x2]
    rfl
  refine ⟨st rfl, sp.x.trans x2, sp.y.trans y2, s2.Heff, p.hess, ?_⟩
  have hl : ∀ i, s'.lb i = s.lb i ∨ s'.lb i = s.x i := fun i => by have := sp.lb i; rwa [lb2, x2] at this
  have hu : ∀ i, s'.ub i = s.ub i ∨ s'.ub i = s.x i := fun i => by have := sp.ub i; rwa [ub2, x2] at this
  have hlA : ∀ k < s.nC, s'.lbA k = QP.row s.nV (fun k j => a (k * s.nV + j)) s.x k - s.Axl k ∨
      s'.lbA k = QP.row s.nV (fun k j => a (k * s.nV + j)) s.x k := fun k hk => by
    rw [← hax k hk]
    rcases sp.lbA k with h | h
    · exact Or.inl (h.trans (p.ax k hk).2.1)
    · exact Or.inr h
  have huA : ∀ k < s.nC, s'.ubA k = QP.row s.nV (fun k j => a (k * s.nV + j)) s.x k + s.Axu k ∨
      s'.ubA k = QP.row s.nV (fun k j => a (k * s.nV + j)) s.x k := fun k hk => by
    rw [← hax k hk]
    rcases sp.ubA k with h | h
    · exact Or.inl (h.trans (p.ax k hk).2.2.1)
    · exact Or.inr h
  obtain ⟨⟨_, h2, h3, h4, h5⟩, ⟨f1, f2, f3, f4⟩⟩ := hopt
  simp only [QPC.current] at h2 h3 h4 h5 f1 f2 f3 f4
  refine ⟨⟨fun i hi => ?_, fun i hi hy => ?_, fun i hi hy => ?_, fun k hk hy => ?_, fun k hk hy => ?_⟩,
    ⟨fun i hi => ?_, fun i hi => ?_, fun k hk => ?_, fun k hk => ?_⟩⟩ <;> dsimp only at *
  · have := p.stat i (by rw [nV2]; exact hi)
    rw [nV2, nC2, x2, y2] at this
    rw [sp.g]
    refine this.trans (congrArg _ (sum_congr rfl fun k hk => ?_))
    rw [p.A k (mem_range.1 hk)]
  · rcases hl i with h | h
    · rw [h]; exact h2 i hi hy
    · exact h.symm
  · rcases hu i with h | h
    · rw [h]; exact h3 i hi hy
    · exact h.symm
  · rcases hlA k hk with h | h
    · rw [h, (hslack k hk).1, h4 k hk hy]; ring
    · exact h.symm
  · rcases huA k hk with h | h
    · rw [h, (hslack k hk).2, h5 k hk hy]; ring
    · exact h.symm
  · rcases hl i with h | h
    · rw [h]; exact f1 i hi
    · exact h.le
  · rcases hu i with h | h
    · rw [h]; exact f2 i hi
    · exact h.ge
  · rcases hlA k hk with h | h
    · rw [h, (hslack k hk).1]; linarith [f3 k hk]
    · exact h.le
  · rcases huA k hk with h | h
    · rw [h, (hslack k hk).2]; linarith [f4 k hk]
    · exact h.ge

/-- States of an object between calls: after a cold start and any number of hotstarts, with or without new matrices, that returned success
or ran out of iterations.  `M`, `A`: the matrices passed last, `l0`, `u0`: the limits of the constraints passed with them. -/
inductive SessionSQ (sq : K → K) (fuel n m : Nat) : (Nat → Nat → K) → (Nat → Nat → K) → (Nat → K) → (Nat → K) → QPC K → Prop
  | cold {M A : Nat → Nat → K} {l0 u0 : Nat → K} {s : QPC K} (hs : SessionC sq fuel n m M A l0 u0 s) : SessionSQ sq fuel n m M A l0 u0 s
  | hotstart {M A : Nat → Nat → K} {l0 u0 : Nat → K} {s : QPC K} (hs : SessionSQ sq fuel n m M A l0 u0 s) {g : Nat → K}
      {lb ub lbA ubA : Option (Nat → K)} {nWSR : Int} {cputime : Option K}
      (hfar : s.options.enableFarBounds = false) (hbox : ∀ i < n, lowerOf lb i ≤ upperOf ub i) (hboxA : ∀ k < m, lowerOf lbA k ≤ upperOf ubA k)
      (hkind : SameKind (s.options.enableEqualities = true) s.options.boundTolerance m l0 u0 (lowerOf lbA) (upperOf ubA))
      (hx : ∀ i < n, s.lb i ≤ s.x i ∧ s.x i ≤ s.ub i) (heq : EqualitiesOK s.toQPB lb ub)
      (hc : QPC.RunClean sq { s with count := s.count + 1 } g lb ub lbA ubA nWSR cputime 0)
      {o : OutC K} (ho : QPC.hotstart sq fuel s g lb ub lbA ubA nWSR cputime .null .null = .ok o)
      (hr : o.rv = SUCCESSFUL_RETURN ∨ o.rv = RET_MAX_NWSR_REACHED) : SessionSQ sq fuel n m M A l0 u0 o.s
  | newMatrices {M A : Nat → Nat → K} {l0 u0 : Nat → K} {s : QPC K} (hs : SessionSQ sq fuel n m M A l0 u0 s) {H Anew : Option (Nat → K)}
      {M' : Nat → Nat → K} {g a l u lA uA : Nat → K} (hfar : s.options.enableFarBounds = false) (hd : NewOK n m s H Anew M' a l u lA uA) {nWSR : Int} {cputime : Option K}
      (hc : NewRunClean sq s H g Anew (some l) (some u) (some lA) (some uA) nWSR cputime)
      {o : OutC K} (ho : QPC.hotstartNew sq fuel s H g Anew (some l) (some u) (some lA) (some uA) nWSR cputime .null .null = .ok o)
      (hr : o.rv = SUCCESSFUL_RETURN ∨ o.rv = RET_MAX_NWSR_REACHED) : SessionSQ sq fuel n m M' (fun k j => a (k * n + j)) lA uA o.s

theorem SessionSQ.live {sq : K → K} {fuel n m : Nat} {M A : Nat → Nat → K} {l0 u0 : Nat → K} {s : QPC K} (h : SessionSQ sq fuel n m M A l0 u0 s) :
    QPC.Live n m M A l0 u0 s := by
  induction h with
  | cold hs => exact hs.live
  | hotstart hs hfar hbox hboxA hkind hx heq hc ho hr ih =>
    obtain ⟨e2, e3⟩ := ih.hotstart fuel hfar hbox hboxA hkind hx heq hc ho
    rcases hr with hr | hr
    · exact (e2 hr).2.2
    · exact e3 hr
  | newMatrices hs hfar hd hc ho hr ih =>
    obtain ⟨s1, o', e1, e2, hrv, k, hk⟩ := hotstartNew_cases ho hr
    obtain ⟨s2, rfl, hl, hop, hx, heq, hrun⟩ := ih.newStart hd hc e1
    have hkind := hd.kind
    rw [← hop] at hkind
    obtain ⟨e3, e4⟩ := hl.hotstart fuel (by rw [hop]; exact hfar) (lbNew := some _) (ubNew := some _) (lbANew := some _) (ubANew := some _) hd.box hd.boxA hkind hx heq hrun e2
    rw [hrv] at hr
    rw [hk]
    rcases hr with hr | hr
    · exact (e3 hr).2.2.clock k
    · exact (e4 hr).clock k

/-- **C54** (part): a hotstart with new matrices after any history solves the QP with the new matrices if it returns `SUCCESSFUL_RETURN`. -/
theorem C54_solves_partial {sq : K → K} {fuel n m : Nat} {M A : Nat → Nat → K} {l0 u0 : Nat → K} {s : QPC K} (h : SessionSQ sq fuel n m M A l0 u0 s)
    (hfar : s.options.enableFarBounds = false) {H Anew : Option (Nat → K)} {M' : Nat → Nat → K} {g a l u lA uA : Nat → K} (hd : NewOK n m s H Anew M' a l u lA uA) {nWSR : Int}
    {cputime : Option K} (hc : NewRunClean sq s H g Anew (some l) (some u) (some lA) (some uA) nWSR cputime) {o : OutC K}
    (ho : QPC.hotstartNew sq fuel s H g Anew (some l) (some u) (some lA) (some uA) nWSR cputime .null .null = .ok o) (hr : o.rv = SUCCESSFUL_RETURN) :
    o.s.status = QPS_SOLVED ∧
    SolvesGeneral (QPC.qp n m M' g l u (fun k j => a (k * n + j)) lA uA) s.options.terminationTolerance (o.s.tau = 1) o.s.x o.s.y := by
  obtain ⟨s1, o', e1, e2, hrv, k, hk⟩ := hotstartNew_cases ho (Or.inl hr)
  obtain ⟨s2, rfl, hl, hop, hx, heq, hrun⟩ := h.live.newStart hd hc e1
  have hkind := hd.kind
  rw [← hop] at hkind
  obtain ⟨h1, h2⟩ := live_hotstart_solves fuel hl (by rw [hop]; exact hfar) (lb := some _) (ub := some _) (lbA := some _) (ubA := some _) hd.box hd.boxA hkind hx heq hrun e2
    (hrv.symm.trans hr)
  rw [hk]
  refine ⟨h1, ?_⟩
  have := h2 (Or.inl ⟨by simp, by simp, by simp, by simp⟩)
  rw [hop] at this
  exact this

/-! ### the hypotheses are met -/
section
open Runs

/-- Hotstart with new matrices after a run. -/
def newC (r : Res (OutC ℚ)) (H : Option (List ℚ)) (g A l u lA uA : List ℚ) (nWSR : Int := 10) : Res (OutC ℚ) := do
  let o ← r
  QPC.hotstartNew rootC 5 o.s (H.map vec) (vec g) (some (vec A)) (some (vec l)) (some (vec u)) (some (vec lA)) (some (vec uA)) nWSR none .null .null

/-- After the cold start of C34, new matrices: 25/2 x₀² + 2x₁² + 40x₀ - 100x₁ subject to 4x₀ + 3x₁ ≤ 5, x₀ ≥ -2. -/
def sq2 : Res (OutC ℚ) := newC gen1 (some [25,0,0,4]) [40,-100] [4,3] [-2,-100] [100,100] [-50] [5]

def sq2H : Nat → Nat → ℚ := fun i j => vec [25,0,0,4] (i * 2 + j)

theorem sq2_new : ∃ o, gen1 = .ok o ∧ SessionSQ rootC 5 2 1 gen0H gen0A (lowerOf (some (vec [-50]))) (upperOf (some (vec [5]))) o.s ∧
    NewOK 2 1 o.s (some (vec [25,0,0,4])) (some (vec [4,3])) sq2H (vec [4,3]) (vec [-2,-100]) (vec [100,100]) (vec [-50]) (vec [5]) ∧
    NewRunClean rootC o.s (some (vec [25,0,0,4])) (vec [40,-100]) (some (vec [4,3])) (some (vec [-2,-100])) (some (vec [100,100]))
      (some (vec [-50])) (some (vec [5])) 10 none ∧
    ∃ o', sq2 = .ok o' ∧ o'.rv = SUCCESSFUL_RETURN ∧ o'.nWSR = 1 ∧ o'.s.x 0 = -2 ∧ o'.s.x 1 = 13/3 := by
  obtain ⟨o, e, _, _, _, hs⟩ := gen1_session
  obtain ⟨o1, e1, h⟩ := of_holds (r := gen1) (p := fun o : OutC ℚ => decide (∀ i : Nat, i < 2 → o.s.lb i ≤ o.s.x i ∧ o.s.x i ≤ o.s.ub i) &&
    decide (NewRunClean rootC o.s (some (vec [25,0,0,4])) (vec [40,-100]) (some (vec [4,3])) (some (vec [-2,-100])) (some (vec [100,100]))
      (some (vec [-50])) (some (vec [5])) 10 none) &&
    decide (o.s.options.enableEqualities = false ∧ o.s.options.boundTolerance ≤ 1 ∧ 0 ≤ o.s.Axl 0 ∧ 0 ≤ o.s.Axu 0 ∧ o.s.cons.type 0 ≠ ST_UNBOUNDED))
    (by decide +kernel)
  rw [e] at e1
  cases e1
  rw [Bool.and_eq_true, Bool.and_eq_true] at h
  obtain ⟨⟨h1, h2⟩, h3⟩ := h
  obtain ⟨h3, h4, h5, h6, h7⟩ := of_decide_eq_true h3
  have hn := hs.live.nV
  have hz : ∀ k, k < 1 → k = 0 := by omega
  obtain ⟨o', e', h'⟩ := of_holds (r := sq2) (p := fun o' => decide (o'.rv = SUCCESSFUL_RETURN ∧ o'.nWSR = 1 ∧ o'.s.x 0 = -2 ∧ o'.s.x 1 = 13/3)) (by decide +kernel)
  refine ⟨o, e, .cold hs, ⟨Or.inl rfl, Or.inl ⟨_, rfl, ?_, 0, by omega, 0, by omega, by decide +kernel⟩, ?_, of_decide_eq_true h1, ?_, ?_, ?_, ?_,
    by decide +kernel, by decide +kernel, ?_, ?_⟩, of_decide_eq_true h2, o', e', of_decide_eq_true h'⟩
  · rw [hn]; rfl
  · intro i hi j hj
    have hi' : i = 0 ∨ i = 1 := by omega
    have hj' : j = 0 ∨ j = 1 := by omega
    rcases hi' with rfl | rfl <;> rcases hj' with rfl | rfl <;> rfl
  · intro k hk; obtain rfl := hz k hk; exact ⟨h5, h6⟩
  · intro k hk ht; obtain rfl := hz k hk; exact absurd ht h7
  · intro he; rw [h3] at he; cases he
  · intro he; rw [h3] at he; cases he
  · intro he; rw [h3] at he; cases he
  · refine ⟨fun k hk hl => ?_, fun he => ?_, fun h => h, fun h => h⟩
    · obtain rfl := hz k hk
      exact absurd (hl.trans_le (add_le_add_right h4 _)) (by decide +kernel)
    · rw [h3] at he; cases he

/-! ### failure to factorise is not reported -/

/-- Change of the matrices without the hotstart that follows. -/
def setupC (r : Res (OutC ℚ)) (H : Option (List ℚ)) (A l u lA uA : List ℚ) : Res (OutC ℚ) := do
  let o ← r
  let (r, s) ← QPC.setupNewAuxiliaryQP rootC o.s (H.map vec) (some (vec A)) (some (vec l)) (some (vec u)) (some (vec lA)) (some (vec uA))
  .ok ⟨r, 0, none, s⟩

/-- A first solve: minimise 2x₀² + 25/2 x₁² - 20x₀ - 50x₁ subject to 3x₀ + 4x₁ ≤ 100; nothing is active at the solution (5, 2). -/
def free1 : Res (OutC ℚ) := coldC (startC 2 1 HST_POSDEF { plain with initialStatusBounds := ST_INACTIVE }) (some [4,0,0,25]) [-20,-50] [3,4]
  [-100,-100] [100,100] [-50] [100]

/-- **C54 violated**: a new Hessian that has no Cholesky factor for the empty working set is accepted. -/
theorem C54_factorise_violated : (∃ o, setupC free1 (some [1,2,2,1]) [3,4] [-100,-100] [100,100] [-50] [5] = .ok o ∧ o.rv = SUCCESSFUL_RETURN ∧
      o.s.status = QPS_AUXILIARYQPSOLVED ∧ o.s.nFX = 0 ∧ o.s.nAC = 0) ∧
    (¬ ∃ R : Nat → Nat → ℚ, ∀ i < 2, ∀ j < 2, ∑ k ∈ range 2, R k i * R k j = vec [1,2,2,1] (2 * i + j)) ∧
    ∃ o, newC free1 (some [1,2,2,1]) [-20,-50] [3,4] [-100,-100] [100,100] [-50] [5] = .ok o ∧ o.rv = SUCCESSFUL_RETURN ∧ o.s.status = QPS_SOLVED ∧
      ¬ (qpOf 2 1 [1,2,2,1] [-20,-50] [3,4] [-100,-100] [100,100] [-50] [5]).KKT o.s.x o.s.y := by
  refine ⟨?_, ?_, ?_⟩
  · obtain ⟨o, e, h⟩ := of_holds (r := setupC free1 (some [1,2,2,1]) [3,4] [-100,-100] [100,100] [-50] [5])
      (p := fun o => decide (o.rv = SUCCESSFUL_RETURN ∧ o.s.status = QPS_AUXILIARYQPSOLVED ∧ o.s.nFX = 0 ∧ o.s.nAC = 0)) (by decide +kernel)
    exact ⟨o, e, of_decide_eq_true h⟩
  · rintro ⟨R, h⟩
    have h00 := h 0 (by omega) 0 (by omega)
    have h01 := h 0 (by omega) 1 (by omega)
    have h11 := h 1 (by omega) 1 (by omega)
    simp [sum_range_succ, vec] at h00 h01 h11
    nlinarith [sq_nonneg (R 0 0 - R 0 1), sq_nonneg (R 1 0 - R 1 1)]
  · obtain ⟨o, e, h⟩ := of_holds (r := newC free1 (some [1,2,2,1]) [-20,-50] [3,4] [-100,-100] [100,100] [-50] [5])
      (p := fun o => decide (o.rv = SUCCESSFUL_RETURN ∧ o.s.status = QPS_SOLVED ∧ o.s.y 0 = 0 ∧ o.s.x 0 + 2 * o.s.x 1 - 20 ≠ 3 * o.s.y 2))
      (by decide +kernel)
    obtain ⟨h1, h2, h3, h4⟩ := of_decide_eq_true h
    refine ⟨o, e, h1, h2, fun hk => h4 ?_⟩
    have := hk.stat 0 (by show 0 < 2; omega)
    simp [qpOf, QP.row, sum_range_succ, vec, h3] at this
    linarith

/-! ### a constraint that cannot stay active keeps its multiplier -/

/-- A first solve with drift correction switched off: minimise ½|x|² - 10x₀ - 10x₁ subject to 3x₀ + 4x₁ ≤ 5 and 4x₀ - 3x₁ ≤ 1; both are active. -/
def two1 : Res (OutC ℚ) := coldC (startC 2 2 HST_IDENTITY { plain with enableDriftCorrection := 0 }) none [-10,-10] [3,4,4,-3] [-100,-100] [100,100]
  [-50,-50] [5,1]

/-- **C54, C34 violated**: the second constraint becomes 3x₀ + 4x₁ ≤ 100 too, and is not put into the working set, but its multiplier is not
reset: the hotstart returns success with a point that is not the minimum (10, 10), and with a multiplier of a constraint far from its limit. -/
theorem C54_multiplier_violated : ∃ o, newC two1 none [-10,-10] [3,4,3,4] [-100,-100] [100,100] [-50,-50] [100,100] = .ok o ∧
    o.rv = SUCCESSFUL_RETURN ∧ o.s.status = QPS_SOLVED ∧ o.s.cons.getStatus 1 = ST_INACTIVE ∧ o.s.y 3 < 0 ∧
    3 * o.s.x 0 + 4 * o.s.x 1 < 100 ∧
    ¬ (qpOf 2 2 [1,0,0,1] [-10,-10] [3,4,3,4] [-100,-100] [100,100] [-50,-50] [100,100]).IsMinimiser o.s.x := by
  obtain ⟨o, e, h⟩ := of_holds (r := newC two1 none [-10,-10] [3,4,3,4] [-100,-100] [100,100] [-50,-50] [100,100])
    (p := fun o => decide (o.rv = SUCCESSFUL_RETURN ∧ o.s.status = QPS_SOLVED ∧ o.s.cons.getStatus 1 = ST_INACTIVE ∧ o.s.y 3 < 0 ∧
      3 * o.s.x 0 + 4 * o.s.x 1 < 100 ∧ o.s.x 0 < 10)) (by decide +kernel)
  obtain ⟨h1, h2, h3, h4, h5, h6⟩ := of_decide_eq_true h
  refine ⟨o, e, h1, h2, h3, h4, h5, fun hm => ?_⟩
  have hz : (qpOf 2 2 [1,0,0,1] [-10,-10] [3,4,3,4] [-100,-100] [100,100] [-50,-50] [100,100]).Feasible (vec [10,10]) := by
    have two : ∀ i, i < 2 → i = 0 ∨ i = 1 := by omega
    constructor
    · intro i hi; rcases two i hi with rfl | rfl <;> simp [qpOf, vec] <;> norm_num
    · intro i hi; rcases two i hi with rfl | rfl <;> simp [qpOf, vec] <;> norm_num
    · intro i hi; rcases two i hi with rfl | rfl <;> simp [qpOf, QP.row, sum_range_succ, vec] <;> norm_num
    · intro i hi; rcases two i hi with rfl | rfl <;> simp [qpOf, QP.row, sum_range_succ, vec] <;> norm_num
  have := hm.2 _ hz
  simp [qpOf, QP.obj, QP.row, sum_range_succ, vec] at this
  nlinarith [sq_nonneg (o.s.x 1 - 10), sq_pos_of_pos (sub_pos.2 h6)]

end

end QpOASES.Props
