import Verif.Proofs.Absent
import Verif.Props.C51_C57_General

/-!
C51: absent vectors of limits.
-/
namespace QpOASES.Props
open Spec Finset QpOASES.QPB QpOASES.Runs QpOASES.Props.Runs ReturnValue SubjectToStatus SubjectToType HessianType QProblemStatus

set_option linter.unusedSectionVars false

variable {K : Type} [Field K] [LinearOrder K] [IsStrictOrderedRing K]

/-- C51, bound-constrained solver with far bounds: `hotstart` with absent vectors does exactly the same as with vectors of infinite
limits (the limits given may be anything but lower limits above, and upper limits below, infinity).  Without ramping. -/
theorem C51_bounds_partial {sq : K → K} {rounds : Nat} {s : QPB K} {gNew : Nat → K} {lbNew ubNew : Option (Nat → K)} {nWSR : Int}
    {c : Option K} {guess : Guess} (hb : 0 ≤ nWSR) (hr : InRange s.nV lbNew ubNew) (hfar : s.options.enableFarBounds = true)
    (hR : s.options.enableRamping = false) (hi : s.options.initialFarBounds < INFTY) :
    hotstart sq rounds s gNew lbNew ubNew nWSR c guess =
    hotstart sq rounds s gNew (some (lbNew.getD fun _ => -INFTY)) (some (ubNew.getD fun _ => INFTY)) nWSR c guess :=
  hotstart_absent hb hr hfar hR hi

/-- C51, general solver with far bounds, with or without ramping.  The last hypothesis excludes far bounds that become infinite by
the ramping factor (C42). -/
theorem C51_general_partial {sq : K → K} {rounds : Nat} {s : QPC K} {gNew : Nat → K} {lbNew ubNew lbANew ubANew : Option (Nat → K)} {nWSR : Int}
    {c : Option K} {gB gC : Guess} (hb : 0 ≤ nWSR) (hr : InRange s.nV lbNew ubNew) (hrA : InRange s.nC lbANew ubANew)
    (hv : ValidOptions s.options) (hfar : s.options.enableFarBounds = true) (hi : s.options.initialFarBounds < INFTY)
    (h0 : 0 ≤ s.ramp0) (h1 : 0 ≤ s.ramp1) (hn : s.options.enableRamping = true → 2 ≤ s.nV + s.nC)
    (hS : ∀ k : Nat, s.initialFar lbNew ubNew lbANew ubANew * s.options.growFarBounds ^ k < INFTY →
      s.initialFar lbNew ubNew lbANew ubANew * s.options.growFarBounds ^ k * maxRamp s.toQPB < INFTY) :
    QPC.hotstart sq rounds s gNew lbNew ubNew lbANew ubANew nWSR c gB gC =
    QPC.hotstart sq rounds s gNew (some (lbNew.getD fun _ => -INFTY)) (some (ubNew.getD fun _ => INFTY))
      (some (lbANew.getD fun _ => -INFTY)) (some (ubANew.getD fun _ => INFTY)) nWSR c gB gC :=
  QPC.hotstart_absent hb hr hrA hfar (hv.boundRelaxation.trans hv.initialFarBounds) hi ⟨le_trans (by norm_num) hv.growFarBounds, h0, h1, hn⟩ hS

/-- The last hypothesis holds without ramping. -/
theorem C51_no_ramping {s : QPB K} (h : s.options.enableRamping = false) (far : K) (k : Nat) (hlt : far * s.options.growFarBounds ^ k < INFTY) :
    far * s.options.growFarBounds ^ k * maxRamp s < INFTY := by
  unfold maxRamp
  rw [if_neg (by rw [h]; decide), mul_one]
  exact hlt

/-- Far bounds without ramping. -/
def farOnly : Options ℚ := { plain with enableFarBounds := true }

/-- The hypotheses of C51_bounds_partial are met after a cold start, and the hot start without lower limits succeeds. -/
example : holds (cold (start 2 HST_IDENTITY farOnly) none [0,0] [1,2] [100,100]) (fun o => decide (o.rv = SUCCESSFUL_RETURN ∧
      o.s.options.enableFarBounds = true ∧ o.s.options.enableRamping = false ∧ o.s.options.initialFarBounds < INFTY ∧ o.s.x 0 = 1 ∧ o.s.x 1 = 2)) = true ∧
    holds (hot (cold (start 2 HST_IDENTITY farOnly) none [0,0] [1,2] [100,100]) [0,0] none (some [100,100]) .null)
      (fun o => decide (o.rv = SUCCESSFUL_RETURN ∧ o.s.status = QPS_SOLVED ∧ o.s.x 0 = 0 ∧ o.s.x 1 = 0)) = true := by
  decide +kernel

/-- The same for C51_general_partial: without lower limits for the constraints x₁ ≥ 1, x₂ ≥ 2. -/
example : holds (hotC (coldC (startC 2 2 HST_IDENTITY farOnly) none [0,0] [1,0,0,1] [-100,-100] [100,100] [1,2] [50,50])
      [0,0] none (some [100,100]) none (some [50,50]) .null .null)
    (fun o => decide (o.rv = SUCCESSFUL_RETURN ∧ o.s.status = QPS_SOLVED ∧ o.s.x 0 = 0 ∧ o.s.x 1 = 0)) = true := by
  decide +kernel

/-- The problem left when the lower limits are removed: its minimum is at the origin. -/
def freed : QP ℚ := qpOf 2 0 [1,0,0,1] [0,0] [] [-INFTY,-INFTY] [100,100] [] []

/-- **C51 violated**, bound-constrained solver without far bounds: absent limits are ignored when the length of the remaining
homotopy is computed (src/QProblemB.cpp:2131-2155).  Minimise ½|x|² subject to x₁ ≥ 1, x₂ ≥ 2; then the lower limits are removed by
passing no vector: `SUCCESSFUL_RETURN` comes with the point (0, 10²⁰/(10²⁰+1)), which is not the minimum. -/
theorem C51_bounds_violated : ∃ o, hot (cold (start 2 HST_IDENTITY plain) none [0,0] [1,2] [100,100]) [0,0] none (some [100,100]) .null = .ok o ∧
    o.rv = SUCCESSFUL_RETURN ∧ o.s.status = QPS_SOLVED ∧ ¬ freed.IsMinimiser o.s.x := by
  obtain ⟨o, e, h⟩ := of_holds (r := hot (cold (start 2 HST_IDENTITY plain) none [0,0] [1,2] [100,100]) [0,0] none (some [100,100]) .null)
    (p := fun o => decide (o.rv = SUCCESSFUL_RETURN ∧ o.s.status = QPS_SOLVED ∧ o.s.x 0 = 0 ∧ 1/2 < o.s.x 1)) (by decide +kernel)
  obtain ⟨r, st, x0, x1⟩ := of_decide_eq_true h
  refine ⟨o, e, r, st, fun hm => ?_⟩
  have hz : freed.Feasible (vec [0,0]) := by
    have two : ∀ i, i < 2 → i = 0 ∨ i = 1 := by omega
    constructor
    · intro i hi
      rcases two i hi with rfl | rfl <;> simp [freed, qpOf, vec, INFTY]
    · intro i hi
      rcases two i hi with rfl | rfl <;> simp [freed, qpOf, vec]
    · intro k hk
      exact absurd hk (Nat.not_lt_zero k)
    · intro k hk
      exact absurd hk (Nat.not_lt_zero k)
  have := hm.2 _ hz
  simp [freed, qpOf, QP.obj, QP.row, sum_range_succ, x0, vec] at this
  nlinarith

/-- The same with the lower limits of two constraints removed. -/
def freedC : QP ℚ := qpOf 2 2 [1,0,0,1] [0,0] [1,0,0,1] [-100,-100] [100,100] [-INFTY,-INFTY] [50,50]

/-- **C51 violated**, general solver without far bounds: the same happens with the limits of the constraints
(src/QProblem.cpp:5372-5412). -/
theorem C51_general_violated : ∃ o, hotC (coldC (startC 2 2 HST_IDENTITY plain) none [0,0] [1,0,0,1] [-100,-100] [100,100] [1,2] [50,50])
      [0,0] (some [-100,-100]) (some [100,100]) none (some [50,50]) .null .null = .ok o ∧
    o.rv = SUCCESSFUL_RETURN ∧ o.s.status = QPS_SOLVED ∧ ¬ freedC.IsMinimiser o.s.x := by
  obtain ⟨o, e, h⟩ := of_holds (r := hotC (coldC (startC 2 2 HST_IDENTITY plain) none [0,0] [1,0,0,1] [-100,-100] [100,100] [1,2] [50,50])
      [0,0] (some [-100,-100]) (some [100,100]) none (some [50,50]) .null .null)
    (p := fun o => decide (o.rv = SUCCESSFUL_RETURN ∧ o.s.status = QPS_SOLVED ∧ o.s.x 0 = 0 ∧ 1/2 < o.s.x 1)) (by decide +kernel)
  obtain ⟨r, st, x0, x1⟩ := of_decide_eq_true h
  refine ⟨o, e, r, st, fun hm => ?_⟩
  have hz : freedC.Feasible (vec [0,0]) := by
    have two : ∀ i, i < 2 → i = 0 ∨ i = 1 := by omega
    constructor
    · intro i hi
      rcases two i hi with rfl | rfl <;> simp [freedC, qpOf, vec]
    · intro i hi
      rcases two i hi with rfl | rfl <;> simp [freedC, qpOf, vec]
    · intro k hk
      rcases two k hk with rfl | rfl <;> simp [freedC, qpOf, QP.row, sum_range_succ, vec, INFTY]
    · intro k hk
      rcases two k hk with rfl | rfl <;> simp [freedC, qpOf, QP.row, sum_range_succ, vec]
  have := hm.2 _ hz
  simp [freedC, qpOf, QP.obj, QP.row, sum_range_succ, x0, vec] at this
  nlinarith

end QpOASES.Props
