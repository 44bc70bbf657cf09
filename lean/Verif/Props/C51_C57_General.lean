import Verif.Proofs.QPCRuns
import Verif.Spec.QP
import Mathlib.Tactic.Linarith
import Mathlib.Tactic.NormNum
import Mathlib.Tactic.Ring
import Mathlib.Algebra.BigOperators.Intervals

/-!
The solver for general constraints: histories of calls after which the claims are false.  All runs are evaluated by the kernel,
over the rational numbers, without rounding.
-/
namespace QpOASES.Props
open Spec Finset QpOASES.Runs
open SubjectToStatus SubjectToType ReturnValue HessianType QProblemStatus

/-- The QP given by lists of numbers, matrices row by row. -/
def qpOf (n m : Nat) (H g A l u lA uA : List ℚ) : QP ℚ :=
  { nV := n, nC := m, H := fun i j => vec H (n * i + j), g := vec g, lb := vec l, ub := vec u, A := fun i j => vec A (n * i + j)
    lbA := vec lA, ubA := vec uA }

/-- A first solve used by several of the runs: ½|x|² - x₁ - x₂ subject to 3x₁ + 4x₂ ≤ 5. -/
def first : Res (OutC ℚ) := coldC (startC 2 1 HST_IDENTITY plain) none [-1,-1] [3,4] [-100,-100] [100,100] [-50] [5]

/-- The model solves it: the constraint is active at (19/25, 17/25) with multiplier -2/25, and this is the minimum. -/
theorem first_solved : ∃ o, first = .ok o ∧ o.rv = SUCCESSFUL_RETURN ∧ o.s.status = QPS_SOLVED ∧
    (qpOf 2 1 [1,0,0,1] [-1,-1] [3,4] [-100,-100] [100,100] [-50] [5]).KKT o.s.x o.s.y := by
  obtain ⟨o, e, h⟩ := of_holds (r := first) (p := fun o => decide (o.rv = SUCCESSFUL_RETURN ∧ o.s.status = QPS_SOLVED ∧ o.s.x 0 = 19/25 ∧
    o.s.x 1 = 17/25 ∧ o.s.y 0 = 0 ∧ o.s.y 1 = 0 ∧ o.s.y 2 = -2/25)) (by decide +kernel)
  obtain ⟨r, st, x0, x1, y0, y1, y2⟩ := of_decide_eq_true h
  refine ⟨o, e, r, st, ?_⟩
  have two : ∀ i, i < 2 → i = 0 ∨ i = 1 := by omega
  constructor
  · constructor
    · intro i hi
      rcases two i hi with rfl | rfl <;>
        simp [qpOf, QP.row, sum_range_succ, x0, x1, y0, y1, y2, vec] <;> norm_num
    · intro i hi
      rcases two i hi with rfl | rfl <;> intro hp <;> simp [y0, y1] at hp
    · intro i hi
      rcases two i hi with rfl | rfl <;> intro hp <;> simp [y0, y1] at hp
    · intro k hk
      obtain rfl : k = 0 := Nat.lt_one_iff.1 hk
      intro hp
      rw [show (qpOf 2 1 [1,0,0,1] [-1,-1] [3,4] [-100,-100] [100,100] [-50] [5]).nV + 0 = 2 from rfl, y2] at hp
      norm_num at hp
    · intro k hk
      obtain rfl : k = 0 := Nat.lt_one_iff.1 hk
      intro _
      simp [qpOf, QP.row, sum_range_succ, x0, x1, vec]
      norm_num
  · constructor
    · intro i hi
      rcases two i hi with rfl | rfl <;> simp [qpOf, x0, x1, vec] <;> norm_num
    · intro i hi
      rcases two i hi with rfl | rfl <;> simp [qpOf, x0, x1, vec] <;> norm_num
    · intro k hk
      obtain rfl : k = 0 := Nat.lt_one_iff.1 hk
      simp [qpOf, QP.row, sum_range_succ, x0, x1, vec]
      norm_num
    · intro k hk
      obtain rfl : k = 0 := Nat.lt_one_iff.1 hk
      simp [qpOf, QP.row, sum_range_succ, x0, x1, vec]
      norm_num

/-- **C51 violated**: hotstart with absent limit vectors for the variables dereferences a null pointer (far bounds disabled). -/
theorem C51_violated : hotC first [-1,-2] none none (some [-50]) (some [10]) .null .null = .ub .nullDeref :=
  of_nullDeref (by decide +kernel)

/-- **C39 violated**: a hotstart without budget leaves the object in a state in which every later hotstart is refused, although
nothing has failed. -/
theorem C39_budget_violated : ∃ o o', hotC first [-1,-2] (some [-100,-100]) (some [100,100]) (some [-50]) (some [10]) .null .null 0 = .ok o ∧
    o.rv = RET_MAX_NWSR_REACHED ∧
    hotC (.ok o) [-1,-2] (some [-100,-100]) (some [100,100]) (some [-50]) (some [10]) .null .null 10 = .ok o' ∧
    o'.rv = RET_HOTSTART_FAILED_AS_QP_NOT_INITIALISED := by
  obtain ⟨o, e, h⟩ := of_holds (r := hotC first [-1,-2] (some [-100,-100]) (some [100,100]) (some [-50]) (some [10]) .null .null 0)
    (p := fun o => decide (o.rv = RET_MAX_NWSR_REACHED) &&
      holds (hotC (.ok o) [-1,-2] (some [-100,-100]) (some [100,100]) (some [-50]) (some [10]) .null .null 10)
        (fun o' => decide (o'.rv = RET_HOTSTART_FAILED_AS_QP_NOT_INITIALISED))) (by decide +kernel)
  rw [Bool.and_eq_true] at h
  obtain ⟨o', e', h'⟩ := of_holds h.2
  exact ⟨o, o', e, of_decide_eq_true h.1, e', of_decide_eq_true h'⟩

/-- **C41 violated**: hotstart with crossing limits of a constraint returns `SUCCESSFUL_RETURN`, and the object still reports the old
QP as solved. -/
theorem C41_general_violated : ∃ o, hotC first [-1,-2] (some [-100,-100]) (some [100,100]) (some [20]) (some [10]) .null .null = .ok o ∧
    o.rv = SUCCESSFUL_RETURN ∧ o.s.status = QPS_SOLVED := by
  obtain ⟨o, e, h⟩ := of_holds (r := hotC first [-1,-2] (some [-100,-100]) (some [100,100]) (some [20]) (some [10]) .null .null)
    (p := fun o => decide (o.rv = SUCCESSFUL_RETURN ∧ o.s.status = QPS_SOLVED)) (by decide +kernel)
  exact ⟨o, e, of_decide_eq_true h⟩

/-- **C34 and C58 violated**: the types of constraints are not updated by hotstart.  A constraint whose limits were infinite at the
cold start is ignored later: `SUCCESSFUL_RETURN` comes with a point that violates it. -/
theorem C34_types_violated : ∃ o, hotC (coldC (startC 2 1 HST_IDENTITY plain) none [-1,-1] [3,4] [-100,-100] [100,100] [-INFTY] [INFTY])
      [-1,-1] (some [-100,-100]) (some [100,100]) (some [-50]) (some [5]) .null .null = .ok o ∧
    o.rv = SUCCESSFUL_RETURN ∧ o.s.status = QPS_SOLVED ∧ o.s.tau = 1 ∧
    ¬ (qpOf 2 1 [1,0,0,1] [-1,-1] [3,4] [-100,-100] [100,100] [-50] [5]).Feasible o.s.x := by
  obtain ⟨o, e, h⟩ := of_holds (r := hotC (coldC (startC 2 1 HST_IDENTITY plain) none [-1,-1] [3,4] [-100,-100] [100,100] [-INFTY] [INFTY])
      [-1,-1] (some [-100,-100]) (some [100,100]) (some [-50]) (some [5]) .null .null)
    (p := fun o => decide (o.rv = SUCCESSFUL_RETURN ∧ o.s.status = QPS_SOLVED ∧ o.s.tau = 1 ∧ o.s.x 0 = 1 ∧ o.s.x 1 = 1)) (by decide +kernel)
  obtain ⟨r, st, t, x0, x1⟩ := of_decide_eq_true h
  refine ⟨o, e, r, st, t, fun hf => ?_⟩
  have := hf.upperA 0 Nat.one_pos
  simp [qpOf, QP.row, sum_range_succ, x0, x1, vec] at this
  norm_num at this

/-- Refactorisation of the projected Hessian in each iteration (as in the preset for reliability). -/
def refactorising : Options ℚ := { plain with enableCholeskyRefactorisation := 1 }

/-- Minimise 2x₁² + 25/2 x₂² - 4x₁ - 25x₂ subject to 3x₁ + 4x₂ ≤ 5, then -25x₂ subject to 3x₁ + 4x₂ ≤ 50. -/
def relaxed : Res (OutC ℚ) :=
  hotC (coldC (startC 2 1 HST_POSDEF refactorising) (some [4,0,0,25]) [-4,-25] [3,4] [-100,-100] [100,100] [-50] [5])
    [0,-25] (some [-100,-100]) (some [100,100]) (some [-50]) (some [50]) .null .null

/-- **C28 and C34 violated**: when the last active constraint has left the working set, refactorisation computes the factor of the
Hessian itself, whereas `Q` is still the one that belonged to the constraint.  Later steps go in the wrong direction:
`SUCCESSFUL_RETURN` after a full step comes with a point that is not a minimum. -/
theorem C34_refactorisation_violated : ∃ o, relaxed = .ok o ∧ o.rv = SUCCESSFUL_RETURN ∧ o.s.status = QPS_SOLVED ∧ o.s.tau = 1 ∧
    ¬ (qpOf 2 1 [4,0,0,25] [0,-25] [3,4] [-100,-100] [100,100] [-50] [50]).IsMinimiser o.s.x := by
  obtain ⟨o, e, h⟩ := of_holds (r := relaxed)
    (p := fun o => decide (o.rv = SUCCESSFUL_RETURN ∧ o.s.status = QPS_SOLVED ∧ o.s.tau = 1 ∧ o.s.x 0 = 3316761/3125000 ∧
      o.s.x 1 = 1207973/3125000)) (by decide +kernel)
  obtain ⟨r, st, t, x0, x1⟩ := of_decide_eq_true h
  refine ⟨o, e, r, st, t, fun hm => ?_⟩
  have hz : (qpOf 2 1 [4,0,0,25] [0,-25] [3,4] [-100,-100] [100,100] [-50] [50]).Feasible (vec [0,1]) := by
    have two : ∀ i, i < 2 → i = 0 ∨ i = 1 := by omega
    constructor
    · intro i hi
      rcases two i hi with rfl | rfl <;> simp [qpOf, vec]; norm_num
    · intro i hi
      rcases two i hi with rfl | rfl <;> simp [qpOf, vec]
    · intro k hk
      obtain rfl : k = 0 := Nat.lt_one_iff.1 hk
      simp [qpOf, QP.row, sum_range_succ, vec]
      norm_num
    · intro k hk
      obtain rfl : k = 0 := Nat.lt_one_iff.1 hk
      simp [qpOf, QP.row, sum_range_succ, vec]
      norm_num
  have := hm.2 _ hz
  simp [qpOf, QP.obj, QP.row, sum_range_succ, x0, x1, vec] at this
  norm_num at this

/-- Upper-left corner of the factors at the end of that run: with nothing in the working set, `Z = Q`, and the factor `R` does not
satisfy R'R = Z'HZ. -/
theorem C28_refactorisation_violated : ∃ o, relaxed = .ok o ∧ o.s.bounds.fixed = [] ∧ o.s.cons.fixed = [] ∧
    o.s.R 0 0 * o.s.R 0 0 ≠ ∑ a ∈ range 2, ∑ b ∈ range 2, o.s.Q a 0 * vec [4,0,0,25] (2 * a + b) * o.s.Q b 0 := by
  obtain ⟨o, e, h⟩ := of_holds (r := relaxed)
    (p := fun o => decide (o.s.bounds.fixed = [] ∧ o.s.cons.fixed = [] ∧ o.s.R 0 0 = 2 ∧ o.s.Q 0 0 = 4/5 ∧ o.s.Q 1 0 = -3/5)) (by decide +kernel)
  obtain ⟨b, c, r0, q0, q1⟩ := of_decide_eq_true h
  refine ⟨o, e, b, c, ?_⟩
  simp [sum_range_succ, r0, q0, q1, vec]
  norm_num

/-- All four variables at their lower limits. -/
def allLower : WS := loop (fun i b => b.moveFreeToFixed i ST_LOWER) 4 (WS.init 4).setupAllFree

/-- **C53 violated**: guess that all variables are at their lower limits and the constraint is inactive.  If the constraint was active
before, it stays active: there are then more active members than variables. -/
theorem C53_general_violated : ∃ o o', coldC (startC 4 1 HST_IDENTITY plain) none [-1,0,0,0] [1,0,0,0] [0,0,0,0] [100,100,100,100] [-1/2] [1/2] = .ok o ∧
    o.rv = SUCCESSFUL_RETURN ∧
    QPC.setupAuxiliaryQP rootC o.s (some allLower) (some (WS.init 1).setupAllFree) = .ok (SUCCESSFUL_RETURN, o') ∧
    o'.bounds.fixed.length = 4 ∧ o'.cons.fixed = [0] ∧ o'.cons.getStatus 0 = ST_UPPER := by
  obtain ⟨o, e, h⟩ := of_holds (r := coldC (startC 4 1 HST_IDENTITY plain) none [-1,0,0,0] [1,0,0,0] [0,0,0,0] [100,100,100,100] [-1/2] [1/2])
    (p := fun o => decide (o.rv = SUCCESSFUL_RETURN) && holds (QPC.setupAuxiliaryQP rootC o.s (some allLower) (some (WS.init 1).setupAllFree))
      (fun o' => decide (o'.1 = SUCCESSFUL_RETURN ∧ o'.2.bounds.fixed.length = 4 ∧ o'.2.cons.fixed = [0] ∧ o'.2.cons.getStatus 0 = ST_UPPER)))
    (by decide +kernel)
  rw [Bool.and_eq_true] at h
  obtain ⟨⟨r, o'⟩, e', h'⟩ := of_holds h.2
  obtain ⟨h1, h2, h3, h4⟩ := of_decide_eq_true h'
  refine ⟨o, o', e, of_decide_eq_true h.1, ?_, h2, h3, h4⟩
  rw [e']
  exact congrArg (fun r => Res.ok (r, o')) h1

/-- Dropping enabled; equalities are to be dropped last, inequalities first. -/
def dropping : Options ℚ :=
  { plain with enableDropInfeasibles := true, dropEqConPriority := 3, dropBoundPriority := 2, dropIneqConPriority := 1, enableEqualities := true }

/-- **C57 violated**: for the constraints x ≤ 1 (inequality, lowest priority) and x = 2 (equality, highest priority), the equality is
dropped. -/
theorem C57_violated : ∃ o, coldC (startC 1 2 HST_IDENTITY dropping) none [0] [1,1] [-100] [100] [-10,2] [1,2] = .ok o ∧
    o.rv = SUCCESSFUL_RETURN ∧ o.s.cons.type 0 = ST_BOUNDED ∧ o.s.cons.type 1 = ST_EQUALITY ∧
    o.s.cons.getStatus 0 = ST_UPPER ∧ o.s.cons.getStatus 1 = ST_INFEASIBLE_LOWER ∧ o.s.x 0 = 1 := by
  obtain ⟨o, e, h⟩ := of_holds (r := coldC (startC 1 2 HST_IDENTITY dropping) none [0] [1,1] [-100] [100] [-10,2] [1,2])
    (p := fun o => decide (o.rv = SUCCESSFUL_RETURN ∧ o.s.cons.type 0 = ST_BOUNDED ∧ o.s.cons.type 1 = ST_EQUALITY ∧
      o.s.cons.getStatus 0 = ST_UPPER ∧ o.s.cons.getStatus 1 = ST_INFEASIBLE_LOWER ∧ o.s.x 0 = 1)) (by decide +kernel)
  exact ⟨o, e, of_decide_eq_true h⟩

/-- **C34 violated**: the multiplier of the dropped constraint is not reset.  The result is not optimal for the remaining QP either:
without the dropped constraint the minimum is at 0. -/
theorem C34_dropped_violated : ∃ o, coldC (startC 1 2 HST_IDENTITY dropping) none [0] [1,1] [-100] [100] [-10,2] [1,2] = .ok o ∧
    o.rv = SUCCESSFUL_RETURN ∧ o.s.y 2 ≠ 0 ∧ o.s.cons.fixed = [0] ∧
    ¬ (qpOf 1 1 [1] [0] [1] [-100] [100] [-10] [1]).IsMinimiser o.s.x := by
  obtain ⟨o, e, h⟩ := of_holds (r := coldC (startC 1 2 HST_IDENTITY dropping) none [0] [1,1] [-100] [100] [-10,2] [1,2])
    (p := fun o => decide (o.rv = SUCCESSFUL_RETURN ∧ o.s.y 2 ≠ 0 ∧ o.s.cons.fixed = [0] ∧ o.s.x 0 = 1)) (by decide +kernel)
  obtain ⟨h1, h2, h3, x0⟩ := of_decide_eq_true h
  refine ⟨o, e, h1, h2, h3, fun hm => ?_⟩
  have hz : (qpOf 1 1 [1] [0] [1] [-100] [100] [-10] [1]).Feasible (vec [0]) := by
    constructor <;> intro i hi <;> obtain rfl : i = 0 := Nat.lt_one_iff.1 hi <;> simp [qpOf, QP.row, sum_range_succ, vec]
  have := hm.2 _ hz
  simp [qpOf, QP.obj, QP.row, sum_range_succ, x0, vec] at this
  norm_num at this

end QpOASES.Props
