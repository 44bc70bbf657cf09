import Verif.Spec.QP
import Mathlib.Algebra.BigOperators.Ring.Finset
import Mathlib.Tactic.Linarith
import Mathlib.Tactic.LinearCombination
import Mathlib.Tactic.Ring
import Mathlib.Tactic.NormNum
import Mathlib.Tactic.IntervalCases
import Mathlib.Algebra.BigOperators.Group.Finset.Sigma
import Mathlib.Algebra.Order.BigOperators.Group.Finset

/-!
C35: the optimality conditions certify a global minimum.
-/
namespace QpOASES.Props
open Finset Spec Spec.QP

variable {K : Type} [Field K] [LinearOrder K] [IsStrictOrderedRing K]

/-- Second-order expansion of the objective. -/
theorem obj_expand {P : QP K} (hS : Symmetric P.nV P.H) (x z : Nat → K) :
    P.obj z = P.obj x + ∑ i ∈ range P.nV, (row P.nV P.H x i + P.g i) * (z i - x i) +
      1 / 2 * ∑ i ∈ range P.nV, (z i - x i) * row P.nV P.H (fun j => z j - x j) i := by
  have sym : ∑ i ∈ range P.nV, z i * row P.nV P.H x i = ∑ i ∈ range P.nV, x i * row P.nV P.H z i := by
    unfold row
    simp only [mul_sum]
    rw [sum_comm]
    refine sum_congr rfl fun i hi => sum_congr rfl fun j hj => ?_
    rw [hS j (mem_range.1 hj) i (mem_range.1 hi)]
    ring
  have lin : ∀ i, row P.nV P.H (fun j => z j - x j) i = row P.nV P.H z i - row P.nV P.H x i := by
    intro i
    unfold row
    rw [← sum_sub_distrib]
    exact sum_congr rfl fun j _ => by ring
  have e1 : ∑ i ∈ range P.nV, (row P.nV P.H x i + P.g i) * (z i - x i) =
      ∑ i ∈ range P.nV, z i * row P.nV P.H x i - ∑ i ∈ range P.nV, x i * row P.nV P.H x i +
        (∑ i ∈ range P.nV, P.g i * z i - ∑ i ∈ range P.nV, P.g i * x i) := by
    rw [← sum_sub_distrib, ← sum_sub_distrib, ← sum_add_distrib]
    exact sum_congr rfl fun i _ => by ring
  have e2 : ∑ i ∈ range P.nV, (z i - x i) * row P.nV P.H (fun j => z j - x j) i =
      ∑ i ∈ range P.nV, z i * row P.nV P.H z i - ∑ i ∈ range P.nV, z i * row P.nV P.H x i -
        ∑ i ∈ range P.nV, x i * row P.nV P.H z i + ∑ i ∈ range P.nV, x i * row P.nV P.H x i := by
    rw [← sum_sub_distrib, ← sum_sub_distrib, ← sum_add_distrib]
    exact sum_congr rfl fun i _ => by rw [lin]; ring
  unfold obj
  rw [e1, e2]
  linear_combination (-1 / 2) * sym

/-- The first-order term is nonnegative for every point within the limits. -/
theorem firstOrder_nonneg {P : QP K} {x y z : Nat → K} (h : Stationary P x y) (hz : P.Feasible z) :
    0 ≤ ∑ i ∈ range P.nV, (row P.nV P.H x i + P.g i) * (z i - x i) := by
  have e : ∑ i ∈ range P.nV, (row P.nV P.H x i + P.g i) * (z i - x i) =
      ∑ i ∈ range P.nV, y i * (z i - x i) +
        ∑ k ∈ range P.nC, y (P.nV + k) * (row P.nV P.A z k - row P.nV P.A x k) := by
    have : ∑ k ∈ range P.nC, y (P.nV + k) * (row P.nV P.A z k - row P.nV P.A x k) =
        ∑ i ∈ range P.nV, (∑ k ∈ range P.nC, P.A k i * y (P.nV + k)) * (z i - x i) := by
      simp only [sum_mul]
      rw [sum_comm]
      refine sum_congr rfl fun k _ => ?_
      unfold row
      rw [← sum_sub_distrib, mul_sum]
      exact sum_congr rfl fun i _ => by ring
    rw [this, ← sum_add_distrib]
    refine sum_congr rfl fun i hi => ?_
    rw [h.stat i (mem_range.1 hi)]
    ring
  rw [e]
  refine add_nonneg (sum_nonneg fun i hi => ?_) (sum_nonneg fun k hk => ?_)
  · have hi := mem_range.1 hi
    rcases lt_trichotomy (y i) 0 with h1 | h1 | h1
    · rw [h.neg i hi h1]
      exact mul_nonneg_of_nonpos_of_nonpos h1.le (sub_nonpos.2 (hz.upper i hi))
    · rw [h1, zero_mul]
    · rw [h.pos i hi h1]
      exact mul_nonneg h1.le (sub_nonneg.2 (hz.lower i hi))
  · have hk := mem_range.1 hk
    rcases lt_trichotomy (y (P.nV + k)) 0 with h1 | h1 | h1
    · rw [h.negA k hk h1]
      exact mul_nonneg_of_nonpos_of_nonpos h1.le (sub_nonpos.2 (hz.upperA k hk))
    · rw [h1, zero_mul]
    · rw [h.posA k hk h1]
      exact mul_nonneg h1.le (sub_nonneg.2 (hz.lowerA k hk))

/-- **C35**, convex case, in a form that does not need the point itself to respect limits that are treated as
infinite: a stationary pair is at least as good as every point within the limits. -/
theorem C35_no_better_point {P : QP K} (hS : Symmetric P.nV P.H) (hH : PosSemidef P.nV P.H) {x y : Nat → K}
    (h : Stationary P x y) : ∀ z, P.Feasible z → P.obj x ≤ P.obj z := by
  intro z hz
  have h1 := firstOrder_nonneg h hz
  have h2 := hH fun j => z j - x j
  rw [obj_expand hS x z]
  have : 0 ≤ (1 : K) / 2 * ∑ i ∈ range P.nV, (z i - x i) * row P.nV P.H (fun j => z j - x j) i :=
    mul_nonneg (by norm_num) h2
  linarith

/-- **C35**: for a positive semidefinite Hessian the optimality conditions certify a global minimiser. -/
theorem C35_global_minimum {P : QP K} (hS : Symmetric P.nV P.H) (hH : PosSemidef P.nV P.H) {x y : Nat → K}
    (h : P.KKT x y) : P.IsMinimiser x := ⟨h.toFeasible, C35_no_better_point hS hH h.toStationary⟩

/-- **C35**: for a positive definite Hessian it is the only one. -/
theorem C35_unique {P : QP K} (hS : Symmetric P.nV P.H) (hH : PosDef P.nV P.H) {x y : Nat → K}
    (h : P.KKT x y) {z : Nat → K} (hz : P.IsMinimiser z) : ∀ i < P.nV, z i = x i := by
  by_contra hne
  push Not at hne
  obtain ⟨i, hi, hne⟩ := hne
  have h1 := firstOrder_nonneg h.toStationary hz.1
  have h2 := hH (fun j => z j - x j) ⟨i, hi, sub_ne_zero.2 hne⟩
  have h3 := hz.2 x h.toFeasible
  rw [obj_expand hS x z] at h3
  have : 0 < (1 : K) / 2 * ∑ i ∈ range P.nV, (z i - x i) * row P.nV P.H (fun j => z j - x j) i :=
    mul_pos (by norm_num) h2
  linarith

/-- The QP  min x₀² + x₁² + x₀x₁ - 5x₀ - x₁,  0 ≤ x ≤ 2,  x₀ + x₁ ≥ 1. -/
def exampleQP : QP ℚ :=
  { nV := 2, nC := 1, H := fun i j => if i = j then 2 else 1, g := fun i => if i = 0 then -5 else -1
    lb := fun _ => 0, ub := fun _ => 2, A := fun _ _ => 1, lbA := fun _ => 1, ubA := fun _ => 10 }

/-- Non-vacuity: a symmetric positive definite QP with a primal-dual pair that satisfies the conditions. -/
example : Symmetric exampleQP.nV exampleQP.H ∧ PosDef exampleQP.nV exampleQP.H ∧
    exampleQP.KKT (fun i => if i = 0 then 2 else 0) (fun i => if i = 0 then -1 else if i = 1 then 1 else 0) := by
  refine ⟨fun i _ j _ => by simp only [exampleQP, eq_comm], ?_, ?_⟩
  · rintro d ⟨i, hi, hd⟩
    have e : ∑ i ∈ range 2, d i * row 2 exampleQP.H d i = d 0 * d 0 + d 1 * d 1 + (d 0 + d 1) * (d 0 + d 1) := by
      simp [row, exampleQP, sum_range_succ]; ring
    show 0 < ∑ i ∈ range 2, d i * row 2 exampleQP.H d i
    rw [e]
    have hi : i < 2 := hi
    have : 0 < d i * d i := mul_self_pos.2 hd
    have h0 := mul_self_nonneg (d 0)
    have h1 := mul_self_nonneg (d 1)
    have h2 := mul_self_nonneg (d 0 + d 1)
    interval_cases i <;> linarith
  · refine ⟨⟨?_, ?_, ?_, ?_, ?_⟩, ⟨?_, ?_, ?_, ?_⟩⟩ <;> intro i hi <;>
      simp only [exampleQP] at hi <;> interval_cases i <;>
      simp [exampleQP, row, sum_range_succ] <;> norm_num

end QpOASES.Props
