import Verif.Spec.QP
import Mathlib.Algebra.BigOperators.Ring.Finset
import Mathlib.Algebra.Order.BigOperators.Group.Finset
import Mathlib.Tactic.Ring
import Mathlib.Tactic.Linarith
import Mathlib.Tactic.LinearCombination

/-!
Infeasible and unbounded QPs.
-/
namespace QpOASES.Spec
open Finset

variable {K : Type} [Field K] [LinearOrder K] [IsStrictOrderedRing K]

namespace QP

/-- No point satisfies all limits. -/
def Infeasible (P : QP K) : Prop := ∀ x, ¬ P.Feasible x

/-- `x` satisfies all finite limits. -/
structure FeasibleInf (P : QP K) (x : Nat → K) : Prop where
  lower : ∀ i < P.nV, -INFTY < P.lb i → P.lb i ≤ x i
  upper : ∀ i < P.nV, P.ub i < INFTY → x i ≤ P.ub i
  lowerA : ∀ k < P.nC, -INFTY < P.lbA k → P.lbA k ≤ row P.nV P.A x k
  upperA : ∀ k < P.nC, P.ubA k < INFTY → row P.nV P.A x k ≤ P.ubA k

/-- Points that satisfy all finite limits have arbitrarily small objective values. -/
def UnboundedBelow (P : QP K) : Prop := ∀ c, ∃ x, P.FeasibleInf x ∧ P.obj x < c

/-- Along `d` the objective decreases at a constant rate, wherever one starts. -/
structure Descent (P : QP K) (d : Nat → K) : Prop where
  flat : ∀ i < P.nV, row P.nV P.H d i = 0
  falls : ∑ i ∈ range P.nV, P.g i * d i < 0

/-- No finite limit is approached along `d`. -/
structure Recession (P : QP K) (d : Nat → K) : Prop where
  lower : ∀ i < P.nV, d i < 0 → P.lb i ≤ -INFTY
  upper : ∀ i < P.nV, 0 < d i → INFTY ≤ P.ub i
  lowerA : ∀ k < P.nC, row P.nV P.A d k < 0 → P.lbA k ≤ -INFTY
  upperA : ∀ k < P.nC, 0 < row P.nV P.A d k → INFTY ≤ P.ubA k

/-- There is a linear dependency between the gradients of the limits (those of the variables are unit vectors), with coefficients `v`, `w`, in
which a member whose multiplier is zero has coefficient one, and another one has a multiplier of at least `J` times its coefficient. -/
def HugeMultiplier (P : QP K) (y : Nat → K) (J : K) : Prop :=
  ∃ v w : Nat → K, (∀ i < P.nV, v i + ∑ k ∈ range P.nC, P.A k i * w k = 0) ∧
    ((∃ i < P.nV, |v i| = 1 ∧ y i = 0) ∨ ∃ k < P.nC, |w k| = 1 ∧ y (P.nV + k) = 0) ∧
    ((∃ i < P.nV, v i ≠ 0 ∧ J * |v i| ≤ |y i|) ∨ ∃ k < P.nC, w k ≠ 0 ∧ J * |w k| ≤ |y (P.nV + k)|)

/-- Along `d` one can go from `x` at least `J` times as far as `d` reaches without meeting a limit of `Q`; constraints without finite limits in `P`
do not count.  The member that leaves its limit does so by one unit. -/
structure Roomy (P Q : QP K) (x d : Nat → K) (J : K) : Prop where
  unit : (∃ i < P.nV, |d i| = 1) ∨ ∃ k < P.nC, |row P.nV P.A d k| = 1
  lower : ∀ i < P.nV, d i < 0 → J * -d i ≤ x i - Q.lb i
  upper : ∀ i < P.nV, 0 < d i → J * d i ≤ Q.ub i - x i
  lowerA : ∀ k < P.nC, (-INFTY < P.lbA k ∨ P.ubA k < INFTY) → row P.nV P.A d k < 0 → J * -row P.nV P.A d k ≤ row P.nV P.A x k - Q.lbA k
  upperA : ∀ k < P.nC, (-INFTY < P.lbA k ∨ P.ubA k < INFTY) → 0 < row P.nV P.A d k → J * row P.nV P.A d k ≤ Q.ubA k - row P.nV P.A x k

/-- A finite limit of `P` that is approached along `d`, and at a distance of at least `J` times the speed in `Q`. -/
def FarLimit (P Q : QP K) (x d : Nat → K) (J : K) : Prop :=
  (∃ i < P.nV, d i < 0 ∧ -INFTY < P.lb i ∧ J * -d i ≤ x i - Q.lb i) ∨
  (∃ i < P.nV, 0 < d i ∧ P.ub i < INFTY ∧ J * d i ≤ Q.ub i - x i) ∨
  (∃ k < P.nC, row P.nV P.A d k < 0 ∧ -INFTY < P.lbA k ∧ J * -row P.nV P.A d k ≤ row P.nV P.A x k - Q.lbA k) ∨
  (∃ k < P.nC, 0 < row P.nV P.A d k ∧ P.ubA k < INFTY ∧ J * row P.nV P.A d k ≤ Q.ubA k - row P.nV P.A x k)

theorem Roomy.cases {P Q : QP K} {x d : Nat → K} {J : K} (h : Roomy P Q x d J) : P.Recession d ∨ FarLimit P Q x d J := by
  by_contra hc
  rw [not_or] at hc
  obtain ⟨h1, h2⟩ := hc
  unfold FarLimit at h2
  simp only [not_or, not_exists, not_and] at h2
  obtain ⟨a, b, c, e⟩ := h2
  refine h1 ⟨fun i hi hd => ?_, fun i hi hd => ?_, fun k hk hd => ?_, fun k hk hd => ?_⟩
  · exact not_lt.1 fun hl => a i hi hd hl (h.lower i hi hd)
  · exact not_lt.1 fun hl => b i hi hd hl (h.upper i hi hd)
  · exact not_lt.1 fun hl => c k hk hd hl (h.lowerA k hk (Or.inl hl) hd)
  · exact not_lt.1 fun hl => e k hk hd hl (h.upperA k hk (Or.inr hl) hd)

theorem row_move (n : Nat) (M : Nat → Nat → K) (x d : Nat → K) (t : K) (i : Nat) :
    row n M (fun j => x j + t * d j) i = row n M x i + t * row n M d i := by
  unfold row
  rw [mul_sum, ← sum_add_distrib]
  exact sum_congr rfl fun j _ => by ring

theorem FeasibleInf.move {P : QP K} {x d : Nat → K} (h : P.FeasibleInf x) (hr : P.Recession d) {t : K} (ht : 0 ≤ t) :
    P.FeasibleInf (fun j => x j + t * d j) := by
  refine ⟨fun i hi hl => ?_, fun i hi hu => ?_, fun k hk hl => ?_, fun k hk hu => ?_⟩
  · have h1 := h.lower i hi hl
    have h2 : 0 ≤ d i := not_lt.1 fun h2 => absurd hl (not_lt.2 (hr.lower i hi h2))
    have := mul_nonneg ht h2
    show P.lb i ≤ x i + t * d i
    linarith
  · have h1 := h.upper i hi hu
    have h2 : d i ≤ 0 := not_lt.1 fun h2 => absurd hu (not_lt.2 (hr.upper i hi h2))
    have := mul_nonneg ht (neg_nonneg.2 h2)
    show x i + t * d i ≤ P.ub i
    linarith
  · have h1 := h.lowerA k hk hl
    have h2 : 0 ≤ row P.nV P.A d k := not_lt.1 fun h2 => absurd hl (not_lt.2 (hr.lowerA k hk h2))
    have := mul_nonneg ht h2
    rw [row_move]
    linarith
  · have h1 := h.upperA k hk hu
    have h2 : row P.nV P.A d k ≤ 0 := not_lt.1 fun h2 => absurd hu (not_lt.2 (hr.upperA k hk h2))
    have := mul_nonneg ht (neg_nonneg.2 h2)
    rw [row_move]
    linarith

theorem Descent.obj_move {P : QP K} (hs : Symmetric P.nV P.H) {d : Nat → K} (h : P.Descent d) (x : Nat → K) (t : K) :
    P.obj (fun j => x j + t * d j) = P.obj x + t * ∑ i ∈ range P.nV, P.g i * d i := by
  have e0 : ∑ i ∈ range P.nV, d i * row P.nV P.H x i = 0 := by
    have : ∑ i ∈ range P.nV, d i * row P.nV P.H x i = ∑ j ∈ range P.nV, x j * row P.nV P.H d j := by
      unfold row
      simp only [mul_sum]
      rw [sum_comm]
      refine sum_congr rfl fun j hj => sum_congr rfl fun i hi => ?_
      rw [hs i (mem_range.1 hi) j (mem_range.1 hj)]; ring
    rw [this]
    exact sum_eq_zero fun j hj => by rw [h.flat j (mem_range.1 hj), mul_zero]
  unfold obj
  have e1 : ∑ i ∈ range P.nV, (x i + t * d i) * row P.nV P.H (fun j => x j + t * d j) i = ∑ i ∈ range P.nV, x i * row P.nV P.H x i := by
    have : ∀ i ∈ range P.nV, (x i + t * d i) * row P.nV P.H (fun j => x j + t * d j) i = x i * row P.nV P.H x i + t * (d i * row P.nV P.H x i) := by
      intro i hi
      rw [row_move, h.flat i (mem_range.1 hi)]; ring
    rw [sum_congr rfl this, sum_add_distrib, ← mul_sum, e0, mul_zero, add_zero]
  have e2 : ∑ i ∈ range P.nV, P.g i * (x i + t * d i) = ∑ i ∈ range P.nV, P.g i * x i + t * ∑ i ∈ range P.nV, P.g i * d i := by
    rw [mul_sum, ← sum_add_distrib]
    exact sum_congr rfl fun i _ => by ring
  rw [e1, e2]; ring

/-- A feasible QP with a direction of descent that meets no limit is unbounded. -/
theorem Descent.unbounded {P : QP K} (hs : Symmetric P.nV P.H) {d : Nat → K} (h : P.Descent d) (hr : P.Recession d) {x : Nat → K}
    (hx : P.FeasibleInf x) : P.UnboundedBelow := by
  intro c
  set r := ∑ i ∈ range P.nV, P.g i * d i with hrd
  have hneg : r < 0 := h.falls
  refine ⟨_, hx.move hr (t := |P.obj x - c + 1| / -r) (div_nonneg (abs_nonneg _) (neg_nonneg.2 hneg.le)), ?_⟩
  rw [h.obj_move hs, ← hrd]
  have e : |P.obj x - c + 1| / -r * r = -|P.obj x - c + 1| := by
    rw [div_neg, neg_mul, div_mul_cancel₀ _ hneg.ne]
  rw [e]
  have := le_abs_self (P.obj x - c + 1)
  linarith

/-- An unbounded QP has no minimiser among the points that satisfy all finite limits. -/
theorem UnboundedBelow.no_minimiser {P : QP K} (h : P.UnboundedBelow) (x : Nat → K) : ¬ ∀ z, P.FeasibleInf z → P.obj x ≤ P.obj z := by
  intro hx
  obtain ⟨z, h1, h2⟩ := h (P.obj x)
  exact absurd (hx z h1) (not_le.2 h2)

/-- A limit that counts as infinite is attained at `x`, with a multiplier that does not vanish. -/
def AtInfinity (P : QP K) (x y : Nat → K) : Prop :=
  (∃ i < P.nV, y i ≠ 0 ∧ (x i ≤ -INFTY ∨ INFTY ≤ x i)) ∨
  (∃ k < P.nC, y (P.nV + k) ≠ 0 ∧ (row P.nV P.A x k ≤ -INFTY ∨ INFTY ≤ row P.nV P.A x k))

end QP
end QpOASES.Spec
