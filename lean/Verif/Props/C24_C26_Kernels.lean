import Verif.Model.Kernels
import Verif.Proofs.Sparse
import Mathlib.Tactic.Linarith
import Mathlib.Tactic.LinearCombination
import Mathlib.Tactic.Ring
import Mathlib.Tactic.FieldSimp
import Mathlib.Algebra.BigOperators.Intervals

/-!
C24: triangular solves with `R`.  C25: triangular solves with `T`.  C26: plane rotations.
-/
namespace QpOASES.Props
open Finset ReturnValue

variable {K : Type} [Field K] [LinearOrder K] [IsStrictOrderedRing K]

/-! ### C26 -/

/-- **C26**, the computed rotation: `c² + s² = 1`, `c ≥ 0`, it maps the old pair to the new one, and if the second
component was not negligible the new one is exactly 0 and the first is `±√(x²+y²)`. -/
theorem C26_compute_partial {sq : K → K} (hsq : IsSqrt sq) (x y : K) :
    ∀ xn yn c s, computeGivens sq x y = (xn, yn, c, s) →
      c * c + s * s = 1 ∧ 0 ≤ c ∧ xn * xn + yn * yn = x * x + y * y ∧
      (xn, yn) = applyGivens c s x y ∧ (ZERO < |y| → yn = 0 ∧ xn ≠ 0) ∧ (|y| ≤ ZERO → xn = x ∧ yn = y) := by
  intro xn yn c s h
  unfold computeGivens at h
  by_cases hz : isZero y = true
  · rw [if_pos hz] at h
    simp only [Prod.mk.injEq] at h
    obtain ⟨rfl, rfl, rfl, rfl⟩ := h
    rw [isZero_iff] at hz
    refine ⟨by ring, zero_le_one, rfl, by simp [applyGivens], fun h => absurd hz (not_le.2 h), fun _ => ⟨rfl, rfl⟩⟩
  · rw [if_neg hz] at h
    have hy : ZERO < |y| := by rw [isZero_iff] at hz; exact not_le.1 hz
    have hy0 : 0 < |y| := ZERO_pos.trans hy
    set mu := (if getAbs y > getAbs x then getAbs y else getAbs x) with hmu
    have hmu0 : 0 < mu := by
      rw [hmu]; split
      · exact hy0
      · rename_i h'; exact lt_of_lt_of_le hy0 (not_lt.1 h')
    set t0 := mu * sq (x / mu * (x / mu) + y / mu * (y / mu)) with ht0
    have hin : 0 ≤ x / mu * (x / mu) + y / mu * (y / mu) := add_nonneg (mul_self_nonneg _) (mul_self_nonneg _)
    obtain ⟨q1, q2⟩ := hsq _ hin
    have t0n : 0 ≤ t0 := mul_nonneg hmu0.le q1
    have t0sq : t0 * t0 = x * x + y * y := by
      have : t0 * t0 = mu * mu * (sq (x / mu * (x / mu) + y / mu * (y / mu)) * sq (x / mu * (x / mu) + y / mu * (y / mu))) := by
        rw [ht0]; ring
      rw [this, q2]
      field_simp
    have hyy : 0 < y * y := by rw [← abs_mul_abs_self y]; exact mul_pos hy0 hy0
    have t0p : 0 < t0 := by
      rcases lt_or_eq_of_le t0n with h' | h'
      · exact h'
      · rw [← h', zero_mul] at t0sq
        have := mul_self_nonneg x
        linarith
    set t := (if x < 0 then -t0 else t0) with ht
    have tsq : t * t = x * x + y * y := by
      rw [ht]; split
      · rw [neg_mul_neg]; exact t0sq
      · exact t0sq
    have tne : t ≠ 0 := by
      rw [ht]; split
      · exact neg_ne_zero.2 t0p.ne'
      · exact t0p.ne'
    have hc : 0 ≤ x / t := by
      rw [ht]; split
      · rename_i h'; exact div_nonneg_of_nonpos h'.le (neg_nonpos.2 t0n)
      · rename_i h'; exact div_nonneg (not_lt.1 h') t0n
    simp only [Prod.mk.injEq] at h
    obtain ⟨rfl, rfl, rfl, rfl⟩ := h
    refine ⟨?_, hc, by rw [tsq]; ring, ?_, fun _ => ⟨rfl, tne⟩, fun h => absurd h (not_le.2 hy)⟩
    · have : x / t * (x / t) + y / t * (y / t) = (x * x + y * y) / (t * t) := by field_simp
      rw [this, ← tsq, div_self (mul_ne_zero tne tne)]
    · simp only [applyGivens, Prod.mk.injEq]
      constructor
      · have : x / t * x + y / t * y = (x * x + y * y) / t := by field_simp
        rw [this, ← tsq, mul_div_assoc, div_self tne, mul_one]
      · field_simp; ring

/-- **C26 is violated** for a second component with `0 < |y| ≤ ZERO`: the identity is returned and the second component
is not set to 0. -/
theorem C26_negligible_violated (sq : K → K) (x : K) : computeGivens sq x ZERO = (x, ZERO, 1, 0) ∧ (ZERO : K) ≠ 0 := by
  refine ⟨?_, ZERO_pos.ne'⟩
  unfold computeGivens
  rw [if_pos (isZero_iff.2 (by rw [abs_of_pos ZERO_pos]))]

/-- **C26**, applying a rotation with `c² + s² = 1` preserves all scalar products of pairs (it is orthogonal). -/
theorem C26_apply_orthogonal {c s : K} (h : c * c + s * s = 1) (x y x' y' : K) :
    (applyGivens c s x y).1 * (applyGivens c s x' y').1 + (applyGivens c s x y).2 * (applyGivens c s x' y').2 =
      x * x' + y * y' := by
  simp only [applyGivens]
  have : (c * x + s * y) * (c * x' + s * y') + (-s * x + c * y) * (-s * x' + c * y') =
      (c * c + s * s) * (x * x' + y * y') := by ring
  rw [this, h, one_mul]

/-- **C26**, the three-multiplication variant gives the same first and the negated second component; in particular
it is orthogonal as well.  The divisor `1 + c` is never zero because `c ≥ 0`. -/
theorem C26_apply3 {c s : K} (h : c * c + s * s = 1) (hc : 0 ≤ c) (x y : K) :
    1 + c ≠ 0 ∧ applyGivens3 c s (s / (1 + c)) x y = ((applyGivens c s x y).1, -(applyGivens c s x y).2) := by
  have hne : (1 : K) + c ≠ 0 := by positivity
  refine ⟨hne, ?_⟩
  simp only [applyGivens3, applyGivens, Prod.mk.injEq]
  refine ⟨by ring, ?_⟩
  have hs : s * s = (1 - c) * (1 + c) := by linear_combination h
  have e1 : (x * c + y * s + x) * (s / (1 + c)) = x * s + y * (s * s / (1 + c)) := by field_simp; ring
  rw [e1, hs, mul_div_assoc, div_self hne]
  ring

/-- The inverse rotation. -/
theorem C26_apply_inverse {c s : K} (h : c * c + s * s = 1) (x y : K) :
    applyGivens c (-s) (applyGivens c s x y).1 (applyGivens c s x y).2 = (x, y) := by
  simp only [applyGivens, Prod.mk.injEq]
  constructor
  · linear_combination x * h
  · linear_combination y * h

/-- Non-vacuity: (3,4) is rotated to (5,0) and (-3,4) to (-5,0). -/
example : computeGivens (fun x : ℚ => if x = 25/16 then 5/4 else 1) 3 4 = (5, 0, 3/5, 4/5) ∧
    computeGivens (fun x : ℚ => if x = 25/16 then 5/4 else 1) (-3) 4 = (-5, 0, 3/5, -4/5) := by decide +kernel

/-! ### C24 -/

theorem subUp_eq (f : Nat → K) (lo hi : Nat) (s : K) : subUp f lo hi s = s - ∑ j ∈ Ico lo hi, f j := by
  unfold subUp loopFrom
  rw [sum_Ico_eq_sum_range]
  generalize hi - lo = n
  induction n with
  | zero => simp [loop]
  | succ n ih => rw [loop, ih, sum_range_succ]; ring

theorem cdiv_ok {a b : K} (h : b ≠ 0) : cdiv a b = .ok (a / b) := by simp [cdiv, h]

theorem divR_cases {sum d : K} (hd : d ≠ 0) :
    (|d| < ZERO * |sum| ∧ divR sum d = .ok none) ∨ (ZERO * |sum| ≤ |d| ∧ divR sum d = .ok (some (sum / d))) := by
  unfold divR getAbs
  by_cases h : |d| ≥ ZERO * |sum|
  · right
    rw [if_pos h, cdiv_ok hd]
    exact ⟨h, rfl⟩
  · left
    rw [if_neg h]
    exact ⟨not_le.1 h, rfl⟩

/-- `a` solves `R a = b` (rows `i`, …, `n-1`), where `R` is given by its upper triangle of order `n`. -/
def UpperSolves (n : Nat) (R : Nat → Nat → K) (a b : Nat → K) (i : Nat) : Prop :=
  ∀ k, i ≤ k → k < n → ∑ j ∈ Ico k n, R k j * a j = b k

/-- `a` solves `Rᵀ a = b` (rows `0`, …, `m-1`), where `R` is given by its upper triangle. -/
def LowerSolves (R : Nat → Nat → K) (a b : Nat → K) (m : Nat) : Prop :=
  ∀ k, k < m → ∑ j ∈ range (k+1), R j k * a j = b k

theorem backsolveRN_spec {R : Nat → Nat → K} {nR : Nat} (hR : ∀ i < nR, R i i ≠ 0) (b : Option (Nat → K)) (a0 : Nat → K) :
    ∀ i a, i ≤ nR → UpperSolves nR R a (b.getD a0) i → (∀ k, k < i ∨ nR ≤ k → a k = a0 k) →
      (∃ a', backsolveRN R nR b i a = .ok (SUCCESSFUL_RETURN, a') ∧ UpperSolves nR R a' (b.getD a0) 0 ∧
        ∀ k, nR ≤ k → a' k = a0 k) ∨
      (∃ a' k, backsolveRN R nR b i a = .ok (RET_DIV_BY_ZERO, a') ∧ k < nR ∧ UpperSolves nR R a' (b.getD a0) (k+1) ∧
        |R k k| < ZERO * |b.getD a0 k - ∑ j ∈ Ico (k+1) nR, R k j * a' j|) := by
  intro i
  induction i with
  | zero =>
    intro a _ h hk
    exact Or.inl ⟨a, rfl, h, fun k hk' => hk k (Or.inr hk')⟩
  | succ i ih =>
    intro a hi h hk
    rw [backsolveRN]
    simp only [subUp_eq]
    have hb : b.getD a i = b.getD a0 i := by
      cases b with
      | none => exact hk i (Or.inl (by omega))
      | some b => rfl
    rw [hb]
    set sum := b.getD a0 i - ∑ j ∈ Ico (i+1) nR, R i j * a j with hsum
    rcases divR_cases (sum := sum) (hR i (by omega)) with ⟨h1, h2⟩ | ⟨h1, h2⟩
    · right
      rw [h2]
      exact ⟨a, i, rfl, by omega, h, h1⟩
    · rw [h2]
      simp only [Res.bind_ok]
      apply ih
      · omega
      · intro k h3 h4
        rcases Nat.eq_or_lt_of_le h3 with h5 | h5
        · subst h5
          rw [sum_eq_sum_Ico_succ_bot h4, updA_same]
          have : ∑ j ∈ Ico (i+1) nR, R i j * updA a i (sum / R i i) j = ∑ j ∈ Ico (i+1) nR, R i j * a j := by
            refine sum_congr rfl fun j hj => ?_
            rw [mem_Ico] at hj
            rw [updA_ne _ _ (by omega)]
          rw [this, mul_div_cancel₀ _ (hR i (by omega)), hsum]
          ring
        · rw [← h k (by omega) h4]
          refine sum_congr rfl fun j hj => ?_
          rw [mem_Ico] at hj
          rw [updA_ne _ _ (by omega)]
      · intro k h3
        rw [updA_ne _ _ (by omega)]
        exact hk k (by omega)

theorem backsolveRT_spec {R : Nat → Nat → K} {nR : Nat} (hR : ∀ i < nR, R i i ≠ 0) (b : Option (Nat → K)) (a0 : Nat → K) :
    ∀ m i a, i + m = nR → LowerSolves R a (b.getD a0) i → (∀ k, i ≤ k → a k = a0 k) →
      (∃ a', backsolveRT R b m i a = .ok (SUCCESSFUL_RETURN, a') ∧ LowerSolves R a' (b.getD a0) nR ∧
        ∀ k, nR ≤ k → a' k = a0 k) ∨
      (∃ a' k, backsolveRT R b m i a = .ok (RET_DIV_BY_ZERO, a') ∧ k < nR ∧ LowerSolves R a' (b.getD a0) k ∧
        |R k k| < ZERO * |b.getD a0 k - ∑ j ∈ range k, R j k * a' j|) := by
  intro m
  induction m with
  | zero =>
    intro i a hm h hk
    have : i = nR := by omega
    subst this
    exact Or.inl ⟨a, rfl, h, hk⟩
  | succ m ih =>
    intro i a hm h hk
    rw [backsolveRT]
    simp only [subUp_eq]
    have hb : b.getD a i = b.getD a0 i := by
      cases b with
      | none => exact hk i (Nat.le_refl _)
      | some b => rfl
    rw [hb, ← range_eq_Ico]
    set sum := b.getD a0 i - ∑ j ∈ range i, R j i * a j with hsum
    rcases divR_cases (sum := sum) (hR i (by omega)) with ⟨h1, h2⟩ | ⟨h1, h2⟩
    · right
      rw [h2]
      exact ⟨a, i, rfl, by omega, h, h1⟩
    · rw [h2]
      simp only [Res.bind_ok]
      apply ih
      · omega
      · intro k h3
        rcases Nat.eq_or_lt_of_le (Nat.lt_succ_iff.1 h3) with h5 | h5
        · subst h5
          rw [sum_range_succ, updA_same]
          have : ∑ j ∈ range k, R j k * updA a k (sum / R k k) j = ∑ j ∈ range k, R j k * a j := by
            refine sum_congr rfl fun j hj => ?_
            rw [mem_range] at hj
            rw [updA_ne _ _ (by omega)]
          rw [this, mul_div_cancel₀ _ (hR k (by omega)), hsum]
          ring
        · rw [← h k h5]
          refine sum_congr rfl fun j hj => ?_
          rw [mem_range] at hj
          rw [updA_ne _ _ (by omega)]
      · intro k h3
        rw [updA_ne _ _ (by omega)]
        exact hk k (by omega)

/-- **C24**, solving with `R`.  For every factor with nonzero diagonal, every right-hand side (`some b`, or `none` for
solving in place) and every prior content of the result array: either success, and the result solves `R a = b`
exactly and elements from `nR` on are untouched; or `RET_DIV_BY_ZERO`, and some diagonal entry is smaller in magnitude
than `ZERO` times the remaining right-hand side of its row. -/
theorem C24_solve_partial {R : Nat → Nat → K} {nR : Nat} (hR : ∀ i < nR, R i i ≠ 0) (b : Option (Nat → K)) (a : Nat → K) :
    (∃ a', backsolveR R nR b false a = .ok (SUCCESSFUL_RETURN, a') ∧
      (∀ k < nR, ∑ j ∈ Ico k nR, R k j * a' j = b.getD a k) ∧ ∀ k, nR ≤ k → a' k = a k) ∨
    (∃ a' k, backsolveR R nR b false a = .ok (RET_DIV_BY_ZERO, a') ∧ k < nR ∧
      (∀ i, k < i → i < nR → ∑ j ∈ Ico i nR, R i j * a' j = b.getD a i) ∧
      |R k k| < ZERO * |b.getD a k - ∑ j ∈ Ico (k+1) nR, R k j * a' j|) := by
  rcases backsolveRN_spec hR b a nR a (Nat.le_refl _) (fun k h1 h2 => by omega) (fun _ _ => rfl) with
    ⟨a', h1, h2, h3⟩ | ⟨a', k, h1, h2, h3, h4⟩
  · exact Or.inl ⟨a', h1, fun k hk => h2 k (Nat.zero_le _) hk, h3⟩
  · exact Or.inr ⟨a', k, h1, h2, fun i h5 h6 => h3 i h5 h6, h4⟩

/-- **C24**, solving with the transpose of `R`. -/
theorem C24_solve_transposed_partial {R : Nat → Nat → K} {nR : Nat} (hR : ∀ i < nR, R i i ≠ 0) (b : Option (Nat → K))
    (a : Nat → K) :
    (∃ a', backsolveR R nR b true a = .ok (SUCCESSFUL_RETURN, a') ∧
      (∀ k < nR, ∑ j ∈ range (k+1), R j k * a' j = b.getD a k) ∧ ∀ k, nR ≤ k → a' k = a k) ∨
    (∃ a' k, backsolveR R nR b true a = .ok (RET_DIV_BY_ZERO, a') ∧ k < nR ∧
      (∀ i < k, ∑ j ∈ range (i+1), R j i * a' j = b.getD a i) ∧
      |R k k| < ZERO * |b.getD a k - ∑ j ∈ range k, R j k * a' j|) := by
  rcases backsolveRT_spec hR b a nR 0 a (by omega) (fun k h1 => by omega) (fun _ _ => rfl) with
    ⟨a', h1, h2, h3⟩ | ⟨a', k, h1, h2, h3, h4⟩
  · exact Or.inl ⟨a', h1, h2, h3⟩
  · exact Or.inr ⟨a', k, h1, h2, h3, h4⟩

/-- **C24 is violated** for a zero diagonal entry with zero right-hand side: the guard `|R_ii| >= ZERO*|sum|` accepts
`0 >= 0` and the quotient 0/0 is not a number. -/
theorem C24_zero_diagonal_violated :
    backsolveR (fun _ _ => (0 : ℚ)) 1 (some fun _ => 0) false (fun _ => 0) = .ub .divByZero ∧
    backsolveR (fun _ _ => (0 : ℚ)) 1 (some fun _ => 0) true (fun _ => 0) = .ub .divByZero := by
  constructor
  · show Res.bind _ _ = _
    simp [divR, subUp, loopFrom, loop, cdiv, getAbs, Res.bind]
  · show Res.bind _ _ = _
    simp [divR, subUp, loopFrom, loop, cdiv, getAbs, Res.bind]

/-- Non-vacuity: `[[2,1],[0,3]] a = (4,6)` has the solution (1,2). -/
example : (match backsolveR (fun i j => if i = 0 then (if j = 0 then 2 else 1) else if j = 0 then 0 else (3 : ℚ)) 2
      (some fun i => if i = 0 then 4 else 6) false (fun _ => 7) with
    | .ok (r, a) => decide (r = SUCCESSFUL_RETURN ∧ a 0 = 1 ∧ a 1 = 2 ∧ a 2 = 7) | .ub _ => false) = true := by decide +kernel

/-! ### C25 -/

theorem backsolveTLoop_spec {coef : Nat → Nat → K} {nT : Nat} (b : Nat → K) (a0 : Nat → K) :
    ∀ m i a, i + m = nT → (∀ k < i, ∑ j ∈ range (k+1), coef k j * a (nT-1-j) = b k) → (∀ k < i, EPS < |coef k k|) →
      (∀ k, nT ≤ k → a k = a0 k) →
      (∃ a', backsolveTLoop coef nT b m i a = (SUCCESSFUL_RETURN, a') ∧
        (∀ k < nT, ∑ j ∈ range (k+1), coef k j * a' (nT-1-j) = b k) ∧ (∀ k < nT, EPS < |coef k k|) ∧ ∀ k, nT ≤ k → a' k = a0 k) ∨
      (∃ a' k, backsolveTLoop coef nT b m i a = (RET_DIV_BY_ZERO, a') ∧ k < nT ∧ |coef k k| ≤ EPS) := by
  intro m
  induction m with
  | zero =>
    intro i a hm h hd hk
    have : i = nT := by omega
    subst this
    exact Or.inl ⟨a, rfl, h, hd, hk⟩
  | succ m ih =>
    intro i a hm h hd hk
    rw [backsolveTLoop]
    simp only [subUp_eq, ← range_eq_Ico, divT, getAbs]
    by_cases hg : |coef i i| > EPS
    · rw [if_pos hg]
      simp only
      have hne : coef i i ≠ 0 := fun h0 => by
        rw [h0, abs_zero] at hg
        exact absurd hg (not_lt.2 EPS_pos'.le)
      apply ih
      · omega
      · intro k h3
        rcases Nat.eq_or_lt_of_le (Nat.lt_succ_iff.1 h3) with h5 | h5
        · subst h5
          rw [sum_range_succ, updA_same]
          have : ∀ q : K, ∑ j ∈ range k, coef k j * updA a (nT-1-k) q (nT-1-j) = ∑ j ∈ range k, coef k j * a (nT-1-j) := by
            intro q
            refine sum_congr rfl fun j hj => ?_
            rw [mem_range] at hj
            rw [updA_ne _ _ (by omega)]
          rw [this, mul_div_cancel₀ _ hne]
          ring
        · rw [← h k h5]
          refine sum_congr rfl fun j hj => ?_
          rw [mem_range] at hj
          rw [updA_ne _ _ (by omega)]
      · intro k h3
        rcases Nat.eq_or_lt_of_le (Nat.lt_succ_iff.1 h3) with h5 | h5
        · subst h5; exact hg
        · exact hd k h5
      · intro k h3
        rw [updA_ne _ _ (by omega)]
        exact hk k h3
    · rw [if_neg hg]
      exact Or.inr ⟨a, i, rfl, by omega, not_lt.1 hg⟩

theorem reflect_sum {nT : Nat} (f : Nat → K) {k : Nat} (hk : k < nT) :
    ∑ j ∈ range (k+1), f (nT-1-j) = ∑ c ∈ Ico (nT-1-k) nT, f c := by
  have h1 := Finset.sum_Ico_reflect f 0 (m := k+1) (n := nT-1) (by omega)
  rw [← range_eq_Ico] at h1
  rw [h1]
  congr 2
  · omega
  · omega

/-- **C25**, solving with `T`.  `T` is the reverse-triangular factor of `nT` active constraints, stored in the last `nT`
of `sizeT` columns: row `i` has its entries in columns `sizeT-1-i, …, sizeT-1`.  Success means that the result solves
`T a = b` exactly (unknown `c` belongs to column `sizeT-nT+c`); failure happens exactly if an anti-diagonal entry is
at most `EPS` in magnitude. -/
theorem C25_solve {T : Nat → Nat → K} {sizeT nT : Nat} (hs : nT ≤ sizeT) (b a : Nat → K) :
    (∃ a', backsolveT T sizeT nT b false a = (SUCCESSFUL_RETURN, a') ∧
      (∀ i < nT, ∑ c ∈ Ico (nT-1-i) nT, T i (sizeT - nT + c) * a' c = b i) ∧
      (∀ i < nT, EPS < |T i (sizeT-1-i)|) ∧ ∀ k, nT ≤ k → a' k = a k) ∨
    (∃ a' i, backsolveT T sizeT nT b false a = (RET_DIV_BY_ZERO, a') ∧ i < nT ∧ |T i (sizeT-1-i)| ≤ EPS) := by
  rcases backsolveTLoop_spec (coef := fun i j => T i (sizeT-1-j)) b a nT 0 a (Nat.zero_add _) (fun _ h => by omega)
    (fun _ h => by omega) (fun _ _ => rfl) with ⟨a', h1, h2, h3, h4⟩ | ⟨a', k, h1, h2, h3⟩
  · refine Or.inl ⟨a', h1, fun i hi => ?_, h3, h4⟩
    rw [← h2 i hi, ← reflect_sum (fun c => T i (sizeT - nT + c) * a' c) hi]
    refine sum_congr rfl fun j hj => ?_
    rw [mem_range] at hj
    rw [show sizeT - nT + (nT - 1 - j) = sizeT - 1 - j by omega]
  · exact Or.inr ⟨a', k, h1, h2, h3⟩

/-- **C25**, solving with the transpose of `T`. -/
theorem C25_solve_transposed {T : Nat → Nat → K} {sizeT nT : Nat} (hs : nT ≤ sizeT) (b a : Nat → K) :
    (∃ a', backsolveT T sizeT nT b true a = (SUCCESSFUL_RETURN, a') ∧
      (∀ c < nT, ∑ i ∈ Ico (nT-1-c) nT, T i (sizeT - nT + c) * a' i = b c) ∧
      (∀ i < nT, EPS < |T i (sizeT-1-i)|) ∧ ∀ k, nT ≤ k → a' k = a k) ∨
    (∃ a' i, backsolveT T sizeT nT b true a = (RET_DIV_BY_ZERO, a') ∧ i < nT ∧ |T i (sizeT-1-i)| ≤ EPS) := by
  rcases backsolveTLoop_spec (coef := fun i j => T (nT-1-j) (sizeT - nT + i)) b a nT 0 a (Nat.zero_add _) (fun _ h => by omega)
    (fun _ h => by omega) (fun _ _ => rfl) with ⟨a', h1, h2, h3, h4⟩ | ⟨a', k, h1, h2, h3⟩
  · refine Or.inl ⟨a', h1, fun c hc => ?_, fun i hi => ?_, h4⟩
    · rw [← h2 c hc, ← reflect_sum (fun i => T i (sizeT - nT + c) * a' i) hc]
    · have := h3 (nT-1-i) (by omega)
      rw [show nT - 1 - (nT - 1 - i) = i by omega, show sizeT - nT + (nT - 1 - i) = sizeT - 1 - i by omega] at this
      exact this
  · refine Or.inr ⟨a', nT-1-k, h1, by omega, ?_⟩
    rw [show sizeT - nT + k = sizeT - 1 - (nT - 1 - k) by omega] at h3
    exact h3

/-- Non-vacuity: `T = [[0,2],[3,1]]` in the last two of three columns. -/
example : (backsolveT (fun i j => if i = 0 then (if j = 2 then 2 else 0) else if j = 1 then 3 else if j = 2 then 1 else (0 : ℚ))
      3 2 (fun i => if i = 0 then 4 else 5) false (fun _ => 7)).2 1 = 2 ∧
    (backsolveT (fun i j => if i = 0 then (if j = 2 then 2 else 0) else if j = 1 then 3 else if j = 2 then 1 else (0 : ℚ))
      3 2 (fun i => if i = 0 then 4 else 5) false (fun _ => 7)).2 0 = 1 := by decide +kernel

end QpOASES.Props
