import Verif.Model.Numeric
import Mathlib.Algebra.BigOperators.Group.Finset.Basic
import Mathlib.Algebra.BigOperators.Ring.Finset
import Mathlib.Algebra.BigOperators.Field
import Mathlib.Tactic.Positivity
import Mathlib.Tactic.Ring
import Mathlib.Tactic.FieldSimp
import Mathlib.Tactic.Linarith
import Mathlib.Tactic.NormNum

namespace QpOASES
open Finset

variable {K : Type}

theorem sumTo_eq [Field K] (f : Nat → K) (n : Nat) : sumTo f n = ∑ i ∈ range n, f i := by
  induction n with
  | zero => rfl
  | succ n ih => rw [sumTo, ih, sum_range_succ]

@[simp] theorem updA_same {α : Type} (f : Nat → α) (i : Nat) (x : α) : updA f i x i = x := by simp [updA]

theorem updA_ne {α : Type} (f : Nat → α) {i k : Nat} (x : α) (h : k ≠ i) : updA f i x k = f k := by
  simp [updA, h]

theorem loop_inv {σ : Type} {f : Nat → σ → σ} (P : Nat → σ → Prop) (n : Nat) (s : σ) (h0 : P 0 s)
    (step : ∀ i s, i < n → P i s → P (i+1) (f i s)) : P n (loop f n s) := by
  induction n with
  | zero => exact h0
  | succ n ih => exact step n _ (by omega) (ih fun i s hi => step i s (by omega))

theorem loop_congr {σ : Type} {f g : Nat → σ → σ} (n : Nat) (s : σ) (h : ∀ i < n, f i = g i) :
    loop f n s = loop g n s := by
  induction n with
  | zero => rfl
  | succ n ih => rw [loop, loop, ih (fun i hi => h i (by omega)), h n (by omega)]

/-- Loop that transforms the elements `b, b+1, ..., b+n-1` of an array one by one. -/
theorem loop_map {α : Type} (g : Nat → α → α) (b n : Nat) (A : Nat → α) (k : Nat) :
    loop (fun j A => updA A (b+j) (g j (A (b+j)))) n A k =
      if b ≤ k ∧ k < b + n then g (k-b) (A k) else A k := by
  induction n with
  | zero =>
    have : ¬ (b ≤ k ∧ k < b + 0) := by omega
    rw [if_neg this]; rfl
  | succ n ih =>
    rw [loop]
    by_cases h : k = b + n
    · subst h
      rw [updA_same]
      have h1 : ∀ m, loop (fun j A => updA A (b+j) (g j (A (b+j)))) m A (b+n) =
          if b ≤ b + n ∧ b + n < b + m then g n (A (b+n)) else A (b+n) := by
        intro m
        induction m with
        | zero => rw [if_neg (by omega)]; rfl
        | succ m ihm =>
          rw [loop]
          by_cases hm : n = m
          · subst hm; rw [updA_same, if_pos (by omega), ihm, if_neg (by omega)]
          · rw [updA_ne _ _ (by omega), ihm]
            by_cases h3 : n < m
            · rw [if_pos (by omega), if_pos (by omega)]
            · rw [if_neg (by omega), if_neg (by omega)]
      rw [h1, if_neg (by omega), if_pos (by omega)]
      congr 1; omega
    · rw [updA_ne _ _ h, ih]
      by_cases h2 : b ≤ k ∧ k < b + n
      · rw [if_pos h2, if_pos (by omega)]
      · rw [if_neg h2, if_neg (by omega)]

section
variable [Field K] [LinearOrder K] [IsStrictOrderedRing K]

/-- `sq` is a square root function. -/
def IsSqrt (sq : K → K) : Prop := ∀ x, 0 ≤ x → 0 ≤ sq x ∧ sq x * sq x = x

theorem EPS_pos' : (0 : K) < EPS := by unfold EPS; positivity
theorem ZERO_pos : (0 : K) < ZERO := by unfold ZERO; positivity
theorem INFTY_pos : (0 : K) < INFTY := by unfold INFTY; positivity
end
end QpOASES
