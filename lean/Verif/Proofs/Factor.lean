import Verif.Model.QProblemB
import Verif.Props.C24_C26_Kernels
import Verif.Props.C23_Cholesky
import Mathlib.Algebra.BigOperators.Group.Finset.Sigma
import Mathlib.Algebra.Order.BigOperators.Group.Finset

/-!
Updating a Cholesky factor when a row and column of the matrix is removed or appended; solving with it.
-/
namespace QpOASES
open Finset Props QPB

variable {K : Type} [Field K] [LinearOrder K] [IsStrictOrderedRing K]

/-- The upper triangle of `R` (order `n`) satisfies `Rᵀ R = A` in the upper triangle. -/
def UpperGram (n : Nat) (R A : Nat → Nat → K) : Prop :=
  ∀ r c, r ≤ c → c < n → ∑ q ∈ range (r+1), R q r * R q c = A r c

/-- Diagonal entries that are not negligible. -/
def DiagOK (n : Nat) (R : Nat → Nat → K) : Prop := ∀ r < n, ZERO < |R r r|

theorem DiagOK.ne_zero {n : Nat} {R : Nat → Nat → K} (h : DiagOK n R) : ∀ r < n, R r r ≠ 0 := fun r hr h0 => by
  have := h r hr
  rw [h0, abs_zero] at this
  exact absurd this (not_lt.2 ZERO_pos.le)

theorem abs_le_abs_of_mul_self {a b : K} (h : a * a ≤ b * b) : |a| ≤ |b| := by
  rw [← abs_mul_abs_self a, ← abs_mul_abs_self b] at h
  by_contra h'
  have h' := not_le.1 h'
  have h0 := abs_nonneg b
  have : |b| * |b| < |a| * |a| := mul_self_lt_mul_self h0 h'
  linarith

/-! ### appending -/

theorem UpperGram.append {n : Nat} {R A : Nat → Nat → K} (h : UpperGram n R A) {v : Nat → K} {d : K}
    (hv : ∀ k < n, ∑ q ∈ range (k+1), R q k * v q = A k n) (hd : d * d = A n n - ∑ q ∈ range n, v q * v q) :
    UpperGram (n+1) (fun i j => if i = n ∧ j = n then d else if i < n ∧ j = n then v i else R i j) A := by
  intro r c hrc hc
  by_cases h1 : c = n
  · subst h1
    by_cases h2 : r = c
    · subst h2
      rw [sum_range_succ]
      simp only [and_self, if_true]
      rw [hd]
      have : ∑ x ∈ range r, (if x = r ∧ True then d else if x < r ∧ True then v x else R x r) *
          (if x = r ∧ True then d else if x < r ∧ True then v x else R x r) = ∑ q ∈ range r, v q * v q := by
        refine sum_congr rfl fun q hq => ?_
        have hq := mem_range.1 hq
        rw [if_neg (by omega), if_pos ⟨hq, trivial⟩]
      simp only [and_true] at this ⊢
      rw [this]
      ring
    · rw [← hv r (by omega)]
      refine sum_congr rfl fun q hq => ?_
      have hq := mem_range.1 hq
      beta_reduce
      rw [if_neg (by omega), if_neg (by omega), if_neg (by omega), if_pos (by omega)]
  · rw [← h r c hrc (by omega)]
    refine sum_congr rfl fun q hq => ?_
    beta_reduce
    rw [if_neg (by omega), if_neg (by omega), if_neg (by omega), if_neg (by omega)]

/-! ### removing -/

/-- Number of meaningful entries of column `c` after the rotations `k+1, …, m-1`. -/
def hgt (k m c : Nat) : Nat := if k < c ∧ c < m then c else c + 1

structure Rot (n k : Nat) (R0 A : Nat → Nat → K) (m : Nat) (R : Nat → Nat → K) : Prop where
  gram : ∀ a b, a ≤ b → b < n → a ≠ k → b ≠ k → ∑ q ∈ range (hgt k m a), R q a * R q b = A a b
  diag : ∀ c, c < k ∨ m ≤ c → c < n → R c c = R0 c c
  sub : ∀ c, k < c → c < m → c < n → ZERO < |R (c-1) c|

theorem Rot.step {sq : K → K} (hsq : IsSqrt sq) {n k m : Nat} {R0 A R : Nat → Nat → K} (hD : DiagOK n R0)
    (hk : k < m) (hm : m < n) (h : Rot n k R0 A m R) : Rot n k R0 A (m+1) (givensStep sq n m R) := by
  have hy : ZERO < |R m m| := by rw [h.diag m (Or.inr (Nat.le_refl _)) hm]; exact hD m hm
  rcases hp : computeGivens sq (R (m-1) m) (R m m) with ⟨xn, yn, c, s⟩
  obtain ⟨g1, g2, g3, g4, g5, -⟩ := C26_compute_partial hsq (R (m-1) m) (R m m) _ _ _ _ hp
  obtain ⟨g5, g6⟩ := g5 hy
  unfold givensStep
  rw [hp]
  dsimp only
  subst g5
  rw [Prod.mk.injEq] at g4
  obtain ⟨g4, g4'⟩ := g4
  set G : Nat → Nat → K := fun r j =>
    if j = m then (if r = m-1 then xn else if r = m then 0 else R r j)
    else if m < j ∧ j < n then
      (if r = m-1 then (applyGivens c s (R (m-1) j) (R m j)).1
       else if r = m then (applyGivens c s (R (m-1) j) (R m j)).2 else R r j)
    else R r j with hG
  -- columns from `m` on are rotated
  have hrot1 : ∀ j, m ≤ j → j < n → G (m-1) j = (applyGivens c s (R (m-1) j) (R m j)).1 := by
    intro j h1 h2
    rw [hG]
    beta_reduce
    by_cases hj : j = m
    · subst hj; rw [if_pos rfl, if_pos rfl, g4]
    · rw [if_neg hj, if_pos ⟨by omega, h2⟩, if_pos rfl]
  have hrot2 : ∀ j, m ≤ j → j < n → G m j = (applyGivens c s (R (m-1) j) (R m j)).2 := by
    intro j h1 h2
    have hne : m ≠ m - 1 := by omega
    rw [hG]
    beta_reduce
    by_cases hj : j = m
    · subst hj; rw [if_pos rfl, if_neg hne, if_pos rfl, g4']
    · rw [if_neg hj, if_pos ⟨by omega, h2⟩, if_neg hne, if_pos rfl]
  have hother : ∀ r j, (r ≠ m-1 ∧ r ≠ m) ∨ j < m → G r j = R r j := by
    intro r j h1
    rw [hG]
    beta_reduce
    by_cases hj : j = m
    · rw [if_pos hj, if_neg (by omega), if_neg (by omega)]
    · rw [if_neg hj]
      by_cases h2 : m < j ∧ j < n
      · rw [if_pos h2, if_neg (by omega), if_neg (by omega)]
      · rw [if_neg h2]
  -- sums over rows up to `t ≥ m`
  have hsum : ∀ a b t, m ≤ a → a ≤ b → b < n → m < t →
      ∑ q ∈ range t, G q a * G q b = ∑ q ∈ range t, R q a * R q b := by
    intro a b t h1 h2 h3 h4
    obtain ⟨e, rfl⟩ : ∃ e, t = e + (m + 1) := ⟨t - (m+1), by omega⟩
    clear h4
    induction e with
    | zero =>
      rw [Nat.zero_add, sum_range_succ, sum_range_succ]
      obtain ⟨m', hm'⟩ : ∃ m', m = m' + 1 := ⟨m - 1, by omega⟩
      have hmm : m' = m - 1 := by omega
      have e1 : ∀ F : Nat → K, ∑ q ∈ range m, F q = ∑ q ∈ range (m-1), F q + F (m-1) := by
        intro F
        conv_lhs => rw [hm', sum_range_succ]
        rw [hmm]
      rw [e1, e1, hrot1 a h1 (by omega), hrot1 b (by omega) h3, hrot2 a h1 (by omega), hrot2 b (by omega) h3, add_assoc,
        C26_apply_orthogonal g1, ← add_assoc]
      congr 2
      refine sum_congr rfl fun q hq => ?_
      have hq := mem_range.1 hq
      rw [hother q a (Or.inl ⟨by omega, by omega⟩), hother q b (Or.inl ⟨by omega, by omega⟩)]
    | succ e ih =>
      have : e + 1 + (m + 1) = (e + (m + 1)) + 1 := by omega
      rw [this, sum_range_succ, sum_range_succ, ih, hother _ a (Or.inl ⟨by omega, by omega⟩),
        hother _ b (Or.inl ⟨by omega, by omega⟩)]
  refine ⟨?_, ?_, ?_⟩
  · intro a b hab hb ha hbk
    rcases Nat.lt_trichotomy a m with h1 | h1 | h1
    · -- rows not affected
      have hh : hgt k (m+1) a = hgt k m a := by
        unfold hgt
        by_cases h2 : k < a
        · rw [if_pos ⟨h2, by omega⟩, if_pos ⟨h2, h1⟩]
        · rw [if_neg (by omega), if_neg (by omega)]
      rw [hh, ← h.gram a b hab hb ha hbk]
      refine sum_congr rfl fun q hq => ?_
      have hq := mem_range.1 hq
      have hqm : q ≠ m - 1 ∧ q ≠ m := by
        unfold hgt at hq
        split at hq
        · omega
        · rename_i h3; have : a < k := by omega
          omega
      rw [hother q a (Or.inl hqm), hother q b (Or.inl hqm)]
    · subst h1
      have hh : hgt k (a+1) a = a := by unfold hgt; rw [if_pos ⟨hk, by omega⟩]
      have hh' : hgt k a a = a + 1 := by unfold hgt; rw [if_neg (by omega)]
      have := h.gram a b hab hb ha hbk
      rw [hh', ← hsum a b (a+1) (Nat.le_refl _) hab hb (by omega), sum_range_succ] at this
      have hz : G a a = 0 := by
        rw [hG]; beta_reduce; rw [if_pos rfl, if_neg (by omega), if_pos rfl]
      rw [hz, zero_mul, add_zero] at this
      rw [hh]
      exact this
    · have hh : hgt k (m+1) a = a + 1 := by unfold hgt; rw [if_neg (by omega)]
      have hh' : hgt k m a = a + 1 := by unfold hgt; rw [if_neg (by omega)]
      rw [hh, hsum a b (a+1) (by omega) hab hb (by omega), ← hh']
      exact h.gram a b hab hb ha hbk
  · intro c' h1 h2
    rw [← h.diag c' (by omega) h2]
    rcases h1 with h1 | h1
    · exact hother _ _ (Or.inr (by omega))
    · exact hother _ _ (Or.inl ⟨by omega, by omega⟩)
  · intro c' h1 h2 h3
    by_cases h4 : c' = m
    · subst h4
      have : G (c'-1) c' = xn := by rw [hG]; beta_reduce; rw [if_pos rfl, if_pos rfl]
      rw [this]
      refine lt_of_lt_of_le hy (abs_le_abs_of_mul_self ?_)
      rw [mul_zero, add_zero] at g3
      rw [g3]
      have := mul_self_nonneg (R (c'-1) c')
      linarith
    · rw [hother _ _ (Or.inr (by omega))]
      exact h.sub c' h1 (by omega) h3

theorem UpperGram.remove {sq : K → K} (hsq : IsSqrt sq) {n k : Nat} {R A : Nat → Nat → K} (hk : k < n)
    (h : UpperGram n R A) (hD : DiagOK n R) :
    UpperGram (n-1) (cholRemoveColumn sq n k R)
      (fun r c => A (if r < k then r else r + 1) (if c < k then c else c + 1)) ∧
    DiagOK (n-1) (cholRemoveColumn sq n k R) := by
  have h0 : Rot n k R A (k+1) R := by
    refine ⟨fun a b hab hb _ _ => ?_, fun c _ _ => rfl, fun c h1 h2 _ => by omega⟩
    have : hgt k (k+1) a = a + 1 := by unfold hgt; rw [if_neg (by omega)]
    rw [this]
    exact h a b hab hb
  have hend : Rot n k R A n (loopFrom (k+1) n (givensStep sq n) R) := by
    unfold loopFrom
    have := loop_inv (f := fun t s => givensStep sq n (k+1+t) s) (fun t s => Rot n k R A (k+1+t) s) (n-(k+1)) R h0
      (fun t s ht hs => Rot.step (m := k+1+t) hsq hD (by omega) (by omega) hs)
    have e : k + 1 + (n - (k+1)) = n := by omega
    rw [e] at this
    exact this
  unfold cholRemoveColumn
  dsimp only
  generalize loopFrom (k+1) n (givensStep sq n) R = S at *
  have hval : ∀ q c, q + 1 < n → c + 1 < n →
      (if q < n ∧ c + 1 = n then (0 : K) else
        if q + 1 < n ∧ k ≤ c ∧ c + 1 < n then S q (c+1) else S q c) = S q (if c < k then c else c + 1) := by
    intro q c hq hc
    rw [if_neg (by omega)]
    by_cases h1 : c < k
    · rw [if_neg (by omega), if_pos h1]
    · rw [if_pos ⟨hq, by omega, hc⟩, if_neg h1]
  constructor
  · intro r c hrc hc
    beta_reduce
    rw [← hend.gram _ _ _ _ _ _]
    · have hh : hgt k n (if r < k then r else r + 1) = r + 1 := by
        unfold hgt
        by_cases h1 : r < k
        · rw [if_pos h1, if_neg (by omega)]
        · rw [if_neg h1, if_pos ⟨by omega, by omega⟩]
      rw [hh]
      refine sum_congr rfl fun q hq => ?_
      have hq := mem_range.1 hq
      rw [hval q r (by omega) (by omega), hval q c (by omega) (by omega)]
    · split <;> split <;> omega
    · split <;> omega
    · split <;> omega
    · split <;> omega
  · intro r hr
    beta_reduce
    rw [hval r r (by omega) (by omega)]
    by_cases h1 : r < k
    · rw [if_pos h1, hend.diag r (Or.inl h1) (by omega)]
      exact hD r (by omega)
    · rw [if_neg h1]
      have := hend.sub (r+1) (by omega) (by omega) (by omega)
      rwa [Nat.add_sub_cancel] at this

/-! ### solving -/

/-- If `Rᵀ w = b` and `R d = w` then `A d = b`. -/
theorem UpperGram.solve {n : Nat} {R A : Nat → Nat → K} (h : UpperGram n R A) (hs : ∀ i < n, ∀ j < n, A i j = A j i)
    {w d b : Nat → K} (h1 : ∀ k < n, ∑ j ∈ range (k+1), R j k * w j = b k)
    (h2 : ∀ k < n, ∑ j ∈ Ico k n, R k j * d j = w k) : ∀ i < n, ∑ j ∈ range n, A i j * d j = b i := by
  intro i hi
  -- U: R with zeros below the diagonal
  let U : Nat → Nat → K := fun q j => if q ≤ j then R q j else 0
  have hA : ∀ a, a < n → ∀ j, j < n → A a j = ∑ q ∈ range n, U q a * U q j := by
    have key : ∀ a j, a ≤ j → j < n → A a j = ∑ q ∈ range n, U q a * U q j := by
      intro a j haj hj
      rw [← h a j haj hj]
      rw [← sum_subset (s₁ := range (a+1)) (s₂ := range n)]
      · refine sum_congr rfl fun q hq => ?_
        have hq := mem_range.1 hq
        simp only [U]
        rw [if_pos (by omega), if_pos (by omega)]
      · intro q hq; rw [mem_range] at *; omega
      · intro q _ hq
        simp only [mem_range] at hq
        simp only [U]
        rw [if_neg (by omega), zero_mul]
    intro a ha j hj
    rcases Nat.le_total a j with h3 | h3
    · exact key a j h3 hj
    · rw [hs a ha j hj, key j a h3 ha]
      exact sum_congr rfl fun q _ => mul_comm _ _
  have hU2 : ∀ q, q < n → ∑ j ∈ range n, U q j * d j = w q := by
    intro q hq
    rw [← h2 q hq]
    rw [← sum_subset (s₁ := Ico q n) (s₂ := range n)]
    · refine sum_congr rfl fun j hj => ?_
      have hj := mem_Ico.1 hj
      simp only [U]
      rw [if_pos hj.1]
    · intro j hj; rw [mem_range]; exact (mem_Ico.1 hj).2
    · intro j hj hj'
      rw [mem_range] at hj
      rw [mem_Ico] at hj'
      simp only [U]
      rw [if_neg (by omega), zero_mul]
  calc ∑ j ∈ range n, A i j * d j = ∑ j ∈ range n, ∑ q ∈ range n, U q i * (U q j * d j) := by
        refine sum_congr rfl fun j hj => ?_
        rw [hA i hi j (mem_range.1 hj), sum_mul]
        exact sum_congr rfl fun q _ => by ring
    _ = ∑ q ∈ range n, U q i * w q := by
        rw [sum_comm]
        refine sum_congr rfl fun q hq => ?_
        rw [← mul_sum, hU2 q (mem_range.1 hq)]
    _ = b i := by
        rw [← h1 i hi]
        rw [← sum_subset (s₁ := range (i+1)) (s₂ := range n)]
        · refine sum_congr rfl fun q hq => ?_
          have hq := mem_range.1 hq
          simp only [U]
          rw [if_pos (by omega)]
        · intro q hq; rw [mem_range] at *; omega
        · intro q _ hq
          simp only [mem_range] at hq
          simp only [U]
          rw [if_neg (by omega), zero_mul]

end QpOASES
