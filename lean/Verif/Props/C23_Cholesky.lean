import Verif.Model.Lapack
import Verif.Spec.Cholesky
import Verif.Props.C16_SparseBuild
import Mathlib.LinearAlgebra.Matrix.Block
import Mathlib.Tactic.Linarith
import Mathlib.Algebra.BigOperators.Fin

/-!
C23: the bundled Cholesky factorisation.
-/
namespace QpOASES.Props
open Finset Spec

variable {K : Type} [Field K] [LinearOrder K] [IsStrictOrderedRing K]

theorem subDown_eq (f : Nat → K) (n : Nat) (s : K) : subDown f n s = s - ∑ k ∈ range n, f k := by
  induction n generalizing s with
  | zero => simp [subDown]
  | succ n ih => rw [subDown, ih, sum_range_succ]; ring

/-- column-major position -/
theorem pos_inj {lda r c r' c' : Nat} (h : r < lda) (h' : r' < lda) (e : r + lda * c = r' + lda * c') :
    r = r' ∧ c = c' := by
  have := mulAdd_inj (n := lda) (r := c) (r' := c') (c := r) (c' := r') h h' (by rw [Nat.mul_comm c, Nat.mul_comm c']; omega)
  exact ⟨this.2, this.1⟩

/-- State after `i` rows of the factorisation. -/
structure PInv (n lda : Nat) (A : Nat → K) (i : Nat) (a : Nat → K) : Prop where
  rows : CholRows i n (fun r c => A (r + lda * c)) (fun r c => a (r + lda * c))
  rest : ∀ q, (∀ r c, r < i → r ≤ c → c < n → q ≠ r + lda * c) → a q = A q

/-- One row. -/
theorem potrfRow_spec {n lda i : Nat} (hn : n ≤ lda) (hi : i < n) (a : Nat → K) :
    (∀ c, i < c → c < n → potrfRow n lda i a (i + lda * c) =
      (a (i + lda * c) - ∑ k ∈ range i, a (k + lda * i) * a (k + lda * c)) / a (i + lda * i)) ∧
    (∀ q, (∀ c, i < c → c < n → q ≠ i + lda * c) → potrfRow n lda i a q = a q) := by
  unfold potrfRow loopFrom
  have key := loop_inv (f := fun t s => updA s (i + lda * (i + 1 + t))
      (subDown (fun k => s (k + lda * i) * s (k + lda * (i + 1 + t))) i (s ((i + 1 + t) * lda + i)) / s (i + lda * i)))
    (fun t s => (∀ c, i < c → c < i + 1 + t → s (i + lda * c) =
        (a (i + lda * c) - ∑ k ∈ range i, a (k + lda * i) * a (k + lda * c)) / a (i + lda * i)) ∧
      (∀ q, (∀ c, i < c → c < i + 1 + t → q ≠ i + lda * c) → s q = a q)) (n - (i+1)) a
    ⟨fun c h1 h2 => by omega, fun _ _ => rfl⟩ (by
      rintro t s ht ⟨s1, s2⟩
      have d : ∀ r c, r < lda → (r ≠ i ∨ c ≤ i ∨ i + 1 + t ≤ c) → s (r + lda * c) = a (r + lda * c) := by
        intro r c hr h
        apply s2
        intro c' h1 h2 e
        obtain ⟨e1, e2⟩ := pos_inj hr (by omega) e
        omega
      refine ⟨fun c h1 h2 => ?_, fun q hq => ?_⟩
      · by_cases e : c = i + 1 + t
        · subst e
          rw [updA_same, subDown_eq]
          rw [show (i + 1 + t) * lda + i = i + lda * (i + 1 + t) by rw [Nat.mul_comm]; omega]
          rw [d i (i+1+t) (by omega) (by omega), d i i (by omega) (by omega)]
          congr 2
          refine sum_congr rfl fun k hk => ?_
          rw [mem_range] at hk
          rw [d k i (by omega) (by omega), d k (i+1+t) (by omega) (by omega)]
        · rw [updA_ne _ _ (fun h => e (pos_inj (by omega) (by omega) h).2), s1 c h1 (by omega)]
      · rw [updA_ne _ _ (hq _ (by omega) (by omega)), s2 q fun c h1 h2 => hq c h1 (by omega)])
  refine ⟨fun c h1 h2 => key.1 c h1 (by omega), fun q hq => key.2 q fun c h1 h2 => hq c h1 (by omega)⟩

theorem potrf_step {n lda i : Nat} (hn : n ≤ lda) (hi : i < n) {A a : Nat → K} (h : PInv n lda A i a)
    {sq : K → K} {sum : K} (hsq : 0 ≤ sq sum ∧ sq sum * sq sum = sum)
    (hs : sum = a (i + lda * i) - ∑ k ∈ range i, a (k + lda * i) * a (k + lda * i))
    (hpos : 0 < sum) : PInv n lda A (i+1) (potrfRow n lda i (updA a (i + lda * i) (sq sum))) := by
  set b := updA a (i + lda * i) (sq sum) with hb
  obtain ⟨r1, r2⟩ := potrfRow_spec (n := n) (lda := lda) hn hi b
  obtain ⟨q1, q2⟩ := hsq
  have q3 : 0 < sq sum := by
    rcases lt_or_eq_of_le q1 with h | h
    · exact h
    · rw [← h] at q2; simp at q2; rw [← q2] at hpos; exact absurd hpos (lt_irrefl _)
  have bii : b (i + lda * i) = sq sum := updA_same _ _ _
  have bo : ∀ r c, r < lda → ¬ (r = i ∧ c = i) → b (r + lda * c) = a (r + lda * c) := by
    intro r c hr h
    exact updA_ne _ _ fun e => h (pos_inj hr (by omega) e)
  -- values of the new array
  have nii : potrfRow n lda i b (i + lda * i) = sq sum := by
    rw [r2 _ fun c h1 h2 e => by have := (pos_inj (by omega) (by omega) e).2; omega, bii]
  have nold : ∀ r c, r < i → c < n → potrfRow n lda i b (r + lda * c) = a (r + lda * c) := by
    intro r c hr hc
    rw [r2 _ fun c h1 h2 e => by have := (pos_inj (by omega) (by omega) e).1; omega, bo r c (by omega) (by omega)]
  have nrow : ∀ c, i < c → c < n → potrfRow n lda i b (i + lda * c) =
      (A (i + lda * c) - ∑ k ∈ range i, a (k + lda * i) * a (k + lda * c)) / sq sum := by
    intro c h1 h2
    rw [r1 c h1 h2, bii, bo i c (by omega) (by omega)]
    have e1 : a (i + lda * c) = A (i + lda * c) := h.rest _ fun r' c' h3 h4 h5 e => by
      have := (pos_inj (by omega) (by omega) e).1; omega
    rw [e1]
    congr 2
    refine sum_congr rfl fun k hk => ?_
    rw [mem_range] at hk
    rw [bo k i (by omega) (by omega), bo k c (by omega) (by omega)]
  have aii : a (i + lda * i) = A (i + lda * i) := h.rest _ fun r' c' h3 h4 h5 e => by
      have := (pos_inj (by omega) (by omega) e).1; omega
  constructor
  · intro r hr
    by_cases e : r = i
    · subst e
      refine ⟨by beta_reduce; rw [nii]; exact q3, fun c h1 h2 => ?_⟩
      rw [sum_range_succ]
      beta_reduce
      have e2 : ∑ k ∈ range r, potrfRow n lda r b (k + lda * r) * potrfRow n lda r b (k + lda * c) =
          ∑ k ∈ range r, a (k + lda * r) * a (k + lda * c) := by
        refine sum_congr rfl fun k hk => ?_
        rw [mem_range] at hk
        rw [nold k r hk hi, nold k c hk h2]
      rw [e2, nii]
      rcases Nat.eq_or_lt_of_le h1 with h3 | h3
      · subst h3
        rw [nii, q2, hs, aii]; ring
      · rw [nrow c h3 h2, mul_div_cancel₀ _ q3.ne']; ring
    · obtain ⟨h1, h2⟩ := h.rows r (by omega)
      refine ⟨?_, fun c h3 h4 => ?_⟩
      · beta_reduce
        rw [nold r r (by omega) (by omega)]; exact h1
      · rw [← h2 c h3 h4]
        refine sum_congr rfl fun k hk => ?_
        rw [mem_range] at hk
        beta_reduce
        rw [nold k r (by omega) (by omega), nold k c (by omega) h4]
  · intro q hq
    rw [r2 q fun c h1 h2 => hq i c (by omega) (by omega) h2, hb,
      updA_ne _ _ (hq i i (by omega) (Nat.le_refl _) hi)]
    exact h.rest q fun r c h1 h2 h3 => hq r c (by omega) h2 h3

/-- The square roots taken by the remaining rows are exact. -/
def PivotsOK (sq : K → K) (n lda : Nat) : (m i : Nat) → (Nat → K) → Prop
  | 0, _, _ => True
  | m+1, i, a =>
    let sum := subDown (fun k => a (k + lda * i) * a (k + lda * i)) i (a (i + lda * i))
    0 < sum → (0 ≤ sq sum ∧ sq sum * sq sum = sum) ∧ PivotsOK sq n lda m (i+1) (potrfRow n lda i (updA a (i + lda * i) (sq sum)))

theorem IsSqrt.pivotsOK {sq : K → K} (hsq : IsSqrt sq) (n lda : Nat) : ∀ m i a, PivotsOK sq n lda m i a := by
  intro m
  induction m with
  | zero => exact fun _ _ => trivial
  | succ m ih => exact fun i a hp => ⟨hsq _ hp.le, ih _ _⟩

/-- Outcome of the remaining rows. -/
theorem potrfFrom_spec' {n lda : Nat} (hn : n ≤ lda) {sq : K → K} (A : Nat → K) :
    ∀ m i a, PivotsOK sq n lda m i a → i + m = n → PInv n lda A i a →
      ((potrfFrom sq n lda m i a).1 = 0 ∧ PInv n lda A n (potrfFrom sq n lda m i a).2) ∨
      (∃ j a', j < n ∧ (potrfFrom sq n lda m i a).1 = j + 1 ∧ PInv n lda A j a' ∧
        A (j + lda * j) - ∑ k ∈ range j, a' (k + lda * j) * a' (k + lda * j) ≤ 0 ∧
        (potrfFrom sq n lda m i a).2 = updA a' 0 (A (j + lda * j) - ∑ k ∈ range j, a' (k + lda * j) * a' (k + lda * j))) := by
  intro m
  induction m with
  | zero =>
    intro i a _ hm h
    left
    have : i = n := by omega
    subst this
    exact ⟨rfl, h⟩
  | succ m ih =>
    intro i a hsq hm h
    rw [potrfFrom]
    rw [PivotsOK] at hsq
    simp only [subDown_eq] at hsq ⊢
    by_cases hp : a (i + lda * i) - ∑ k ∈ range i, a (k + lda * i) * a (k + lda * i) > 0
    · rw [if_pos hp]
      exact ih (i+1) _ (hsq hp).2 (by omega) (potrf_step hn (by omega) h (hsq hp).1 rfl hp)
    · rw [if_neg hp]
      have aii : a (i + lda * i) = A (i + lda * i) := h.rest _ fun r' c' h3 h4 h5 e => by
        have := (pos_inj (by omega) (by omega) e).1; omega
      rw [aii] at hp ⊢
      exact Or.inr ⟨i, a, by omega, rfl, h, not_lt.1 hp, rfl⟩

theorem potrfFrom_spec {n lda : Nat} (hn : n ≤ lda) {sq : K → K} (hsq : IsSqrt sq) (A : Nat → K) :
    ∀ m i a, i + m = n → PInv n lda A i a →
      ((potrfFrom sq n lda m i a).1 = 0 ∧ PInv n lda A n (potrfFrom sq n lda m i a).2) ∨
      (∃ j a', j < n ∧ (potrfFrom sq n lda m i a).1 = j + 1 ∧ PInv n lda A j a' ∧
        A (j + lda * j) - ∑ k ∈ range j, a' (k + lda * j) * a' (k + lda * j) ≤ 0 ∧
        (potrfFrom sq n lda m i a).2 = updA a' 0 (A (j + lda * j) - ∑ k ∈ range j, a' (k + lda * j) * a' (k + lda * j))) :=
  fun m i a => potrfFrom_spec' hn A m i a (IsSqrt.pivotsOK hsq n lda m i a)

/-- Determinant of a leading block from the first rows of the factor and the next pivot. -/
theorem det_lead {n i : Nat} (hi : i < n) {A R : Nat → Nat → K} (h : CholRows i n A R) :
    (lead A (i+1)).det = (∏ r ∈ range i, R r r) ^ 2 * (A i i - ∑ k ∈ range i, R k i * R k i) := by
  set s := A i i - ∑ k ∈ range i, R k i * R k i with hs
  let U : Matrix (Fin (i+1)) (Fin (i+1)) K := Matrix.of fun a b =>
    if a.val = i then (if b.val = i then 1 else 0) else if a.val ≤ b.val then R a.val b.val else 0
  let d : Fin (i+1) → K := fun a => if a.val = i then s else 1
  have hU : U.BlockTriangular id := by
    intro a b hab
    have hab' : b.val < a.val := hab
    simp only [U, Matrix.of_apply]
    by_cases e : a.val = i
    · rw [if_pos e, if_neg (by omega)]
    · rw [if_neg e, if_neg (by omega)]
  have detU : U.det = ∏ r ∈ range i, R r r := by
    rw [Matrix.det_of_upperTriangular hU, Fin.prod_univ_castSucc]
    have e1 : U (Fin.last i) (Fin.last i) = 1 := by simp [U]
    rw [e1, mul_one, ← Fin.prod_univ_eq_prod_range (fun r => R r r)]
    refine prod_congr rfl fun a _ => ?_
    have : a.val ≠ i := by omega
    simp [U, this]
  have fac : lead A (i+1) = U.transpose * Matrix.diagonal d * U := by
    ext a b
    rw [Matrix.mul_apply]
    simp only [Matrix.mul_diagonal, Matrix.transpose_apply]
    rw [Fin.sum_univ_castSucc]
    have key : ∀ r c, r ≤ c → c ≤ i → A r c = ∑ k : Fin i, (if k.val ≤ r then R k.val r else 0) *
        (if k.val ≤ c then R k.val c else 0) + (if r = i then 1 else 0) * s * (if c = i then 1 else 0) := by
      intro r c h1 h2
      rw [Fin.sum_univ_eq_sum_range (fun k => (if k ≤ r then R k r else 0) * (if k ≤ c then R k c else 0)) i]
      by_cases e : r = i
      · have e2 : c = i := by omega
        rw [e, e2]
        simp only [if_true, one_mul, mul_one]
        have : ∑ k ∈ range i, (if k ≤ i then R k i else 0) * (if k ≤ i then R k i else 0) = ∑ k ∈ range i, R k i * R k i := by
          refine sum_congr rfl fun k hk => ?_
          rw [mem_range] at hk
          rw [if_pos (by omega)]
        rw [this, hs]; ring
      · rw [if_neg e, zero_mul, zero_mul, add_zero]
        rw [← (h r (by omega)).2 c h1 (by omega)]
        have hsub : range (r+1) ⊆ range i := range_subset_range.2 (by omega)
        rw [← sum_subset hsub]
        · refine sum_congr rfl fun k hk => ?_
          rw [mem_range] at hk
          rw [if_pos (by omega), if_pos (by omega)]
        · intro k _ hk
          rw [mem_range] at hk
          rw [if_neg (by omega), zero_mul]
    have hd1 : ∀ k : Fin i, d k.castSucc = 1 := fun k => by
      have : k.val ≠ i := by omega
      simp [d, this]
    have hd2 : d (Fin.last i) = s := by simp [d]
    have hU1 : ∀ (k : Fin i) (b : Fin (i+1)), U k.castSucc b = if k.val ≤ b.val then R k.val b.val else 0 := fun k b => by
      have : k.val ≠ i := by omega
      simp only [U, Matrix.of_apply, Fin.val_castSucc]
      rw [if_neg this]
    have hU2 : ∀ b : Fin (i+1), U (Fin.last i) b = if b.val = i then 1 else 0 := fun b => by
      simp only [U, Matrix.of_apply, Fin.val_last, if_true]
    simp only [hd1, hd2, hU1, hU2, mul_one]
    simp only [lead, Matrix.of_apply]
    by_cases hab : a.val ≤ b.val
    · rw [if_pos hab]
      exact key a.val b.val hab (by omega)
    · rw [if_neg hab, key b.val a.val (by omega) (by omega)]
      congr 1
      · exact sum_congr rfl fun k _ => mul_comm _ _
      · ring
  have hdiag : ∏ a, d a = s := by
    rw [Fin.prod_univ_castSucc]
    have e1 : d (Fin.last i) = s := by simp [d]
    rw [e1, prod_eq_one, one_mul]
    intro k _
    have : k.val ≠ i := by omega
    simp [d, this]
  rw [fac, Matrix.det_mul, Matrix.det_mul, Matrix.det_transpose, Matrix.det_diagonal, detU, hdiag]
  ring

/-- All leading minors up to order `m` are positive if the first `m` rows of the factor exist. -/
theorem minors_pos {n m : Nat} (hm : m ≤ n) {A R : Nat → Nat → K} (h : CholRows m n A R) :
    ∀ k, k ≤ m → 0 < (lead A k).det := by
  intro k hk
  cases k with
  | zero => simp
  | succ k =>
    have h' : CholRows k n A R := fun r hr => h r (by omega)
    rw [det_lead (show k < n by omega) h']
    apply mul_pos
    · exact pow_pos (prod_pos fun r hr => (h r (by have := mem_range.1 hr; omega)).1) 2
    · obtain ⟨h1, h2⟩ := h k (by omega)
      have := h2 k (Nat.le_refl _) (by omega)
      rw [sum_range_succ] at this
      rw [← this]
      have := mul_pos h1 h1
      linarith

/-- **C23**.  The routine returns 0 exactly if all leading minors of the symmetric matrix given by its upper
triangle are positive. -/
theorem C23_success_iff {n lda : Nat} (hn : n ≤ lda) {sq : K → K} (hsq : IsSqrt sq) (A : Nat → K) :
    (potrf sq n A lda).1 = 0 ↔ ∀ k, 1 ≤ k → k ≤ n → 0 < (lead (fun r c => A (r + lda * c)) k).det := by
  rcases potrfFrom_spec hn hsq A n 0 A (by omega) ⟨fun r hr => by omega, fun _ _ => rfl⟩ with ⟨h1, h2⟩ | ⟨j, a', h1, h2, h3, h4, h5⟩
  · exact ⟨fun _ k _ hk => minors_pos (Nat.le_refl n) h2.rows k hk, fun _ => h1⟩
  · refine ⟨fun e => ?_, fun h => ?_⟩
    · have : (potrf sq n A lda).1 = j + 1 := h2
      omega
    · have := h (j+1) (by omega) (by omega)
      rw [det_lead h1 h3.rows] at this
      have h6 := mul_nonpos_of_nonneg_of_nonpos (sq_nonneg (∏ r ∈ range j, a' (r + lda * r))) h4
      exact absurd this (not_lt.2 h6)

/-- **C23**.  If it returns 0, the upper triangle of the array is the Cholesky factor with positive diagonal,
and nothing outside that triangle has been changed. -/
theorem C23_factor {n lda : Nat} (hn : n ≤ lda) {sq : K → K} (hsq : IsSqrt sq) (A : Nat → K)
    (h : (potrf sq n A lda).1 = 0) :
    IsCholesky n (fun r c => A (r + lda * c)) (fun r c => (potrf sq n A lda).2 (r + lda * c)) ∧
    ∀ q, (∀ r c, r ≤ c → c < n → q ≠ r + lda * c) → (potrf sq n A lda).2 q = A q := by
  rcases potrfFrom_spec hn hsq A n 0 A (by omega) ⟨fun r hr => by omega, fun _ _ => rfl⟩ with ⟨h1, h2⟩ | ⟨j, a', h1, h2, h3, h4, h5⟩
  · exact ⟨h2.rows, fun q hq => h2.rest q fun r c _ h3 h4 => hq r c h3 h4⟩
  · have : (potrf sq n A lda).1 = j + 1 := h2
    omega

/-- The same if only the square roots of the pivots are exact. -/
theorem C23_factor_pivots {n lda : Nat} (hn : n ≤ lda) {sq : K → K} (A : Nat → K) (hsq : PivotsOK sq n lda n 0 A)
    (h : (potrf sq n A lda).1 = 0) :
    IsCholesky n (fun r c => A (r + lda * c)) (fun r c => (potrf sq n A lda).2 (r + lda * c)) ∧
    ∀ q, (∀ r c, r ≤ c → c < n → q ≠ r + lda * c) → (potrf sq n A lda).2 q = A q := by
  rcases potrfFrom_spec' hn A n 0 A hsq (by omega) ⟨fun r hr => by omega, fun _ _ => rfl⟩ with ⟨h1, h2⟩ | ⟨j, a', h1, h2, h3, h4, h5⟩
  · exact ⟨h2.rows, fun q hq => h2.rest q fun r c _ h3 h4 => hq r c h3 h4⟩
  · have : (potrf sq n A lda).1 = j + 1 := h2
    omega

/-- **C23**.  Otherwise it returns the order of the first leading minor that is not positive, and the failing
pivot in the first element of the array. -/
theorem C23_failure {n lda : Nat} (hn : n ≤ lda) {sq : K → K} (hsq : IsSqrt sq) (A : Nat → K)
    (h : (potrf sq n A lda).1 ≠ 0) :
    (potrf sq n A lda).1 ≤ n ∧ (lead (fun r c => A (r + lda * c)) (potrf sq n A lda).1).det ≤ 0 ∧
    (∀ k < (potrf sq n A lda).1, 0 < (lead (fun r c => A (r + lda * c)) k).det) ∧ (potrf sq n A lda).2 0 ≤ 0 := by
  rcases potrfFrom_spec hn hsq A n 0 A (by omega) ⟨fun r hr => by omega, fun _ _ => rfl⟩ with ⟨h1, h2⟩ | ⟨j, a', h1, h2, h3, h4, h5⟩
  · exact absurd h1 h
  · have e : (potrf sq n A lda).1 = j + 1 := h2
    have e5 : (potrf sq n A lda).2 = _ := h5
    rw [e, e5, updA_same]
    refine ⟨by omega, ?_, fun k hk => minors_pos (by omega) h3.rows k (by omega), h4⟩
    rw [det_lead h1 h3.rows]
    exact mul_nonpos_of_nonneg_of_nonpos (sq_nonneg _) h4

/-! ### Non-vacuity: `[[4,2],[2,5]]` has the factor `[[2,1],[0,2]]`; `[[1,2],[2,1]]` fails at pivot 2. -/

def sqTable : ℚ → ℚ := fun x => if x = 4 then 2 else 1

example : (potrf sqTable 2 (fun i => if i = 0 then 4 else if i = 3 then 5 else 2) 2).1 = 0 ∧
    (potrf sqTable 2 (fun i => if i = 0 then 4 else if i = 3 then 5 else 2) 2).2 0 = 2 ∧
    (potrf sqTable 2 (fun i => if i = 0 then 4 else if i = 3 then 5 else 2) 2).2 2 = 1 ∧
    (potrf sqTable 2 (fun i => if i = 0 then 4 else if i = 3 then 5 else 2) 2).2 3 = 2 ∧
    (potrf sqTable 2 (fun i => if i = 0 then 1 else if i = 3 then 1 else 2) 2).1 = 2 := by decide +kernel

end QpOASES.Props
