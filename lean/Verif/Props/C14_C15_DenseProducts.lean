import Verif.Proofs.Accum
import Verif.Spec.Matrix
import Mathlib.Data.Rat.Cast.Order
import Mathlib.Algebra.Order.Ring.Rat

/-!
# C15 Built-in BLAS matrix multiplication, C14 Dense matrix products
-/
namespace QpOASES.Props
open Finset Spec

variable {K : Type} [Field K] [LinearOrder K] [IsStrictOrderedRing K]

theorem IsUpdate.congr_pos {n m : Nat} {pos pos' : Nat → Nat → Nat} {α β : K} {P P' : Nat → Nat → K} {y y' : Nat → K}
    (h : IsUpdate n m pos α β P y y') (hp : ∀ k < n, ∀ j < m, pos k j = pos' k j)
    (hP : ∀ k < n, ∀ j < m, P k j = P' k j) : IsUpdate n m pos' α β P' y y' := by
  refine ⟨fun k hk j hj => ?_, fun q hq => h.2 q fun k hk j hj => ?_⟩
  · rw [← hp k hk j hj, ← hP k hk j hj]; exact h.1 k hk j hj
  · rw [hp k hk j hj]; exact hq k hk j hj

/-- **C15.** GEMM computes `C := α·op(A)·B + β·C` on the `M × N` block of `C`, where
`op(A) = A` or `Aᵀ`, all matrices stored by columns, and changes nothing else. -/
theorem C15_gemm (transA : Bool) (M N L : Nat) {α β : K} (A : Nat → K) (LDA : Nat) (B : Nat → K) (LDB : Nat)
    (C : Nat → K) (LDC : Nat) (hα : Coeff α) (hβ : Coeff β) (hC : Fits N M LDC) :
    IsUpdate N M (fun k j => j + LDC * k) α β
      (fun k j => mulVec (fun j i => if transA then A (i + LDA * j) else A (j + LDA * i)) L
        (fun i => B (i + LDB * k)) j)
      C (gemm transA M N L α A LDA B LDB β C LDC) := by
  have inj : PosInj N M (fun k j => j + LDC * k) := by
    simp only [Nat.mul_comm LDC]; exact posInj_id hC
  cases transA
  · exact isUpdate_of_adds hβ inj (fun _ _ _ _ _ => rfl)
      ((adds_loop3 fun k _ j _ i _ => adds_accY hα _ _ _).congr fun q =>
        sum_congr rfl fun k _ => sum_congr rfl fun j _ => sum_ite_const _ _ _ _) C
  · exact isUpdate_of_adds hβ inj (fun _ _ _ _ _ => rfl)
      ((adds_loop3 fun k _ j _ i _ => adds_accY hα _ _ _).congr fun q =>
        sum_congr rfl fun k _ => sum_congr rfl fun j _ => sum_ite_const _ _ _ _) C

theorem fits_max {n m ld : Nat} (h : Fits n m ld) {k : Nat} (hk : k < n) {j : Nat} (hj : j < m) :
    max 1 ld * k = k * ld := by
  rcases h with h | h
  · have : k = 0 := by omega
    subst this; simp
  · rw [Nat.mul_comm, Nat.max_eq_right (by omega)]

/-- **C14**, product of the whole matrix, for matrices stored without gaps between rows.
Missing part: matrices with a leading dimension different from the number of columns, see
`C14_times_padded_violated`. -/
theorem C14_times_partial (M : DenseMatrix K) (hM : M.Compact) (xN : Nat) {α β : K} (x : Nat → K) (xLD : Nat)
    (y : Nat → K) (yLD : Nat) (hα : Coeff α) (hβ : Coeff β) (hx : Fits xN M.nCols xLD) (hy : Fits xN M.nRows yLD) :
    IsUpdate xN M.nRows (fun k j => j + k * yLD) α β
      (fun k => mulVec M.entry M.nCols (fun i => x (i + k * xLD)))
      y (M.timesFull xN α x xLD β y yLD) := by
  have h := C15_gemm true M.nRows xN M.nCols M.val (max 1 M.nCols) x (max 1 xLD) y (max 1 yLD) hα hβ
    (hy.imp id fun h => Nat.le_trans h (Nat.le_max_right _ _))
  refine IsUpdate.congr_pos h (fun k hk j hj => ?_) (fun k hk j hj => ?_)
  · beta_reduce; rw [fits_max hy hk hj]
  · beta_reduce
    apply sum_congr rfl
    intro i hi
    have hi' := mem_range.1 hi
    beta_reduce
    rw [fits_max hx hk hi', if_pos rfl]
    show _ = M.val (j * M.leaDim + i) * _
    rw [hM, Nat.max_eq_right (by omega), Nat.mul_comm, Nat.add_comm]

/-- **C14**, transposed product of the whole matrix, stored without gaps. -/
theorem C14_transTimes_partial (M : DenseMatrix K) (hM : M.Compact) (xN : Nat) {α β : K} (x : Nat → K) (xLD : Nat)
    (y : Nat → K) (yLD : Nat) (hα : Coeff α) (hβ : Coeff β) (hx : Fits xN M.nRows xLD) (hy : Fits xN M.nCols yLD) :
    IsUpdate xN M.nCols (fun k j => j + k * yLD) α β
      (fun k => mulVec (fun i j => M.entry j i) M.nRows (fun i => x (i + k * xLD)))
      y (M.transTimesFull xN α x xLD β y yLD) := by
  have h := C15_gemm false M.nCols xN M.nRows M.val (max 1 M.nCols) x (max 1 xLD) y (max 1 yLD) hα hβ
    (hy.imp id fun h => Nat.le_trans h (Nat.le_max_right _ _))
  refine IsUpdate.congr_pos h (fun k hk j hj => ?_) (fun k hk j hj => ?_)
  · beta_reduce; rw [fits_max hy hk hj]
  · beta_reduce
    apply sum_congr rfl
    intro i hi
    have hi' := mem_range.1 hi
    beta_reduce
    rw [fits_max hx hk hi', if_neg Bool.false_ne_true]
    show _ = M.val (i * M.leaDim + j) * _
    rw [hM, Nat.max_eq_right (by omega), Nat.mul_comm, Nat.add_comm]

/-- **C14**, product of a submatrix with compressed result: component `j` of vector `k` of the result is
`α · Σ_i A(row_j, col_i)·x_k(i) + β·y_k(j)`. -/
theorem C14_times_compressed (M : DenseMatrix K) {irows : Ix} {icols : Option Ix} (hr : irows.Wf M.nRows)
    (hc : ∀ ic ∈ icols, ic.Wf M.nCols) (xN : Nat) {α β : K} (x : Nat → K) (xLD : Nat) (y : Nat → K) (yLD : Nat)
    (hα : Coeff α) (hβ : Coeff β) (hy : Fits xN irows.len yLD) :
    IsUpdate xN irows.len (fun k j => j + k * yLD) α β
      (fun k => mulVec (fun j i => M.entry (irows.number j) (colOf icols i)) (colCount M.nCols icols)
        (fun i => x (k * xLD + i)))
      y (M.times irows icols xN α x xLD β y yLD true) := by
  unfold DenseMatrix.times
  simp only [if_true]
  cases icols with
  | none =>
    refine isUpdate_of_adds hβ (posInj_id hy) (fun _ _ _ _ _ => rfl)
      ((adds_loop3 fun k _ j _ i _ => adds_accY hα _ _ _).congr fun q => sum_congr rfl fun k _ => ?_) y
    rw [← hr.sum_sort (fun j => if q = j + k * yLD then α * mulVec _ _ _ j else 0)]
    exact sum_congr rfl fun j _ => sum_ite_const _ _ _ _
  | some ic =>
    refine isUpdate_of_adds hβ (posInj_id hy) (fun _ _ _ _ _ => rfl)
      ((adds_loop3 fun k _ j _ i _ => adds_accY hα _ _ _).congr fun q => sum_congr rfl fun k _ => ?_) y
    rw [← hr.sum_sort (fun j => if q = j + k * yLD then α * mulVec _ _ _ j else 0)]
    refine sum_congr rfl fun j _ => (sum_ite_const _ _ _ _).trans ?_
    congr 2
    exact (hc ic rfl).sum_sort
      (fun i => M.val (irows.number (irows.iSort j) * M.leaDim + ic.number i) * x (k * xLD + i))

/-- **C14**, product of a submatrix with uncompressed result: component `row_j` of vector `k`.
Missing part: `β = -1`, see `C14_times_uncompressed_violated`. -/
theorem C14_times_uncompressed_partial (M : DenseMatrix K) {irows : Ix} {icols : Option Ix} (hr : irows.Wf M.nRows)
    (hc : ∀ ic ∈ icols, ic.Wf M.nCols) (xN : Nat) {α β : K} (x : Nat → K) (xLD : Nat) (y : Nat → K) (yLD : Nat)
    (hα : Coeff α) (hβ : Coeff β) (hβ1 : β ≠ -1) (hy : Fits xN M.nRows yLD) :
    IsUpdate xN irows.len (fun k j => irows.number j + k * yLD) α β
      (fun k => mulVec (fun j i => M.entry (irows.number j) (colOf icols i)) (colCount M.nCols icols)
        (fun i => x (k * xLD + i)))
      y (M.times irows icols xN α x xLD β y yLD false) := by
  unfold DenseMatrix.times
  simp only [Bool.false_eq_true, if_false]
  have inj : PosInj xN irows.len (fun k j => irows.number j + k * yLD) :=
    posInj_of irows.number M.nRows hr.num hr.ninj hy
  cases icols with
  | none =>
    refine isUpdate_of_adds hβ inj (fun e => absurd e hβ1)
      ((adds_loop3 fun k _ j _ i _ => adds_accY hα _ _ _).congr fun q => sum_congr rfl fun k _ => ?_) y
    rw [← hr.sum_sort (fun j => if q = irows.number j + k * yLD then α * mulVec _ _ _ j else 0)]
    exact sum_congr rfl fun j _ => sum_ite_const _ _ _ _
  | some ic =>
    refine isUpdate_of_adds hβ inj (fun e => absurd e hβ1)
      ((adds_loop3 fun k _ j _ i _ => adds_accY hα _ _ _).congr fun q => sum_congr rfl fun k _ => ?_) y
    rw [← hr.sum_sort (fun j => if q = irows.number j + k * yLD then α * mulVec _ _ _ j else 0)]
    refine sum_congr rfl fun j _ => (sum_ite_const _ _ _ _).trans ?_
    congr 2
    exact (hc ic rfl).sum_sort
      (fun i => M.val (irows.number (irows.iSort j) * M.leaDim + ic.number i) * x (k * xLD + i))

/-- **C14**, transposed product of a submatrix. -/
theorem C14_transTimes_lists (M : DenseMatrix K) {irows icols : Ix} (hr : irows.Wf M.nRows)
    (hc : icols.Wf M.nCols) (xN : Nat) {α β : K} (x : Nat → K) (xLD : Nat) (y : Nat → K) (yLD : Nat)
    (hα : Coeff α) (hβ : Coeff β) (hy : Fits xN icols.len yLD) :
    IsUpdate xN icols.len (fun k i => i + k * yLD) α β
      (fun k => mulVec (fun i j => M.entry (irows.number j) (icols.number i)) irows.len
        (fun j => x (j + k * xLD)))
      y (M.transTimes irows icols xN α x xLD β y yLD) := by
  unfold DenseMatrix.transTimes
  refine isUpdate_of_adds hβ (posInj_id hy) (fun _ _ _ _ _ => rfl)
    ((adds_loop3 fun k _ j _ i _ => adds_accY hα _ _ _).congr fun q => sum_congr rfl fun k _ => ?_) y
  rw [sum_comm, ← hc.sum_sort (fun i => if q = i + k * yLD then α * mulVec _ _ _ i else 0)]
  refine sum_congr rfl fun i _ => (sum_ite_const _ _ _ _).trans ?_
  congr 2
  exact hr.sum_sort
    (fun j => M.val (irows.number j * M.leaDim + icols.number (icols.iSort i)) * x (j + k * xLD))

/-! ### Violations -/

/-- 2×2 matrix in a 2×3 array: rows (1,2), (3,4). -/
def padded : DenseMatrix ℚ := .ofArray 2 2 3 (fun i => if i = 0 then 1 else if i = 1 then 2 else if i = 3 then 3 else if i = 4 then 4 else 0) 6

/-- **C14 violated** for a leading dimension larger than the number of columns: the whole-matrix product
ignores it. -/
theorem C14_times_padded_violated :
    ¬ IsUpdate 1 2 (fun k j => j + k * 2) 1 0 (fun k => mulVec padded.entry 2 (fun i => (1 : ℚ)))
      (fun _ => 0) (padded.timesFull 1 1 (fun _ => 1) 2 0 (fun _ => 0) 2) := by
  intro h
  have h1 := h.1 0 (by omega) 1 (by omega)
  revert h1
  decide +kernel

/-- The list of the numbers 1 and 0, in this order. -/
def ix10 : Ix := ⟨2, fun i => if i = 0 then 1 else 0, fun i => if i = 0 then 1 else 0⟩

theorem ix10_wf : ix10.Wf 2 := by
  refine ⟨fun j hj => ?_, fun j hj => ?_, fun i j hij hj => ?_⟩
  · simp only [ix10] at *; split <;> omega
  · simp only [ix10] at *; split <;> omega
  · simp only [ix10] at *
    have : i = 0 := by omega
    have : j = 1 := by omega
    subst_vars; decide

def eye2 : DenseMatrix ℚ := .ofArray 2 2 2 (fun i => if i = 0 then 1 else if i = 3 then 1 else 0) 4

/-- **C14 violated** for uncompressed results and `β = -1`: the old values are taken from the wrong
positions. -/
theorem C14_times_uncompressed_violated :
    ¬ IsUpdate 1 2 (fun k j => ix10.number j + k * 2) 1 (-1)
      (fun k => mulVec (fun j i => eye2.entry (ix10.number j) i) 2 (fun _ => (0 : ℚ)))
      (fun i => if i = 0 then 5 else 7)
      (eye2.times ix10 none 1 1 (fun _ => 0) 2 (-1) (fun i => if i = 0 then 5 else 7) 2 false) := by
  intro h
  have h1 := h.1 0 (by omega) 1 (by omega)
  revert h1
  decide +kernel

/-- **C15/C14, tolerance.**  A factor `β` of magnitude below 1e-25 is treated as 0, so the old values are
dropped rather than scaled (hypothesis `Coeff β` of the theorems above). -/
theorem C15_tiny_beta_dropped :
    gemm false 1 1 0 (1 : ℚ) (fun _ => 0) 1 (fun _ => 0) 1 (1 / 10^26) (fun _ => 10^30) 1 0 = 0 ∧
      (1 / 10^26 : ℚ) * 10^30 ≠ 0 := by
  decide +kernel

/-! ### Non-vacuity -/

theorem coeff_q (c : ℚ) (h : c = 0 ∨ c = 1 ∨ c = -1 ∨ (c.den = 1)) : Coeff c := by
  have hden : c.den = 1 := by
    rcases h with h | h | h | h <;> first | (subst h; rfl) | exact h
  obtain ⟨n, rfl⟩ : ∃ n : Int, c = n := ⟨c.num, by rw [Rat.coe_int_num_of_den_eq_one hden]⟩
  have key : ∀ m : Int, |(m : ℚ)| ≤ ZERO → m = 0 := by
    intro m hm
    by_contra hne
    have h1 : (1 : ℚ) ≤ |(m : ℚ)| := by exact_mod_cast Int.one_le_abs hne
    have h2 : (ZERO : ℚ) < 1 := by unfold ZERO; norm_num
    linarith
  refine ⟨fun h => ?_, fun h => ?_, fun h => ?_⟩
  · exact_mod_cast key n h
  · have := key (n - 1) (by push_cast; exact h)
    have : n = 1 := by omega
    subst this; norm_num
  · have := key (n + 1) (by push_cast; exact h)
    have : n = -1 := by omega
    subst this; norm_num

/-- Every hypothesis of the C14/C15 theorems is met by: a 2×2 matrix, two vectors, α = 3, β = 5, both rows
selected in the order 1, 0. -/
example : Coeff (3 : ℚ) ∧ Coeff (5 : ℚ) ∧ (5 : ℚ) ≠ -1 ∧ Fits 2 2 2 ∧ ix10.Wf 2 ∧ eye2.Compact ∧
    (eye2.times ix10 (some ix10) 2 3 (fun i => (i : ℚ)) 2 5 (fun _ => 1) 2 true) 2 = 3 * 2 + 5 :=
  ⟨coeff_q _ (by right; right; right; rfl), coeff_q _ (by right; right; right; rfl), by norm_num,
   Or.inr (Nat.le_refl _), ix10_wf, rfl, by decide +kernel⟩

/-- Index lists reached by the class operations satisfy the hypothesis on lists. -/
example : ∃ s, ∃ l : List Int, ∃ p, Indexlist.Rep s l p ∧ ∀ a ∈ l, 0 ≤ a ∧ a < (2 : Nat) :=
  let h := Indexlist.init_rep Indexlist.empty (n := 2) (by omega)
  ⟨_, _, _, h.2.1, by simp⟩

end QpOASES.Props
