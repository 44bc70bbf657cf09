import Verif.Props.C18_Access
import Mathlib.Algebra.Order.BigOperators.Group.Finset

/-!
C22: norms of rows.
-/
namespace QpOASES.Props
open Finset Spec ReturnValue

variable {K : Type} [Field K] [LinearOrder K] [IsStrictOrderedRing K]

/-- `s` is the Euclidean norm of `a 0, …, a (n-1)`. -/
def IsNorm2 (n : Nat) (a : Nat → K) (s : K) : Prop := 0 ≤ s ∧ s * s = ∑ i ∈ range n, a i * a i

/-- `s` is the sum of absolute values. -/
def IsNorm1 (n : Nat) (a : Nat → K) (s : K) : Prop := s = ∑ i ∈ range n, |a i|

/-- A norm is zero exactly for the zero vector. -/
theorem IsNorm2.zero_iff {n : Nat} {a : Nat → K} {s : K} (h : IsNorm2 n a s) : s = 0 ↔ ∀ i < n, a i = 0 := by
  obtain ⟨h1, h2⟩ := h
  have h3 : s = 0 ↔ ∑ i ∈ range n, a i * a i = 0 := by
    rw [← h2]; exact ⟨fun e => by rw [e, mul_zero], fun e => mul_self_eq_zero.1 e⟩
  rw [h3, sum_eq_zero_iff_of_nonneg (fun i _ => mul_self_nonneg _)]
  exact ⟨fun h i hi => mul_self_eq_zero.1 (h i (mem_range.2 hi)), fun h i hi => by rw [h i (mem_range.1 hi), mul_zero]⟩

theorem IsNorm1.zero_iff {n : Nat} {a : Nat → K} {s : K} (h : IsNorm1 n a s) : s = 0 ↔ ∀ i < n, a i = 0 := by
  unfold IsNorm1 at h
  rw [h, sum_eq_zero_iff_of_nonneg (fun i _ => abs_nonneg _)]
  exact ⟨fun h i hi => abs_eq_zero.1 (h i (mem_range.2 hi)), fun h i hi => by rw [h i (mem_range.1 hi), abs_zero]⟩

theorem norm2_of {sq : K → K} (hsq : IsSqrt sq) (n : Nat) (a : Nat → K) :
    IsNorm2 n a (sq (∑ i ∈ range n, a i * a i)) :=
  hsq _ (sum_nonneg fun i _ => mul_self_nonneg _)

/-- **C22**, dense, Euclidean norm. -/
theorem C22_dense_norm2 {sq : K → K} (hsq : IsSqrt sq) (M : DenseMatrix K) (norm : Nat → K) :
    ∃ nrm, (∀ r < M.nRows, IsNorm2 M.nCols (M.entry r) (nrm r)) ∧
      Holds M.nRows nrm norm (M.getRowNorm sq norm 2).2 ∧ (M.getRowNorm sq norm 2).1 = SUCCESSFUL_RETURN := by
  refine ⟨fun r => sq (∑ i ∈ range M.nCols, M.entry r i * M.entry r i), fun r _ => norm2_of hsq _ _, ?_, rfl⟩
  refine Holds.congr (holds_loop _ _ _) fun i _ => ?_
  simp only [getNorm, if_true, sumTo_eq]
  rfl

/-- **C22**, dense, sum norm. -/
theorem C22_dense_norm1 (sq : K → K) (M : DenseMatrix K) (norm : Nat → K) :
    ∃ nrm, (∀ r < M.nRows, IsNorm1 M.nCols (M.entry r) (nrm r)) ∧
      Holds M.nRows nrm norm (M.getRowNorm sq norm 1).2 ∧ (M.getRowNorm sq norm 1).1 = SUCCESSFUL_RETURN := by
  refine ⟨fun r => ∑ i ∈ range M.nCols, |M.entry r i|, fun r _ => rfl, ?_, rfl⟩
  refine Holds.congr (holds_loop _ _ _) fun i _ => ?_
  simp only [getNorm, sumTo_eq]
  rfl

/-- Summing a function of the stored values of one major index. -/
theorem sum_stored_map {nMaj nMin size : Nat} {ptr idx : Nat → Nat} (W : CompWf nMaj nMin size ptr idx) (val : Nat → K)
    {m : Nat} (hm : m < nMaj) (f : K → K) (f0 : f 0 = 0) :
    ∑ i ∈ Ico (ptr m) (ptr (m+1)), f (val i) = ∑ n ∈ range nMin, f (compEntry ptr idx val m n) := by
  unfold compEntry
  rw [sum_congr rfl fun n _ => (entry_map (W.incOn hm) n val f f0).symm, sum_comm]
  refine sum_congr rfl fun i hi => ?_
  rw [mem_Ico] at hi
  rw [sum_eq_single (idx i)]
  · rw [if_pos rfl]
  · intro n _ hne; rw [if_neg (fun e => hne e.symm)]
  · intro hn; exact absurd (mem_range.2 (W.rng m hm i hi.1 hi.2)) hn

/-- **C22**, compressed rows. -/
theorem C22_rows_norm2 {sq : K → K} (hsq : IsSqrt sq) (M : SparseMatrixRow K) (W : M.Wf) (norm : Nat → K) :
    ∃ nrm, (∀ r < M.nRows, IsNorm2 M.nCols (M.entry r) (nrm r)) ∧
      Holds M.nRows nrm norm (M.getRowNorm sq norm 2).2 ∧ (M.getRowNorm sq norm 2).1 = SUCCESSFUL_RETURN := by
  refine ⟨fun r => sq (∑ i ∈ range M.nCols, M.entry r i * M.entry r i), fun r _ => norm2_of hsq _ _, ?_, rfl⟩
  refine Holds.congr (holds_loop _ _ _) fun i hi => ?_
  unfold SparseMatrixRow.getRowNorm1 getNorm
  rw [if_pos rfl, sumTo_eq]
  congr 1
  rw [sum_loopFrom (M.jr i) (M.jr (i+1)) (fun t => M.val t * M.val t)]
  exact sum_stored_map W M.val hi (fun v => v * v) (mul_zero 0)

theorem C22_rows_norm1 (sq : K → K) (M : SparseMatrixRow K) (W : M.Wf) (norm : Nat → K) :
    ∃ nrm, (∀ r < M.nRows, IsNorm1 M.nCols (M.entry r) (nrm r)) ∧
      Holds M.nRows nrm norm (M.getRowNorm sq norm 1).2 ∧ (M.getRowNorm sq norm 1).1 = SUCCESSFUL_RETURN := by
  refine ⟨fun r => ∑ i ∈ range M.nCols, |M.entry r i|, fun r _ => rfl, ?_, rfl⟩
  refine Holds.congr (holds_loop _ _ _) fun i hi => ?_
  unfold SparseMatrixRow.getRowNorm1 getNorm
  rw [if_neg (by decide), if_pos rfl, sumTo_eq]
  rw [sum_loopFrom (M.jr i) (M.jr (i+1)) (fun t => getAbs (M.val t))]
  exact sum_stored_map W M.val hi (fun v => |v|) abs_zero

/-- **C22**, compressed columns, Euclidean norm. -/
theorem C22_columns_norm2 {sq : K → K} (hsq : IsSqrt sq) (M : SparseMatrix K) (W : M.Wf) (norm : Nat → K) :
    ∃ nrm norm', (∀ r < M.nRows, IsNorm2 M.nCols (M.entry r) (nrm r)) ∧
      M.getRowNorm sq norm 2 = .ok (SUCCESSFUL_RETURN, norm') ∧ Holds M.nRows nrm norm norm' := by
  refine ⟨fun r => sq (∑ i ∈ range M.nCols, M.entry r i * M.entry r i), _, fun r _ => norm2_of hsq _ _, rfl, ?_⟩
  obtain ⟨z1, z2⟩ := holds_loop M.nRows (fun _ => (0 : K)) norm
  have A := adds_loop (F := fun j => loopFrom (M.jc j) (M.jc (j+1)) (fun i n => updA n (M.ir i) (n (M.ir i) + M.val i * M.val i)))
    M.nCols fun j _ => adds_loopFrom (M.jc j) (M.jc (j+1)) fun i _ _ => adds_upd (M.ir i) (M.val i * M.val i)
  have hn1 : ∀ r < M.nRows, loop (fun j n => loopFrom (M.jc j) (M.jc (j+1))
      (fun i n => updA n (M.ir i) (n (M.ir i) + M.val i * M.val i)) n) M.nCols (loop (fun j n => updA n j 0) M.nRows norm) r =
      ∑ i ∈ range M.nCols, M.entry r i * M.entry r i := by
    intro r hr
    refine (A _ _).trans ?_
    rw [z1 r hr, zero_add]
    refine sum_congr rfl fun j hj => ?_
    have := entry_map (W.incOn (mem_range.1 hj)) r M.val (fun v => v * v) (mul_zero 0)
    refine Eq.trans (sum_congr rfl fun i _ => ?_) this
    by_cases e : r = M.ir i
    · rw [if_pos e, if_pos e.symm]
    · rw [if_neg e, if_neg (fun h => e h.symm)]
  have hn2 : ∀ r, M.nRows ≤ r → loop (fun j n => loopFrom (M.jc j) (M.jc (j+1))
      (fun i n => updA n (M.ir i) (n (M.ir i) + M.val i * M.val i)) n) M.nCols (loop (fun j n => updA n j 0) M.nRows norm) r =
      norm r := by
    intro r hr
    refine (A _ _).trans ?_
    beta_reduce
    rw [z2 r hr, sum_eq_zero, add_zero]
    intro j hj
    apply sum_eq_zero
    intro i hi
    rw [mem_Ico] at hi
    have := W.rng j (mem_range.1 hj) i hi.1 hi.2
    rw [if_neg (by omega)]
  obtain ⟨w1, w2⟩ := loop_write M.nRows (fun i => i) (fun _ v => sq v) (fun _ _ _ _ e => e)
    (loop (fun j n => loopFrom (M.jc j) (M.jc (j+1))
      (fun i n => updA n (M.ir i) (n (M.ir i) + M.val i * M.val i)) n) M.nCols (loop (fun j n => updA n j 0) M.nRows norm))
  refine ⟨fun r hr => (w1 r hr).trans ?_, fun r hr => ?_⟩
  · show sq _ = sq _
    rw [hn1 r hr]
  · rw [← hn2 r hr]
    exact w2 r fun i hi => by omega

/-- **C22** single rows of compressed columns, both norms (this variant has no defect). -/
theorem C22_columns_single {sq : K → K} (hsq : IsSqrt sq) (M : SparseMatrix K) (W : M.Wf) (r : Nat) :
    IsNorm2 M.nCols (M.entry r) (M.getRowNorm1 sq r 2) ∧ IsNorm1 M.nCols (M.entry r) (M.getRowNorm1 sq r 1) := by
  constructor
  · unfold SparseMatrix.getRowNorm1
    rw [if_pos rfl, sumTo_eq]
    have : ∀ j ∈ range M.nCols, M.find j r (fun v => v * v) = M.entry r j * M.entry r j := fun j hj =>
      find_eq W M.val (mem_range.1 hj) r (fun v => v * v) (mul_zero 0)
    rw [sum_congr rfl this]
    exact norm2_of hsq _ _
  · unfold SparseMatrix.getRowNorm1
    rw [if_neg (by decide), if_pos rfl, sumTo_eq]
    exact sum_congr rfl fun j hj => find_eq W M.val (mem_range.1 hj) r (fun v => getAbs v) abs_zero

/-- **C22 violated**, compressed columns, sum norm: a stray semicolon makes the inner loop empty.  For the
matrix `[[1, 0], [0, 2]]` built from a dense array (size 4, two stored elements) the first row gets norm 0 and
the second gets the value that happens to be stored behind the last element added once. -/
theorem C22_columns_norm1_violated (sq : ℚ → ℚ) :
    let M : SparseMatrix ℚ := .ofDense 2 2 2 (fun i => if i = 0 then 1 else if i = 3 then 2 else 0)
    M.Wf ∧ ∃ norm', M.getRowNorm sq (fun _ => 0) 1 = .ok (SUCCESSFUL_RETURN, norm') ∧
      M.entry 0 0 = 1 ∧ norm' 0 = 0 ∧ ¬ IsNorm1 M.nCols (M.entry 0) (norm' 0) := by
  intro M
  refine ⟨(C16_columns_represents 2 2 2 _).1, ?_⟩
  have h : (match M.getRowNorm sq (fun _ => 0) 1 with
    | .ok (r, n) => decide (r = SUCCESSFUL_RETURN ∧ n 0 = 0) | _ => false) = true := by
    have e : ∀ M : SparseMatrix ℚ, M.getRowNorm sq (fun _ => 0) 1 = M.getRowNorm (fun x => x) (fun _ => 0) 1 := fun M => rfl
    rw [e]
    decide +kernel
  have h00 : M.entry 0 0 = 1 := by decide +kernel
  have h01 : M.entry 0 1 = 0 := by decide +kernel
  revert h
  generalize M.getRowNorm sq (fun _ => 0) 1 = z
  intro h
  match z, h with
  | .ok (r, n), h =>
    obtain ⟨h1, h2⟩ := of_decide_eq_true h
    refine ⟨n, by rw [h1], h00, h2, fun hn => ?_⟩
    have := hn.zero_iff.1 h2 0 (by decide)
    rw [h00] at this
    norm_num at this

/-- **C22 violated**, compressed columns, sum norm: reads behind the arrays for tightly allocated storage. -/
theorem C22_columns_norm1_out_of_bounds (sq : K → K) (M : SparseMatrix K) (h : M.size = M.jc M.nCols)
    (hc : 0 < M.nCols) (norm : Nat → K) : M.getRowNorm sq norm 1 = .ub .outOfBounds := by
  unfold SparseMatrix.getRowNorm
  simp only [show ¬ ((1 : Int) = 2) by decide, if_false, if_true]
  obtain ⟨n, hn⟩ : ∃ n, M.nCols = n + 1 := ⟨M.nCols - 1, by omega⟩
  have key : ∀ k s, (∃ z, loopR (fun j n => do
        let i := max (M.jc j) (M.jc (j+1))
        let r ← rd M.size M.ir i
        let v ← rd M.size M.val i
        Res.ok (updA n r (n r + getAbs v))) k s = .ok z) ∨
      loopR (fun j n => do
        let i := max (M.jc j) (M.jc (j+1))
        let r ← rd M.size M.ir i
        let v ← rd M.size M.val i
        Res.ok (updA n r (n r + getAbs v))) k s = .ub .outOfBounds := by
    intro k s
    induction k with
    | zero => exact Or.inl ⟨_, rfl⟩
    | succ k ih =>
      rw [loopR]
      rcases ih with ⟨z, hz⟩ | hz
      · rw [hz]
        simp only [Res.bind_ok, rd]
        by_cases h1 : max (M.jc k) (M.jc (k+1)) < M.size
        · left
          rw [if_pos h1, if_pos h1]
          exact ⟨_, rfl⟩
        · right
          rw [if_neg h1]; rfl
      · right; rw [hz]; rfl
  rw [hn, loopR]
  rcases key n (loop (fun j n => updA n j 0) M.nRows norm) with ⟨z, hz⟩ | hz
  · rw [hz]
    simp only [Res.bind_ok, rd]
    have : ¬ max (M.jc n) (M.jc (n+1)) < M.size := by
      rw [h, hn]; omega
    rw [if_neg this]; rfl
  · rw [hz]; rfl

/-! ### Non-vacuity -/

/-- The 1×1 matrix `[1]`, tightly allocated. -/
def tailMatrix1 : SparseMatrix ℚ :=
  { nRows := 1, nCols := 1, ir := fun _ => 0, jc := fun j => j, jd := none, val := fun _ => 1, size := 1 }

example : IsNorm2 2 (fun i => if i = 0 then (3 : ℚ) else 4) 5 := by
  refine ⟨by norm_num, ?_⟩
  simp [sum_range_succ]; norm_num

example : tailMatrix1.size = tailMatrix1.jc tailMatrix1.nCols ∧ 0 < tailMatrix1.nCols := by decide

end QpOASES.Props
