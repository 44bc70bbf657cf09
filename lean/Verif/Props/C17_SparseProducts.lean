import Verif.Proofs.Sparse
import Verif.Props.C14_C15_DenseProducts
import Verif.Props.C16_SparseBuild

/-!
# C17 Sparse matrix products agree with dense products

The right-hand sides are the same specification (`IsUpdate`, `mulVec`) as for dense matrices (C14).
-/
namespace QpOASES.Props
open Finset Spec

variable {K : Type} [Field K] [LinearOrder K] [IsStrictOrderedRing K]

theorem sum_entry_mul (ptr idx : Nat → Nat) (val : Nat → K) (m n : Nat) (α b : K) :
    ∑ i ∈ Ico (ptr m) (ptr (m+1)), (if idx i = n then α * (val i * b) else 0) =
      α * (compEntry ptr idx val m n * b) := by
  unfold compEntry
  rw [sum_mul, mul_sum]
  apply sum_congr rfl
  intro i _
  by_cases h : idx i = n <;> simp [h]

/-- Sum over the stored elements of one major index with the minor index as argument of `g`. -/
theorem sum_stored {nMin : Nat} {idx : Nat → Nat} {lo hi : Nat} (hr : ∀ i, lo ≤ i → i < hi → idx i < nMin)
    (val : Nat → K) (g : Nat → K) :
    ∑ i ∈ Ico lo hi, val i * g (idx i) =
      ∑ n ∈ range nMin, (∑ i ∈ Ico lo hi, if idx i = n then val i else 0) * g n := by
  simp only [sum_mul]
  rw [sum_comm]
  apply sum_congr rfl
  intro i hi'
  rw [mem_Ico] at hi'
  rw [sum_eq_single (idx i)]
  · rw [if_pos rfl]
  · intro n _ hne
    rw [if_neg (fun e => hne e.symm), zero_mul]
  · intro hn; exact absurd (mem_range.2 (hr i hi'.1 hi'.2)) hn

/-- **C17**, compressed columns, whole matrix. -/
theorem C17_columns_times (M : SparseMatrix K) (W : M.Wf) (xN : Nat) {α β : K} (x : Nat → K) (xLD : Nat)
    (y : Nat → K) (yLD : Nat) (hα : Coeff α) (hβ : Coeff β) (hy : Fits xN M.nRows yLD) :
    IsUpdate xN M.nRows (fun k j => j + k * yLD) α β
      (fun k => mulVec M.entry M.nCols (fun i => x (i + k * xLD)))
      y (M.timesFull xN α x xLD β y yLD) := by
  refine isUpdate_of_adds hβ (posInj_id hy) (fun _ _ _ _ _ => rfl)
    (F := loop2 xN M.nCols _) (Adds.congr (adds_loop xN fun k _ => adds_loop M.nCols fun j _ =>
      adds_loopFrom _ _ fun i _ _ => adds_accY hα _ _ _) fun q => sum_congr rfl fun k _ => ?_) y
  have h1 : ∀ j ∈ range M.nCols, ∑ i ∈ Ico (M.jc j) (M.jc (j+1)),
      (if q = M.ir i + k * yLD then α * (M.val i * x (j + k * xLD)) else 0) =
      ∑ r ∈ range M.nRows, if q = r + k * yLD then α * (M.entry r j * x (j + k * xLD)) else 0 := by
    intro j hj
    rw [mem_range] at hj
    refine (sum_congr rfl fun i hi => sum_scatter (W.rng j hj i (mem_Ico.1 hi).1 (mem_Ico.1 hi).2) _).trans ?_
    rw [sum_comm]
    apply sum_congr rfl
    intro r _
    by_cases e : q = r + k * yLD
    · simp only [e, if_true]
      exact sum_entry_mul _ _ _ _ _ _ _
    · simp only [e, if_false, sum_const_zero]
  rw [sum_congr rfl h1, sum_comm]
  exact sum_congr rfl fun r _ => sum_ite_const _ _ _ _

/-- **C17**, compressed columns, whole matrix, transposed. -/
theorem C17_columns_transTimes (M : SparseMatrix K) (W : M.Wf) (xN : Nat) {α β : K} (x : Nat → K) (xLD : Nat)
    (y : Nat → K) (yLD : Nat) (hα : Coeff α) (hβ : Coeff β) (hy : Fits xN M.nCols yLD) :
    IsUpdate xN M.nCols (fun k j => j + k * yLD) α β
      (fun k => mulVec (fun i j => M.entry j i) M.nRows (fun i => x (i + k * xLD)))
      y (M.transTimesFull xN α x xLD β y yLD) := by
  refine isUpdate_of_adds hβ (posInj_id hy) (fun _ _ _ _ _ => rfl)
    (F := loop2 xN M.nCols _) (Adds.congr (adds_loop xN fun k _ => adds_loop M.nCols fun j _ =>
      adds_loopFrom _ _ fun i _ _ => adds_accY hα _ _ _) fun q => sum_congr rfl fun k _ => sum_congr rfl fun j hj => ?_) y
  rw [mem_range] at hj
  by_cases e : q = j + k * yLD
  · simp only [e, if_true]
    rw [← mul_sum]
    congr 1
    exact sum_stored (W.rng j hj) M.val (fun n => x (n + k * xLD))
  · simp only [e, if_false, sum_const_zero]

/-- **C17**, compressed rows, whole matrix. -/
theorem C17_rows_times (M : SparseMatrixRow K) (W : M.Wf) (xN : Nat) {α β : K} (x : Nat → K) (xLD : Nat)
    (y : Nat → K) (yLD : Nat) (hα : Coeff α) (hβ : Coeff β) (hy : Fits xN M.nRows yLD) :
    IsUpdate xN M.nRows (fun k j => j + k * yLD) α β
      (fun k => mulVec M.entry M.nCols (fun i => x (i + k * xLD)))
      y (M.timesFull xN α x xLD β y yLD) := by
  refine isUpdate_of_adds hβ (posInj_id hy) (fun _ _ _ _ _ => rfl)
    (F := loop2 xN M.nRows _) (Adds.congr (adds_loop xN fun k _ => adds_loop M.nRows fun j _ =>
      adds_loopFrom _ _ fun i _ _ => adds_accY hα _ _ _) fun q => sum_congr rfl fun k _ => sum_congr rfl fun j hj => ?_) y
  rw [mem_range] at hj
  by_cases e : q = j + k * yLD
  · simp only [e, if_true]
    rw [← mul_sum]
    congr 1
    exact sum_stored (W.rng j hj) M.val (fun n => x (n + k * xLD))
  · simp only [e, if_false, sum_const_zero]

/-- **C17**, compressed rows, whole matrix, transposed. -/
theorem C17_rows_transTimes (M : SparseMatrixRow K) (W : M.Wf) (xN : Nat) {α β : K} (x : Nat → K) (xLD : Nat)
    (y : Nat → K) (yLD : Nat) (hα : Coeff α) (hβ : Coeff β) (hy : Fits xN M.nCols yLD) :
    IsUpdate xN M.nCols (fun k j => j + k * yLD) α β
      (fun k => mulVec (fun i j => M.entry j i) M.nRows (fun i => x (i + k * xLD)))
      y (M.transTimesFull xN α x xLD β y yLD) := by
  refine isUpdate_of_adds hβ (posInj_id hy) (fun _ _ _ _ _ => rfl)
    (F := loop2 xN M.nRows _) (Adds.congr (adds_loop xN fun k _ => adds_loop M.nRows fun j _ =>
      adds_loopFrom _ _ fun i _ _ => adds_accY hα _ _ _) fun q => sum_congr rfl fun k _ => ?_) y
  have h1 : ∀ j ∈ range M.nRows, ∑ i ∈ Ico (M.jr j) (M.jr (j+1)),
      (if q = M.ic i + k * yLD then α * (M.val i * x (j + k * xLD)) else 0) =
      ∑ c ∈ range M.nCols, if q = c + k * yLD then α * (M.entry j c * x (j + k * xLD)) else 0 := by
    intro j hj
    rw [mem_range] at hj
    refine (sum_congr rfl fun i hi => sum_scatter (W.rng j hj i (mem_Ico.1 hi).1 (mem_Ico.1 hi).2) _).trans ?_
    rw [sum_comm]
    apply sum_congr rfl
    intro r _
    by_cases e : q = r + k * yLD
    · simp only [e, if_true]
      exact sum_entry_mul _ _ _ _ _ _ _
    · simp only [e, if_false, sum_const_zero]
  rw [sum_congr rfl h1, sum_comm]
  exact sum_congr rfl fun r _ => sum_ite_const _ _ _ _

/-! ### Products with index lists, compressed columns -/

/-- The entries of the vectors are not mistaken for zero by `isZero` (tolerance 1e-25). -/
def XSharp (xN m xLD : Nat) (x : Nat → K) : Prop := ∀ k < xN, ∀ i < m, |x (k * xLD + i)| ≤ ZERO → x (k * xLD + i) = 0

theorem xmax_ge (f : Nat → K) (n : Nat) : ∀ k < n, |f k| ≤ loop (fun k m => getMax m (getAbs (f k))) n 0 := by
  induction n with
  | zero => intro k hk; omega
  | succ n ih =>
    intro k hk
    rw [loop]
    beta_reduce
    have key : ∀ a b : K, a ≤ getMax a b ∧ b ≤ getMax a b := by
      intro a b
      unfold getMax
      split
      · rename_i h; exact ⟨le_refl _, h.le⟩
      · rename_i h; exact ⟨not_lt.1 h, le_refl _⟩
    by_cases e : k = n
    · subst e; exact (key _ _).2
    · exact (ih k (by omega)).trans (key _ _).1

theorem xmax_nonneg (f : Nat → K) (n : Nat) : 0 ≤ loop (fun k m => getMax m (getAbs (f k))) n 0 := by
  induction n with
  | zero => exact le_refl _
  | succ n ih =>
    rw [loop]
    beta_reduce
    unfold getMax
    split
    · exact ih
    · rename_i h; exact abs_nonneg _

theorem adds_addCol (M : SparseMatrix K) (xN : Nat) (x : Nat → K) (xLD col j : Nat)
    (hx : ∀ k < xN, |x (k * xLD + col)| ≤ ZERO → x (k * xLD + col) = 0) :
    Adds (M.addCol xN x xLD col j) (fun q => ∑ i ∈ Ico (M.jc j) (M.jc (j+1)), ∑ k ∈ range xN,
      if q = k * M.nRows + M.ir i then M.val i * x (k * xLD + col) else 0) := by
  have zero : (∀ k < xN, x (k * xLD + col) = 0) → ∀ q, ∑ i ∈ Ico (M.jc j) (M.jc (j+1)), ∑ k ∈ range xN,
      (if q = k * M.nRows + M.ir i then M.val i * x (k * xLD + col) else 0) = 0 := by
    intro h q
    apply sum_eq_zero
    intro i _
    apply sum_eq_zero
    intro k hk
    rw [h k (mem_range.1 hk), mul_zero, ite_self]
  unfold SparseMatrix.addCol
  by_cases h1 : xN = 1
  · subst h1
    simp only [if_true]
    have hx0 := hx 0 (by omega)
    rw [Nat.zero_mul, Nat.zero_add] at hx0
    by_cases hz : isZero (x col) = true
    · simp only [hz, if_true]
      refine adds_id.congr fun q => (zero (fun k hk => ?_) q).symm
      have : k = 0 := by omega
      subst this
      rw [Nat.zero_mul, Nat.zero_add]
      exact hx0 (isZero_iff.1 hz)
    · simp only [hz]
      refine Adds.congr (adds_loopFrom (M.jc j) (M.jc (j+1)) fun i _ _ => adds_upd (M.ir i) (M.val i * x col)) fun q =>
        sum_congr rfl fun i _ => ?_
      simp
  · simp only [h1, if_false]
    by_cases hz : isZero (loop (fun k m => getMax m (getAbs (x (k * xLD + col)))) xN 0) = true
    · simp only [hz, if_true]
      refine adds_id.congr fun q => (zero (fun k hk => hx k hk ?_) q).symm
      have h2 := isZero_iff.1 hz
      have h3 := xmax_ge (fun k => x (k * xLD + col)) xN k hk
      exact h3.trans ((le_abs_self _).trans h2)
    · simp only [hz]
      exact adds_loopFrom (M.jc j) (M.jc (j+1)) fun i _ _ => adds_loop xN fun k _ =>
        adds_upd (k * M.nRows + M.ir i) (M.val i * x (k * xLD + col))

/-- `accumulate` computes `A·x` for the selected columns. -/
theorem accumulate_spec (M : SparseMatrix K) (W : M.Wf) {icols : Option Ix} (hc : ∀ ic ∈ icols, ic.Wf M.nCols)
    (xN : Nat) (x : Nat → K) (xLD : Nat) (hx : XSharp xN (colCount M.nCols icols) xLD x)
    (hfree : icols = none → xN = 1 ∨ M.nCols ≤ 1) :
    ∃ t, M.accumulate icols xN x xLD = .ok t ∧ ∀ k < xN, ∀ r < M.nRows,
      t (r + k * M.nRows) = mulVec (fun r i => M.entry r (colOf icols i)) (colCount M.nCols icols)
        (fun i => x (k * xLD + i)) r := by
  have pick : ∀ (j : Nat), j < M.nCols → ∀ col : Nat, ∀ k < xN, ∀ r < M.nRows,
      ∑ i ∈ Ico (M.jc j) (M.jc (j+1)), ∑ k' ∈ range xN,
        (if r + k * M.nRows = k' * M.nRows + M.ir i then M.val i * x (k' * xLD + col) else 0) =
      M.entry r j * x (k * xLD + col) := by
    intro j hj col k hk r hr
    unfold SparseMatrix.entry compEntry
    rw [sum_mul]
    apply sum_congr rfl
    intro i hi
    rw [mem_Ico] at hi
    have hir := W.rng j hj i hi.1 hi.2
    rw [sum_eq_single k]
    · by_cases e : M.ir i = r
      · rw [if_pos (by omega), if_pos e]
      · rw [if_neg (by omega), if_neg e, zero_mul]
    · intro k' _ hne
      rw [if_neg]
      intro e
      exact hne (mulAdd_inj hir hr (show k' * M.nRows + M.ir i = k * M.nRows + r by omega)).1
    · intro hn; exact absurd (mem_range.2 hk) hn
  cases icols with
  | some ic =>
    have hw := hc ic rfl
    refine ⟨_, rfl, fun k hk r hr => ?_⟩
    have A := adds_loop (F := fun l t => M.addCol xN x xLD (ic.iSort l) (ic.number (ic.iSort l)) t) ic.len
      (fun l hl => adds_addCol M xN x xLD _ _ fun k hk => hx k hk _ (hw.rng l hl)) (fun _ => 0) (r + k * M.nRows)
    beta_reduce at A
    refine A.trans ?_
    rw [zero_add]
    refine (hw.sum_sort (fun l => ∑ i ∈ Ico (M.jc (ic.number l)) (M.jc (ic.number l+1)), ∑ k' ∈ range xN,
        (if r + k * M.nRows = k' * M.nRows + M.ir i then M.val i * x (k' * xLD + l) else 0))).trans ?_
    exact sum_congr rfl fun l hl => pick _ (hw.num l (mem_range.1 hl)) l k hk r hr
  | none =>
    have e : M.accumulate none xN x xLD = .ok (loop (fun col t => M.addCol xN x xLD col col t) M.nCols (fun _ => 0)) := by
      unfold SparseMatrix.accumulate
      by_cases h1 : xN = 1
      · simp only [h1, if_true]
      · rcases hfree rfl with h | h
        · exact absurd h h1
        · simp only [h1, if_false, h, if_true]
    refine ⟨_, e, fun k hk r hr => ?_⟩
    have A := adds_loop (F := fun l t => M.addCol xN x xLD l l t) M.nCols
      (fun l hl => adds_addCol M xN x xLD _ _ fun k hk => hx k hk _ hl) (fun _ => 0) (r + k * M.nRows)
    beta_reduce at A
    refine A.trans ?_
    rw [zero_add]
    exact sum_congr rfl fun l hl => pick _ (mem_range.1 hl) l k hk r hr

theorem isEqual0 {α : K} (hα : Coeff α) : isEqual α 0 = true ↔ α = 0 := by
  rw [isEqual_iff, sub_zero, ← isZero_iff]; exact hα.isZero

theorem isUpdate_write {α β : K} {n m : Nat} {pos : Nat → Nat → Nat} (inj : PosInj n m pos) {P : Nat → Nat → K}
    {g : Nat → Nat → K → K} (hg : ∀ k < n, ∀ j < m, ∀ v, g k j v = α * P k j + β * v) (y : Nat → K) :
    IsUpdate n m pos α β P y (loop2 n m (fun k j y => updA y (pos k j) (g k j (y (pos k j)))) y) := by
  obtain ⟨h1, h2⟩ := loop2_write n m pos g inj y
  exact ⟨fun k hk j hj => by rw [h1 k hk j hj, hg k hk j hj], h2⟩

/-- **C17**, compressed columns, submatrix, compressed result.  The only excluded case is several vectors
without a column list, see `C17_columns_double_free`. -/
theorem C17_columns_times_compressed (M : SparseMatrix K) (W : M.Wf) {irows : Ix} {icols : Option Ix}
    (hr : irows.Wf M.nRows) (hc : ∀ ic ∈ icols, ic.Wf M.nCols) (xN : Nat) {α β : K} (x : Nat → K) (xLD : Nat)
    (y : Nat → K) (yLD : Nat) (hα : Coeff α) (hβ : Coeff β) (hx : XSharp xN (colCount M.nCols icols) xLD x)
    (hy : Fits xN irows.len yLD) (hfree : icols = none → xN = 1 ∨ M.nCols ≤ 1) :
    ∃ y', M.times irows icols xN α x xLD β y yLD true = .ok y' ∧
      IsUpdate xN irows.len (fun k j => j + k * yLD) α β
        (fun k => mulVec (fun j i => M.entry (irows.number j) (colOf icols i)) (colCount M.nCols icols)
          (fun i => x (k * xLD + i))) y y' := by
  unfold SparseMatrix.times
  by_cases h0 : isEqual α 0 = true
  · have e := (isEqual0 hα).1 h0
    simp only [h0, if_true]
    refine ⟨_, rfl, ?_⟩
    obtain ⟨h1, h2⟩ := scaleY_spec hβ (posInj_id hy) (fun _ _ _ _ _ => rfl) y
    exact ⟨fun k hk j hj => by rw [h1 k hk j hj, e, zero_mul, zero_add], h2⟩
  · simp only [h0]
    obtain ⟨t, et, ht⟩ := accumulate_spec M W hc xN x xLD hx hfree
    rw [et]
    refine ⟨_, rfl, ?_⟩
    have hP : ∀ k < xN, ∀ j < irows.len, t (irows.number j + k * M.nRows) =
        mulVec (fun j i => M.entry (irows.number j) (colOf icols i)) (colCount M.nCols icols)
          (fun i => x (k * xLD + i)) j := fun k hk j hj => ht k hk _ (hr.num j hj)
    have inj := posInj_id hy
    simp only [if_true]
    by_cases b0 : isZero β = true
    · simp only [b0, if_true]
      exact isUpdate_write inj (g := fun k j _ => α * t (irows.number j + k * M.nRows)) (fun k hk j hj v => by rw [hP k hk j hj, hβ.isZero.1 b0, zero_mul, add_zero]) y
    · simp only [b0]
      by_cases b1 : isEqual β 1 = true
      · simp only [b1, if_true]
        exact isUpdate_write inj (g := fun k j v => v + α * t (irows.number j + k * M.nRows)) (fun k hk j hj v => by rw [hP k hk j hj, hβ.isOne.1 b1, one_mul, add_comm]) y
      · simp only [b1]
        by_cases b2 : isEqual β (-1) = true
        · simp only [b2, if_true]
          exact isUpdate_write inj (g := fun k j v => α * t (irows.number j + k * M.nRows) - v) (fun k hk j hj v => by rw [hP k hk j hj, hβ.isNegOne.1 b2, neg_one_mul, sub_eq_add_neg]) y
        · simp only [b2]
          exact isUpdate_write inj (g := fun k j v => α * t (irows.number j + k * M.nRows) + β * v) (fun k hk j hj v => by rw [hP k hk j hj]) y

/-- **C17**, compressed columns, submatrix, uncompressed result with `β = 0` (the only use in the library).
Missing part: `β ≠ 0`, see `C17_columns_uncompressed_violated`. -/
theorem C17_columns_times_uncompressed_partial (M : SparseMatrix K) (W : M.Wf) {irows : Ix} {icols : Option Ix}
    (hr : irows.Wf M.nRows) (hc : ∀ ic ∈ icols, ic.Wf M.nCols) (xN : Nat) {α : K} (x : Nat → K) (xLD : Nat)
    (y : Nat → K) (yLD : Nat) (hα : Coeff α) (hx : XSharp xN (colCount M.nCols icols) xLD x)
    (hy : Fits xN M.nRows yLD) (hfree : icols = none → xN = 1 ∨ M.nCols ≤ 1) :
    ∃ y', M.times irows icols xN α x xLD 0 y yLD false = .ok y' ∧
      IsUpdate xN irows.len (fun k j => irows.number j + k * yLD) α 0
        (fun k => mulVec (fun j i => M.entry (irows.number j) (colOf icols i)) (colCount M.nCols icols)
          (fun i => x (k * xLD + i))) y y' := by
  have hβ : Coeff (0 : K) := ⟨fun _ => rfl, fun h => by
      rw [zero_sub, abs_neg, abs_one] at h
      have : (ZERO : K) < 1 := by unfold ZERO; rw [div_lt_one (by positivity)]; norm_num
      linarith, fun h => by
      rw [zero_add, abs_one] at h
      have : (ZERO : K) < 1 := by unfold ZERO; rw [div_lt_one (by positivity)]; norm_num
      linarith⟩
  have inj : PosInj xN irows.len (fun k j => irows.number j + k * yLD) :=
    posInj_of irows.number M.nRows hr.num hr.ninj hy
  unfold SparseMatrix.times
  by_cases h0 : isEqual α 0 = true
  · have e := (isEqual0 hα).1 h0
    simp only [h0, if_true]
    refine ⟨_, rfl, ?_⟩
    obtain ⟨h1, h2⟩ := scaleY_spec hβ inj (neg := fun k j => irows.number j + k * yLD) (fun _ _ _ _ _ => rfl) y
    simp only [Bool.false_eq_true, if_false]
    exact ⟨fun k hk j hj => by rw [h1 k hk j hj, e]; simp only [zero_mul, add_zero], h2⟩
  · simp only [h0]
    obtain ⟨t, et, ht⟩ := accumulate_spec M W hc xN x xLD hx hfree
    rw [et]
    refine ⟨_, rfl, ?_⟩
    simp only [Bool.false_eq_true, if_false]
    have b0 : isZero (0 : K) = true := hβ.isZero.2 rfl
    simp only [b0, if_true]
    exact isUpdate_write inj (g := fun k j _ => α * t (irows.number j + k * M.nRows))
      (fun k hk j hj v => by rw [ht k hk _ (hr.num j hj), zero_mul, add_zero]; rfl) y

theorem loop_place {ix : Ix} {b : Nat} (h : ix.Wf b) (f : Nat → K) (t : Nat → K) :
    (∀ i < ix.len, loop (fun i t => updA t (ix.number i) (f i)) ix.len t (ix.number i) = f i) ∧
    (∀ q, (∀ i < ix.len, q ≠ ix.number i) → loop (fun i t => updA t (ix.number i) (f i)) ix.len t q = t q) :=
  loop_write ix.len ix.number (fun i _ => f i) h.ninj t

/-- **C17**, compressed columns, submatrix, transposed. -/
theorem C17_columns_transTimes_lists (M : SparseMatrix K) (W : M.Wf) {irows icols : Ix} (hr : irows.Wf M.nRows)
    (hc : icols.Wf M.nCols) (xN : Nat) {α β : K} (x : Nat → K) (xLD : Nat) (y : Nat → K) (yLD : Nat)
    (hα : Coeff α) (hβ : Coeff β) (hy : Fits xN icols.len yLD) :
    IsUpdate xN icols.len (fun k i => i + k * yLD) α β
      (fun k => mulVec (fun i j => M.entry (irows.number j) (icols.number i)) irows.len
        (fun j => x (k * xLD + j)))
      y (M.transTimes irows icols xN α x xLD β y yLD) := by
  unfold SparseMatrix.transTimes
  by_cases h0 : isEqual α 0 = true
  · have e := (isEqual0 hα).1 h0
    simp only [h0, if_true]
    obtain ⟨h1, h2⟩ := scaleY_spec hβ (posInj_id hy) (fun _ _ _ _ _ => rfl) y
    exact ⟨fun k hk j hj => by rw [h1 k hk j hj, e, zero_mul, zero_add], h2⟩
  · simp only [h0]
    refine isUpdate_of_adds hβ (posInj_id hy) (fun _ _ _ _ _ => rfl) (F := loop _ xN)
      (Adds.congr (adds_loop xN fun k _ => adds_loop icols.len fun l _ => adds_upd _ _)
        fun q => sum_congr rfl fun k _ => ?_) y
    rw [← hc.sum_sort (fun i => if q = i + k * yLD then α * mulVec _ _ _ i else 0)]
    refine sum_congr rfl fun l hl => ?_
    rw [mem_range] at hl
    congr 2
    have hcol := hc.num _ (hc.rng l hl)
    rw [loopFrom_sum, zero_add]
    refine (sum_stored (W.rng _ hcol) M.val _).trans ?_
    obtain ⟨p1, p2⟩ := loop_place hr (fun i => x (k * xLD + i)) (fun _ => 0)
    unfold mulVec
    -- rows that are not selected contribute nothing
    have himg : (Finset.image irows.number (range irows.len)) ⊆ range M.nRows := by
      intro r hr'
      rw [mem_image] at hr'
      obtain ⟨i, hi, rfl⟩ := hr'
      exact mem_range.2 (hr.num i (mem_range.1 hi))
    rw [← sum_subset himg, sum_image]
    · exact sum_congr rfl fun i hi => by rw [p1 i (mem_range.1 hi)]; rfl
    · intro i hi j hj e
      exact hr.ninj i (mem_range.1 hi) j (mem_range.1 hj) e
    · intro r _ hn
      rw [p2 r, mul_zero]
      intro i hi e
      exact hn (mem_image.2 ⟨i, mem_range.2 hi, e.symm⟩)

/-! ### Products with index lists, compressed rows -/

/-- Contribution of one row. -/
theorem row_merge_sum (M : SparseMatrixRow K) {ic : Ix} (hc : ic.Wf M.nCols) {row : Nat}
    (g : Nat → K) :
    ∑ a ∈ Ico (M.jr row) (M.jr (row+1)), ∑ b ∈ Ico 0 ic.len,
      (if M.ic a = ic.number (ic.iSort b) then M.val a * g (ic.iSort b) else 0) =
    ∑ i ∈ range ic.len, M.entry row (ic.number i) * g i := by
  rw [sum_comm, ← hc.sum_sort (fun i => M.entry row (ic.number i) * g i), Nat.Ico_zero_eq_range]
  apply sum_congr rfl
  intro b _
  unfold SparseMatrixRow.entry compEntry
  rw [sum_mul]
  exact sum_congr rfl fun a _ => by split <;> simp

/-- **C17**, compressed rows, submatrix, compressed result. -/
theorem C17_rows_times_compressed (M : SparseMatrixRow K) (W : M.Wf) {irows : Ix} {icols : Option Ix}
    (hr : irows.Wf M.nRows) (hc : ∀ ic ∈ icols, ic.Wf M.nCols) (xN : Nat) {α β : K} (x : Nat → K) (xLD : Nat)
    (y : Nat → K) (yLD : Nat) (hα : Coeff α) (hβ : Coeff β) (hy : Fits xN irows.len yLD) :
    ∃ y', M.times irows icols xN α x xLD β y yLD true = .ok y' ∧
      IsUpdate xN irows.len (fun k j => j + k * yLD) α β
        (fun k => mulVec (fun j i => M.entry (irows.number j) (colOf icols i)) (colCount M.nCols icols)
          (fun i => x (k * xLD + i))) y y' := by
  unfold SparseMatrixRow.times
  simp only [if_true]
  cases icols with
  | none =>
    refine ⟨_, rfl, ?_⟩
    refine isUpdate_of_adds hβ (posInj_id hy) (fun _ _ _ _ _ => rfl) (F := loop _ irows.len)
      (Adds.congr (adds_loop irows.len fun l _ => adds_loopFrom _ _ fun j _ _ => adds_loop xN fun k _ =>
        adds_accY hα _ _ _) fun q => ?_) y
    have h1 : ∀ l ∈ range irows.len, ∑ j ∈ Ico (M.jr (irows.number (irows.iSort l))) (M.jr (irows.number (irows.iSort l)+1)),
        ∑ k ∈ range xN, (if q = k * yLD + irows.iSort l then α * (M.val j * x (k * xLD + M.ic j)) else 0) =
        ∑ k ∈ range xN, if q = irows.iSort l + k * yLD then
          α * mulVec (fun j i => M.entry (irows.number j) i) M.nCols (fun i => x (k * xLD + i)) (irows.iSort l) else 0 := by
      intro l hl
      rw [mem_range] at hl
      rw [sum_comm]
      apply sum_congr rfl
      intro k _
      rw [Nat.add_comm (k * yLD)]
      by_cases e : q = irows.iSort l + k * yLD
      · simp only [e, if_true]
        rw [← mul_sum]
        congr 1
        exact sum_stored (W.rng _ (hr.num _ (hr.rng l hl))) M.val (fun n => x (k * xLD + n))
      · simp only [e, if_false, sum_const_zero]
    rw [sum_congr rfl h1, sum_comm]
    refine sum_congr rfl fun k _ => ?_
    exact hr.sum_sort (fun j => if q = j + k * yLD then
      α * mulVec (fun j i => M.entry (irows.number j) i) M.nCols (fun i => x (k * xLD + i)) j else 0)
  | some ic =>
    have hw := hc ic rfl
    obtain ⟨y', e, hq⟩ := loopR_adds (f := fun l y => do
        let (_, y) ← mergeLoop M.ic (M.jr (irows.number (irows.iSort l)+1)) (fun i => ic.number (ic.iSort i)) ic.len
          (fun j i y => loop (fun k y => accY α y (k * yLD + irows.iSort l) (M.val j) (x (k * xLD + ic.iSort i))) xN y)
          (fun _ y => y) ((M.jr (irows.number (irows.iSort l)+1) - M.jr (irows.number (irows.iSort l))) + ic.len + 1)
          (M.jr (irows.number (irows.iSort l))) 0 y
        .ok y)
      (d := fun l q => ∑ a ∈ Ico (M.jr (irows.number (irows.iSort l))) (M.jr (irows.number (irows.iSort l)+1)),
        ∑ b ∈ Ico 0 ic.len, if M.ic a = ic.number (ic.iSort b) then
          (∑ k ∈ range xN, if q = k * yLD + irows.iSort l then α * (M.val a * x (k * xLD + ic.iSort b)) else 0) else 0)
      irows.len (fun l hl y => by
        obtain ⟨j', y', e, h⟩ := merge_adds (idx := M.ic) (hi := M.jr (irows.number (irows.iSort l)+1))
          (num := fun i => ic.number (ic.iSort i)) (len := ic.len)
          (onEq := fun j i y => loop (fun k y => accY α y (k * yLD + irows.iSort l) (M.val j) (x (k * xLD + ic.iSort i))) xN y)
          ((M.jr (irows.number (irows.iSort l)+1) - M.jr (irows.number (irows.iSort l))) + ic.len + 1)
          (M.jr (irows.number (irows.iSort l))) 0 (by omega) (W.incOn (hr.num _ (hr.rng l hl))) (incOn_sorted hw)
          (fun a b _ _ _ => adds_loop xN fun k _ => adds_accY hα _ _ _) y
        refine ⟨y', ?_, h⟩
        simp only [e, Res.bind_ok]) (scaleY β xN irows.len (fun k j => j + k * yLD) (fun k j => j + k * yLD) y)
    refine ⟨y', e, ?_⟩
    have key : ∀ q, ∑ l ∈ range irows.len, ∑ a ∈ Ico (M.jr (irows.number (irows.iSort l))) (M.jr (irows.number (irows.iSort l)+1)),
        ∑ b ∈ Ico 0 ic.len, (if M.ic a = ic.number (ic.iSort b) then
          (∑ k ∈ range xN, if q = k * yLD + irows.iSort l then α * (M.val a * x (k * xLD + ic.iSort b)) else 0) else 0) =
        ∑ k ∈ range xN, ∑ j ∈ range irows.len, if q = j + k * yLD then
          α * mulVec (fun j i => M.entry (irows.number j) (ic.number i)) ic.len (fun i => x (k * xLD + i)) j else 0 := by
      intro q
      rw [sum_comm (s := range xN), ← hr.sum_sort (fun j => ∑ k ∈ range xN, if q = j + k * yLD then
          α * mulVec (fun j i => M.entry (irows.number j) (ic.number i)) ic.len (fun i => x (k * xLD + i)) j else 0)]
      apply sum_congr rfl
      intro l hl
      have : ∀ a b, (if M.ic a = ic.number (ic.iSort b) then
          (∑ k ∈ range xN, if q = k * yLD + irows.iSort l then α * (M.val a * x (k * xLD + ic.iSort b)) else 0) else 0) =
          ∑ k ∈ range xN, if q = irows.iSort l + k * yLD then α * (if M.ic a = ic.number (ic.iSort b) then
            M.val a * x (k * xLD + ic.iSort b) else 0) else 0 := by
        intro a b
        split
        · simp only [Nat.add_comm (_ * yLD)]
        · simp
      simp only [this]
      rw [sum_congr rfl fun a _ => sum_comm, sum_comm]
      apply sum_congr rfl
      intro k _
      by_cases e2 : q = irows.iSort l + k * yLD
      · simp only [e2, if_true, ← mul_sum]
        congr 1
        exact row_merge_sum M hw (fun i => x (k * xLD + i))
      · simp only [e2, if_false, sum_const_zero]
    have := isUpdate_of_adds (α := α) hβ (posInj_id hy) (neg := fun k j => j + k * yLD) (fun _ _ _ _ _ => rfl)
      (P := fun k => mulVec (fun j i => M.entry (irows.number j) (ic.number i)) ic.len (fun i => x (k * xLD + i)))
      (F := fun z q => z q + ∑ k ∈ range xN, ∑ j ∈ range irows.len, if q = j + k * yLD then
          α * mulVec (fun j i => M.entry (irows.number j) (ic.number i)) ic.len (fun i => x (k * xLD + i)) j else 0)
      (fun z q => rfl) y
    have ey : y' = fun q => scaleY β xN irows.len (fun k j => j + k * yLD) (fun k j => j + k * yLD) y q +
        ∑ k ∈ range xN, ∑ j ∈ range irows.len, if q = j + k * yLD then
          α * mulVec (fun j i => M.entry (irows.number j) (ic.number i)) ic.len (fun i => x (k * xLD + i)) j else 0 := by
      funext q; rw [hq q, key q]
    rw [ey]
    exact this

/-- **C17**, compressed rows, selected rows of the whole width, uncompressed result, `β ≠ -1`.  Missing parts:
`β = -1` and column lists, see `C17_rows_uncompressed_violated`. -/
theorem C17_rows_times_uncompressed_partial (M : SparseMatrixRow K) (W : M.Wf) {irows : Ix}
    (hr : irows.Wf M.nRows) (xN : Nat) {α β : K} (x : Nat → K) (xLD : Nat)
    (y : Nat → K) (yLD : Nat) (hα : Coeff α) (hβ : Coeff β) (hβ1 : β ≠ -1) (hy : Fits xN M.nRows yLD) :
    ∃ y', M.times irows none xN α x xLD β y yLD false = .ok y' ∧
      IsUpdate xN irows.len (fun k j => irows.number j + k * yLD) α β
        (fun k => mulVec (fun j i => M.entry (irows.number j) i) M.nCols
          (fun i => x (k * xLD + i))) y y' := by
  unfold SparseMatrixRow.times
  simp only [Bool.false_eq_true, if_false]
  refine ⟨_, rfl, ?_⟩
  refine isUpdate_of_adds hβ (posInj_of irows.number M.nRows hr.num hr.ninj hy) (fun e => absurd e hβ1) (F := loop _ irows.len)
    (Adds.congr (adds_loop irows.len fun l _ => adds_loopFrom _ _ fun j _ _ => adds_loop xN fun k _ =>
      adds_accY hα _ _ _) fun q => ?_) y
  have h1 : ∀ l ∈ range irows.len, ∑ j ∈ Ico (M.jr (irows.number (irows.iSort l))) (M.jr (irows.number (irows.iSort l)+1)),
      ∑ k ∈ range xN, (if q = k * yLD + irows.number (irows.iSort l) then α * (M.val j * x (k * xLD + M.ic j)) else 0) =
      ∑ k ∈ range xN, if q = irows.number (irows.iSort l) + k * yLD then
        α * mulVec (fun j i => M.entry (irows.number j) i) M.nCols (fun i => x (k * xLD + i)) (irows.iSort l) else 0 := by
    intro l hl
    rw [mem_range] at hl
    rw [sum_comm]
    apply sum_congr rfl
    intro k _
    rw [Nat.add_comm (k * yLD)]
    by_cases e : q = irows.number (irows.iSort l) + k * yLD
    · simp only [e, if_true]
      rw [← mul_sum]
      congr 1
      exact sum_stored (W.rng _ (hr.num _ (hr.rng l hl))) M.val (fun n => x (k * xLD + n))
    · simp only [e, if_false, sum_const_zero]
  rw [sum_congr rfl h1, sum_comm]
  refine sum_congr rfl fun k _ => ?_
  exact hr.sum_sort (fun j => if q = irows.number j + k * yLD then
    α * mulVec (fun j i => M.entry (irows.number j) i) M.nCols (fun i => x (k * xLD + i)) j else 0)

/-- **C17**, compressed rows, submatrix, transposed. -/
theorem C17_rows_transTimes_lists (M : SparseMatrixRow K) (W : M.Wf) {irows icols : Ix} (hr : irows.Wf M.nRows)
    (hc : icols.Wf M.nCols) (xN : Nat) {α β : K} (x : Nat → K) (xLD : Nat) (y : Nat → K) (yLD : Nat)
    (hα : Coeff α) (hβ : Coeff β) (hy : Fits xN icols.len yLD) :
    ∃ y', M.transTimes irows icols xN α x xLD β y yLD = .ok y' ∧
    IsUpdate xN icols.len (fun k i => i + k * yLD) α β
      (fun k => mulVec (fun i j => M.entry (irows.number j) (icols.number i)) irows.len
        (fun j => x (k * xLD + j))) y y' := by
  unfold SparseMatrixRow.transTimes
  obtain ⟨y', e, hq⟩ := loopR_adds (f := fun l y => do
        let (_, y) ← mergeLoop M.ic (M.jr (irows.number (irows.iSort l)+1)) (fun i => icols.number (icols.iSort i)) icols.len
          (fun j i y => loop (fun k y => accY α y (k * yLD + icols.iSort i) (M.val j) (x (k * xLD + irows.iSort l))) xN y)
          (fun _ y => y) ((M.jr (irows.number (irows.iSort l)+1) - M.jr (irows.number (irows.iSort l))) + icols.len + 1)
          (M.jr (irows.number (irows.iSort l))) 0 y
        .ok y)
      (d := fun l q => ∑ a ∈ Ico (M.jr (irows.number (irows.iSort l))) (M.jr (irows.number (irows.iSort l)+1)),
      ∑ b ∈ Ico 0 icols.len, if M.ic a = icols.number (icols.iSort b) then
        (∑ k ∈ range xN, if q = k * yLD + icols.iSort b then α * (M.val a * x (k * xLD + irows.iSort l)) else 0) else 0)
    irows.len (fun l hl y => by
      obtain ⟨j', y', e, h⟩ := merge_adds (idx := M.ic) (hi := M.jr (irows.number (irows.iSort l)+1))
        (num := fun i => icols.number (icols.iSort i)) (len := icols.len)
        (onEq := fun j i y => loop (fun k y => accY α y (k * yLD + icols.iSort i) (M.val j) (x (k * xLD + irows.iSort l))) xN y)
        ((M.jr (irows.number (irows.iSort l)+1) - M.jr (irows.number (irows.iSort l))) + icols.len + 1)
        (M.jr (irows.number (irows.iSort l))) 0 (by omega) (W.incOn (hr.num _ (hr.rng l hl))) (incOn_sorted hc)
        (fun a b _ _ _ => adds_loop xN fun k _ => adds_accY hα _ _ _) y
      refine ⟨y', ?_, h⟩
      simp only [e, Res.bind_ok]) (scaleY β xN icols.len (fun k j => j + k * yLD) (fun k j => j + k * yLD) y)
  refine ⟨y', e, ?_⟩
  have key : ∀ q, ∑ l ∈ range irows.len, ∑ a ∈ Ico (M.jr (irows.number (irows.iSort l))) (M.jr (irows.number (irows.iSort l)+1)),
      ∑ b ∈ Ico 0 icols.len, (if M.ic a = icols.number (icols.iSort b) then
        (∑ k ∈ range xN, if q = k * yLD + icols.iSort b then α * (M.val a * x (k * xLD + irows.iSort l)) else 0) else 0) =
      ∑ k ∈ range xN, ∑ i ∈ range icols.len, if q = i + k * yLD then
        α * mulVec (fun i j => M.entry (irows.number j) (icols.number i)) irows.len (fun j => x (k * xLD + j)) i else 0 := by
    intro q
    have h1 : ∀ l ∈ range irows.len, ∑ a ∈ Ico (M.jr (irows.number (irows.iSort l))) (M.jr (irows.number (irows.iSort l)+1)),
        ∑ b ∈ Ico 0 icols.len, (if M.ic a = icols.number (icols.iSort b) then
          (∑ k ∈ range xN, if q = k * yLD + icols.iSort b then α * (M.val a * x (k * xLD + irows.iSort l)) else 0) else 0) =
        ∑ i ∈ range icols.len, ∑ k ∈ range xN, if q = i + k * yLD then
          α * (M.entry (irows.number (irows.iSort l)) (icols.number i) * x (k * xLD + irows.iSort l)) else 0 := by
      intro l _
      rw [← hc.sum_sort (fun i => ∑ k ∈ range xN, if q = i + k * yLD then
          α * (M.entry (irows.number (irows.iSort l)) (icols.number i) * x (k * xLD + irows.iSort l)) else 0),
        Nat.Ico_zero_eq_range, sum_comm]
      apply sum_congr rfl
      intro b _
      have : ∀ a, (if M.ic a = icols.number (icols.iSort b) then
          (∑ k ∈ range xN, if q = k * yLD + icols.iSort b then α * (M.val a * x (k * xLD + irows.iSort l)) else 0) else 0) =
          ∑ k ∈ range xN, if q = icols.iSort b + k * yLD then (if M.ic a = icols.number (icols.iSort b) then
            α * (M.val a * x (k * xLD + irows.iSort l)) else 0) else 0 := by
        intro a
        split
        · simp only [Nat.add_comm (_ * yLD)]
        · simp
      simp only [this]
      rw [sum_comm]
      apply sum_congr rfl
      intro k _
      by_cases e2 : q = icols.iSort b + k * yLD
      · simp only [e2, if_true]
        exact sum_entry_mul _ _ _ _ _ _ _
      · simp only [e2, if_false, sum_const_zero]
    rw [sum_congr rfl h1]
    rw [hr.sum_sort (fun l => ∑ i ∈ range icols.len, ∑ k ∈ range xN, if q = i + k * yLD then
          α * (M.entry (irows.number l) (icols.number i) * x (k * xLD + l)) else 0)]
    rw [sum_comm, sum_congr rfl fun i _ => sum_comm, sum_comm]
    refine sum_congr rfl fun k _ => sum_congr rfl fun i _ => ?_
    exact sum_ite_const _ _ _ _
  have := isUpdate_of_adds (α := α) hβ (posInj_id hy) (neg := fun k j => j + k * yLD) (fun _ _ _ _ _ => rfl)
    (P := fun k => mulVec (fun i j => M.entry (irows.number j) (icols.number i)) irows.len (fun j => x (k * xLD + j)))
    (F := fun z q => z q + ∑ k ∈ range xN, ∑ i ∈ range icols.len, if q = i + k * yLD then
        α * mulVec (fun i j => M.entry (irows.number j) (icols.number i)) irows.len (fun j => x (k * xLD + j)) i else 0)
    (fun z q => rfl) y
  have ey : y' = fun q => scaleY β xN icols.len (fun k j => j + k * yLD) (fun k j => j + k * yLD) y q +
      ∑ k ∈ range xN, ∑ i ∈ range icols.len, if q = i + k * yLD then
        α * mulVec (fun i j => M.entry (irows.number j) (icols.number i)) irows.len (fun j => x (k * xLD + j)) i else 0 := by
    funext q; rw [hq q, key q]
  rw [ey]
  exact this

/-! ### Violations -/

/-- The 2×2 identity in compressed columns / rows. -/
def eyeC : SparseMatrix ℚ := .ofDense 2 2 2 (fun i => if i = 0 then 1 else if i = 3 then 1 else 0)
def eyeR : SparseMatrixRow ℚ := .ofDense 2 2 2 (fun i => if i = 0 then 1 else if i = 3 then 1 else 0)

/-- The list containing only the number 1. -/
def ix1 : Ix := ⟨1, fun _ => 1, fun _ => 0⟩

theorem ix1_wf : ix1.Wf 2 := by
  refine ⟨fun j hj => ?_, fun j hj => ?_, fun i j hij hj => ?_⟩ <;> simp only [ix1] at * <;> omega

/-- **C17 violated**: several vectors without a column list release a temporary array twice. -/
theorem C17_columns_double_free :
    eyeC.times ix1 none 2 1 (fun _ => 1) 2 0 (fun _ => 0) 2 true = .ub .doubleFree := by
  have h : isEqual (1:ℚ) 0 = false := by decide +kernel
  unfold SparseMatrix.times
  rw [h]
  rfl

/-- **C17 violated**: uncompressed result with `β = 1`, row list `[1]`, zero vectors: `y` should not change,
but `y[1]` becomes `y[0]`. -/
theorem C17_columns_uncompressed_violated :
    ∀ y', eyeC.times ix1 none 1 1 (fun _ => 0) 2 1 (fun i => if i = 0 then 5 else 7) 2 false = .ok y' →
    ¬ IsUpdate 1 1 (fun k j => ix1.number j + k * 2) 1 1
      (fun k => mulVec (fun j i => eyeC.entry (ix1.number j) i) 2 (fun _ => (0 : ℚ)))
      (fun i => if i = 0 then 5 else 7) y' := by
  intro y' e h
  have h1 := h.1 0 (by omega) 0 (by omega)
  have h2 : (match eyeC.times ix1 none 1 1 (fun _ => 0) 2 1 (fun i => if i = 0 then 5 else 7) 2 false with
    | .ok y => y 1 | .ub _ => 0) = (5 : ℚ) := by decide +kernel
  rw [e] at h2
  have h3 : y' 1 = 5 := h2
  have h4 : y' 1 = 1 * mulVec (fun j i => eyeC.entry (ix1.number j) i) 2 (fun _ => (0 : ℚ)) 0 + 1 * 7 := h1
  rw [h3] at h4
  simp [mulVec] at h4

/-- **C17 violated** for compressed rows: uncompressed result with row list `[1]` and a column list: the
product is added to `y[0]` instead of `y[1]`. -/
theorem C17_rows_uncompressed_violated :
    ∀ y', eyeR.times ix1 (some ix1) 1 1 (fun _ => 1) 2 0 (fun _ => 0) 2 false = .ok y' →
    ¬ IsUpdate 1 1 (fun k j => ix1.number j + k * 2) 1 0
      (fun k => mulVec (fun j i => eyeR.entry (ix1.number j) (ix1.number i)) 1 (fun _ => (1 : ℚ)))
      (fun _ => 0) y' := by
  intro y' e h
  have h1 := h.2 0 (fun k hk j hj => by simp only [ix1]; omega)
  have h2 : (match eyeR.times ix1 (some ix1) 1 1 (fun _ => 1) 2 0 (fun _ => 0) 2 false with
    | .ok y => y 0 | .ub _ => 0) = (1 : ℚ) := by decide +kernel
  rw [e] at h2
  have h3 : y' 0 = 1 := h2
  rw [h3] at h1
  norm_num at h1

/-! ### Non-vacuity -/

example : eyeC.Wf ∧ eyeR.Wf ∧ ix1.Wf 2 ∧ ix10.Wf 2 ∧ Coeff (3 : ℚ) ∧ Fits 2 2 2 ∧
    XSharp 2 2 2 (fun _ => (4 : ℚ)) ∧
    (match eyeC.times ix10 (some ix10) 2 3 (fun _ => 4) 2 3 (fun _ => 1) 2 true with
      | .ok y => y 3 | .ub _ => 0) = 15 :=
  ⟨(C16_columns_represents 2 2 2 _).1, (C16_rows_represents 2 2 2 _).1, ix1_wf, ix10_wf,
   coeff_q _ (by right; right; right; rfl), Or.inr (Nat.le_refl _),
   fun k _ i _ h => by
    have : (ZERO : ℚ) < 4 := by unfold ZERO; norm_num
    rw [abs_of_pos (by norm_num)] at h
    linarith, by decide +kernel⟩

end QpOASES.Props
