import Verif.Props.C18_Access

/-!
C19: adding a multiple of the identity.
-/
namespace QpOASES.Props
open Finset Spec ReturnValue

variable {K : Type} [Field K] [LinearOrder K] [IsStrictOrderedRing K]

/-- `α` was added to the diagonal of an `m × n` matrix. -/
def DiagAdded (m n : Nat) (α : K) (a a' : Nat → Nat → K) : Prop :=
  ∀ r < m, ∀ c < n, a' r c = a r c + if r = c then α else 0

/-- **C19**, dense. -/
theorem C19_dense (M : DenseMatrix K) (hld : M.nCols ≤ M.leaDim) (α : K) :
    (M.addToDiag α).1 = SUCCESSFUL_RETURN ∧ DiagAdded M.nRows M.nCols α M.entry (M.addToDiag α).2.entry := by
  refine ⟨rfl, fun r hr c hc => ?_⟩
  have inj : ∀ i < min M.nRows M.nCols, ∀ j < min M.nRows M.nCols,
      i * (M.leaDim + 1) = j * (M.leaDim + 1) → i = j :=
    fun i _ j _ e => Nat.eq_of_mul_eq_mul_right (by omega) e
  obtain ⟨h1, h2⟩ := loop_write (min M.nRows M.nCols) (fun i => i * (M.leaDim + 1)) (fun _ v => v + α) inj M.val
  show (loop _ _ _ : Nat → K) (r * M.leaDim + c) = M.val (r * M.leaDim + c) + _
  by_cases e : r = c
  · subst e
    have := h1 r (by omega)
    beta_reduce at this
    rw [if_pos rfl]
    rwa [Nat.mul_add, Nat.mul_one] at this
  · rw [if_neg e, add_zero]
    refine h2 _ fun i hi h => ?_
    rw [Nat.mul_add, Nat.mul_one] at h
    obtain ⟨a, b⟩ := mulAdd_inj (n := M.leaDim) (c := c) (c' := i) (by omega) (by omega) h
    omega

/-- The loop if all diagonal entries are stored. -/
theorem addDiagLoop_ok {size : Nat} {idx jd : Nat → Nat} (α : K) : ∀ n i0 (v : Nat → K),
    (∀ i, i0 ≤ i → i < i0 + n → jd i < size ∧ idx (jd i) = i) →
    ∃ v', SparseMatrix.addDiagLoop size idx jd α n i0 v = .ok (SUCCESSFUL_RETURN, v') ∧
      ∀ t, v' t = v t + if i0 ≤ idx t ∧ idx t < i0 + n ∧ t = jd (idx t) then α else 0 := by
  intro n
  induction n with
  | zero =>
    intro i0 v _
    refine ⟨v, rfl, fun t => ?_⟩
    rw [if_neg (by omega), add_zero]
  | succ n ih =>
    intro i0 v h
    obtain ⟨a, b⟩ := h i0 (Nat.le_refl _) (by omega)
    obtain ⟨v', e, hv⟩ := ih (i0+1) (updA v (jd i0) (v (jd i0) + α)) fun i h1 h2 => h i (by omega) (by omega)
    refine ⟨v', ?_, fun t => ?_⟩
    · rw [SparseMatrix.addDiagLoop]
      simp only [rd, if_pos a, Res.bind_ok, b, if_true]
      exact e
    · rw [hv t]
      by_cases ht : t = jd i0
      · subst ht
        rw [updA_same, b, if_neg (by omega), if_pos ⟨Nat.le_refl _, by omega, rfl⟩, add_zero]
      · rw [updA_ne _ _ ht]
        congr 1
        by_cases h3 : i0 + 1 ≤ idx t ∧ idx t < i0 + 1 + n ∧ t = jd (idx t)
        · rw [if_pos h3, if_pos ⟨by omega, by omega, h3.2.2⟩]
        · rw [if_neg h3, if_neg]
          rintro ⟨h4, h5, h6⟩
          refine h3 ⟨?_, by omega, h6⟩
          rcases Nat.eq_or_lt_of_le h4 with h7 | h7
          · rw [← h7] at h6; exact absurd h6 ht
          · exact h7

theorem ptr_unique {nMaj nMin size : Nat} {ptr idx : Nat → Nat} (W : CompWf nMaj nMin size ptr idx) {m m' t : Nat}
    (hm : m < nMaj) (hm' : m' < nMaj) (h1 : ptr m ≤ t) (h2 : t < ptr (m+1)) (h3 : ptr m' ≤ t) (h4 : t < ptr (m'+1)) :
    m = m' := by
  rcases Nat.lt_trichotomy m m' with h | h | h
  · have := W.mono_le (m := m+1) (m' := m') (by omega) (by omega); omega
  · exact h
  · have := W.mono_le (m := m'+1) (m' := m) (by omega) (by omega); omega

/-- Pointers to stored diagonal entries. -/
theorem diagPtr_stored {nMaj nMin size : Nat} {ptr idx jd : Nat → Nat} (W : CompWf nMaj nMin size ptr idx)
    (D : DiagPtr ptr idx nMaj jd) {n : Nat} (hn : n ≤ nMaj) (S : DiagStored ptr idx n) :
    ∀ i < n, ptr i ≤ jd i ∧ jd i < ptr (i+1) ∧ jd i < size ∧ idx (jd i) = i := by
  intro i hi
  obtain ⟨d1, d2, d3, d4⟩ := D i (by omega)
  obtain ⟨t, t1, t2, t3⟩ := S i hi
  have e : t = jd i := by
    rcases Nat.lt_trichotomy t (jd i) with h | h | h
    · have := d3 t t1 h; omega
    · exact h
    · have h1 := d4 (by omega)
      have h2 := W.incOn (show i < nMaj by omega) (jd i) t d1 h t2
      omega
  subst e
  have h1 := W.mono_le (m := i+1) (m' := nMaj) (by omega) (Nat.le_refl _)
  have h2 := W.size
  exact ⟨t1, t2, by omega, t3⟩

/-- Effect on compressed storage whose diagonal is stored. -/
theorem comp_addDiag {nMaj nMin size : Nat} {ptr idx jd : Nat → Nat} (W : CompWf nMaj nMin size ptr idx)
    (D : DiagPtr ptr idx nMaj jd) {n : Nat} (hn : n ≤ nMaj) (S : DiagStored ptr idx n) (α : K) (v : Nat → K) :
    ∃ v', SparseMatrix.addDiagLoop size idx jd α n 0 v = .ok (SUCCESSFUL_RETURN, v') ∧
      ∀ m < nMaj, ∀ r, compEntry ptr idx v' m r = compEntry ptr idx v m r + if r = m ∧ m < n then α else 0 := by
  have P := diagPtr_stored W D hn S
  obtain ⟨v', e, h⟩ := addDiagLoop_ok (size := size) (idx := idx) (jd := jd) α n 0 v fun i _ hi =>
    ⟨(P i (by omega)).2.2.1, (P i (by omega)).2.2.2⟩
  refine ⟨v', e, fun m hm r => ?_⟩
  unfold compEntry
  have h1 : ∀ t ∈ Ico (ptr m) (ptr (m+1)), (if idx t = r then v' t else 0) =
      (if idx t = r then v t else 0) + if idx t = r then (if r = m ∧ m < n then α else 0) else 0 := by
    intro t ht
    rw [mem_Ico] at ht
    by_cases hr : idx t = r
    · rw [if_pos hr, if_pos hr, if_pos hr, h t]
      congr 1
      by_cases hd : r = m ∧ m < n
      · rw [if_pos hd, if_pos]
        obtain ⟨p1, p2, p3, p4⟩ := P m hd.2
        have : t = jd m := (W.incOn hm).inj ht.1 ht.2 p1 p2 (by omega)
        refine ⟨by omega, by omega, ?_⟩
        rw [hr, hd.1]; exact this
      · rw [if_neg hd, if_neg]
        rintro ⟨_, h3, h4⟩
        rw [hr] at h3 h4
        obtain ⟨p1, p2, p3, p4⟩ := P r (by omega)
        rw [← h4] at p1 p2
        have := ptr_unique W hm (by omega) ht.1 ht.2 p1 p2
        exact hd ⟨this.symm, by omega⟩
    · rw [if_neg hr, if_neg hr, if_neg hr, add_zero]
  rw [sum_congr rfl h1, sum_add_distrib]
  congr 1
  by_cases hd : r = m ∧ m < n
  · simp only [hd, and_self, if_true]
    obtain ⟨p1, p2, p3, p4⟩ := P m hd.2
    rw [sum_eq_single (jd m)]
    · rw [if_pos p4]
    · intro t ht hne
      rw [mem_Ico] at ht
      rw [if_neg]
      intro e
      exact hne ((W.incOn hm).inj ht.1 ht.2 p1 p2 (by omega))
    · intro hn'
      exact absurd (mem_Ico.2 ⟨p1, p2⟩) hn'
  · simp only [hd, if_false, ite_self, sum_const_zero]

/-- `|α|` is not in the open interval `(0, ZERO]` that the code treats as zero. -/
def Sharp (α : K) : Prop := |α| ≤ ZERO → α = 0

/-- **C19**, compressed columns, all diagonal entries stored.  Missing: matrices with a diagonal entry that is
not stored, see the three theorems `C19_*_violated`. -/
theorem C19_columns_partial (M : SparseMatrix K) (W : M.Wf) {jd : Nat → Nat} (hjd : M.jd = some jd)
    (D : DiagPtr M.jc M.ir M.nCols jd) (S : DiagStored M.jc M.ir (min M.nRows M.nCols)) {α : K} (hα : Sharp α) :
    ∃ M', M.addToDiag α = .ok (SUCCESSFUL_RETURN, M') ∧ M'.Wf ∧ M'.nRows = M.nRows ∧ M'.nCols = M.nCols ∧
      DiagAdded M.nRows M.nCols α M.entry M'.entry := by
  unfold SparseMatrix.addToDiag
  rw [hjd]
  by_cases h0 : isZero α = true
  · simp only [h0, if_true]
    have := hα (isZero_iff.1 h0)
    exact ⟨M, rfl, W, rfl, rfl, fun r hr c hc => by rw [this, ite_self, add_zero]⟩
  · simp only [h0]
    obtain ⟨v', e, h⟩ := comp_addDiag W D (Nat.min_le_right _ _) S α M.val
    refine ⟨{ M with val := v' }, ?_, W, rfl, rfl, fun r hr c hc => ?_⟩
    · simp only [Bool.false_eq_true, if_false, e, Res.bind_ok, ← hjd]
    · refine (h c hc r).trans ?_
      congr 1
      by_cases e : r = c
      · rw [if_pos ⟨e, by omega⟩, if_pos e]
      · rw [if_neg (fun h => e h.1), if_neg e]

/-- **C19**, compressed rows, all diagonal entries stored. -/
theorem C19_rows_partial (M : SparseMatrixRow K) (W : M.Wf) {jd : Nat → Nat} (hjd : M.jd = some jd)
    (D : DiagPtr M.jr M.ic M.nRows jd) (S : DiagStored M.jr M.ic (min M.nRows M.nCols)) {α : K} (hα : Sharp α) :
    ∃ M', M.addToDiag α = .ok (SUCCESSFUL_RETURN, M') ∧ M'.Wf ∧ M'.nRows = M.nRows ∧ M'.nCols = M.nCols ∧
      DiagAdded M.nRows M.nCols α M.entry M'.entry := by
  unfold SparseMatrixRow.addToDiag
  rw [hjd]
  by_cases h0 : isZero α = true
  · simp only [h0, if_true]
    have := hα (isZero_iff.1 h0)
    exact ⟨M, rfl, W, rfl, rfl, fun r hr c hc => by rw [this, ite_self, add_zero]⟩
  · simp only [h0]
    obtain ⟨v', e, h⟩ := comp_addDiag W D (Nat.min_le_left _ _) S α M.val
    refine ⟨{ M with val := v' }, ?_, W, rfl, rfl, fun r hr c hc => ?_⟩
    · simp only [Bool.false_eq_true, if_false, e, Res.bind_ok, ← hjd]
    · refine (h r hr c).trans ?_
      congr 1
      by_cases e : r = c
      · rw [if_pos ⟨e.symm, by omega⟩, if_pos e]
      · rw [if_neg (fun h => e h.1.symm), if_neg e]

/-- **C19** for every matrix built from a dense array (these constructors store the diagonal). -/
theorem C19_columns_ofDense (nr nc ld : Nat) (v : Nat → K) {α : K} (hα : Sharp α) :
    ∃ M', (SparseMatrix.ofDense nr nc ld v).createDiagInfo.addToDiag α = .ok (SUCCESSFUL_RETURN, M') ∧
      DiagAdded nr nc α (fun r c => v (r * ld + c)) M'.entry := by
  obtain ⟨W, E⟩ := C16_columns_represents nr nc ld v
  obtain ⟨jd, e, D⟩ := C18_columns_createDiagInfo _ W rfl
  rw [e]
  obtain ⟨M', e', _, _, _, A⟩ := C19_columns_partial { SparseMatrix.ofDense nr nc ld v with jd := some jd } W rfl D
    (fun j hj => (C16_columns_pattern nr nc ld v j (lt_of_lt_of_le hj (Nat.min_le_right _ _)) j).2
      ⟨lt_of_lt_of_le hj (Nat.min_le_left _ _), Or.inl rfl⟩) hα
  exact ⟨M', e', fun r hr c hc => (A r hr c hc).trans (congrArg (· + if r = c then α else 0) (E r hr c hc))⟩

theorem C19_rows_ofDense (nr nc ld : Nat) (v : Nat → K) {α : K} (hα : Sharp α) :
    ∃ M', (SparseMatrixRow.ofDense nr nc ld v).createDiagInfo.addToDiag α = .ok (SUCCESSFUL_RETURN, M') ∧
      DiagAdded nr nc α (fun r c => v (r * ld + c)) M'.entry := by
  obtain ⟨W, E⟩ := C16_rows_represents nr nc ld v
  obtain ⟨jd, e, D⟩ := C18_rows_createDiagInfo _ W rfl
  rw [e]
  obtain ⟨M', e', _, _, _, A⟩ := C19_rows_partial { SparseMatrixRow.ofDense nr nc ld v with jd := some jd } W rfl D
    (fun j hj => (C16_rows_pattern nr nc ld v j (lt_of_lt_of_le hj (Nat.min_le_left _ _)) j).2
      ⟨lt_of_lt_of_le hj (Nat.min_le_right _ _), Or.inl rfl⟩) hα
  exact ⟨M', e', fun r hr c hc => (A r hr c hc).trans (congrArg (· + if r = c then α else 0) (E r hr c hc))⟩

/-- Without diagonal information an error is reported and nothing changes. -/
theorem C19_no_diag_info (M : SparseMatrix K) (h : M.jd = none) (α : K) :
    M.addToDiag α = .ok (RET_DIAGONAL_NOT_INITIALISED, M) := by
  unfold SparseMatrix.addToDiag
  rw [h]

/-! ### Violations -/

/-- `diag(1, 0, 1)` with the zero not stored. -/
def gapMatrix : SparseMatrix ℚ :=
  { nRows := 3, nCols := 3, ir := fun t => if t = 0 then 0 else 2
    jc := fun j => if j = 0 then 0 else if j = 1 then 1 else if j = 2 then 1 else 2
    jd := none, val := fun _ => 1, size := 2 }

/-- `diag(1, 0)` with the zero not stored. -/
def tailMatrix : SparseMatrix ℚ :=
  { nRows := 2, nCols := 2, ir := fun _ => 0
    jc := fun j => if j = 0 then 0 else 1
    jd := none, val := fun _ => 1, size := 1 }

/-- `[[0, 1], [0, 1]]`, nothing stored in column 0. -/
def wrongMatrix : SparseMatrix ℚ :=
  { nRows := 2, nCols := 2, ir := fun t => t
    jc := fun j => if j = 2 then 2 else 0
    jd := none, val := fun _ => 1, size := 2 }

theorem wf_witnesses : gapMatrix.Wf ∧ tailMatrix.Wf ∧ wrongMatrix.Wf := by
  refine ⟨⟨rfl, ?_, ?_, ?_, by decide⟩, ⟨rfl, ?_, ?_, ?_, by decide⟩, ⟨rfl, ?_, ?_, ?_, by decide⟩⟩
  · decide
  · intro m hm i j h1 h2 h3
    have : m = 0 ∨ m = 1 ∨ m = 2 := by have : m < 3 := hm; omega
    rcases this with rfl | rfl | rfl <;> simp [gapMatrix] at * <;> omega
  · intro m hm i h1 h2
    simp only [gapMatrix]
    split <;> omega
  · decide
  · intro m hm i j h1 h2 h3
    have : m = 0 ∨ m = 1 := by have : m < 2 := hm; omega
    rcases this with rfl | rfl <;> simp [tailMatrix] at * <;> omega
  · intro m hm i h1 h2
    simp [tailMatrix]
  · decide
  · intro m hm i j h1 h2 h3
    exact h2
  · intro m hm i h1 h2
    have : m = 0 ∨ m = 1 := by have : m < 2 := hm; omega
    rcases this with rfl | rfl <;> simp [wrongMatrix] at * <;> omega

/-- **C19 violated**: an error is reported although the first diagonal entry has already been changed. -/
theorem C19_partial_update_violated :
    ∃ M', gapMatrix.createDiagInfo.addToDiag 1 = .ok (RET_NO_DIAGONAL_AVAILABLE, M') ∧
      M'.entry 0 0 ≠ gapMatrix.entry 0 0 := by
  have h : (match gapMatrix.createDiagInfo.addToDiag 1 with
    | .ok (r, M') => decide (r = RET_NO_DIAGONAL_AVAILABLE ∧ M'.entry 0 0 ≠ gapMatrix.entry 0 0) | _ => false) = true := by
    decide +kernel
  revert h
  generalize gapMatrix.createDiagInfo.addToDiag 1 = x
  intro h
  match x, h with
  | .ok (r, M'), h =>
    obtain ⟨h1, h2⟩ := of_decide_eq_true h
    exact ⟨M', by rw [h1], h2⟩

/-- **C19 violated**: memory behind the index array is read. -/
theorem C19_out_of_bounds_violated : tailMatrix.createDiagInfo.addToDiag 1 = .ub .outOfBounds := by
  have h : (match tailMatrix.createDiagInfo.addToDiag 1 with
    | .ub u => decide (u = .outOfBounds) | _ => false) = true := by decide +kernel
  revert h
  generalize tailMatrix.createDiagInfo.addToDiag 1 = x
  intro h
  match x, h with
  | .ub u, h => rw [of_decide_eq_true h]

/-- **C19 violated**: success is reported although an off-diagonal entry was changed instead of the
diagonal entry (0,0). -/
theorem C19_wrong_entry_violated :
    ∃ M', wrongMatrix.createDiagInfo.addToDiag 1 = .ok (SUCCESSFUL_RETURN, M') ∧
      M'.entry 0 0 = 0 ∧ wrongMatrix.entry 0 0 = 0 ∧ M'.entry 0 1 = 2 ∧ wrongMatrix.entry 0 1 = 1 := by
  have h : (match wrongMatrix.createDiagInfo.addToDiag 1 with
    | .ok (r, M') => decide (r = SUCCESSFUL_RETURN ∧ M'.entry 0 0 = 0 ∧ wrongMatrix.entry 0 0 = 0 ∧
        M'.entry 0 1 = 2 ∧ wrongMatrix.entry 0 1 = 1) | _ => false) = true := by
    decide +kernel
  revert h
  generalize wrongMatrix.createDiagInfo.addToDiag 1 = x
  intro h
  match x, h with
  | .ok (r, M'), h =>
    obtain ⟨h1, h2⟩ := of_decide_eq_true h
    exact ⟨M', by rw [h1], h2⟩

/-! ### Non-vacuity -/

example : ∃ M', eyeC.createDiagInfo.addToDiag (5 : ℚ) = .ok (SUCCESSFUL_RETURN, M') ∧
    DiagAdded 2 2 5 (fun r c => if r * 2 + c = 0 then 1 else if r * 2 + c = 3 then 1 else 0) M'.entry :=
  C19_columns_ofDense 2 2 2 _ (fun h => by
    have : (ZERO : ℚ) < 5 := by unfold ZERO; norm_num
    rw [abs_of_pos (by norm_num)] at h
    linarith)

end QpOASES.Props
