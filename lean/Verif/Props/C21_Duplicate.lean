import Verif.Props.C18_Access

/-!
C21: copies of matrices.
-/
namespace QpOASES.Props
open Finset Spec ReturnValue

variable {K : Type} [Field K] [LinearOrder K] [IsStrictOrderedRing K]

/-- **C21**, dense matrices stored without gaps. -/
theorem C21_dense_partial (M : DenseMatrix K) (hc : M.Compact) (hs : M.nRows * M.nCols ≤ M.valSize) :
    ∃ M', M.duplicate = .ok M' ∧ M'.nRows = M.nRows ∧ M'.nCols = M.nCols ∧ M'.nRows * M'.nCols ≤ M'.valSize ∧
      M'.Compact ∧ ∀ r < M.nRows, ∀ c < M.nCols, M'.entry r c = M.entry r c := by
  have hc' : M.leaDim = M.nCols := hc
  unfold DenseMatrix.duplicate
  by_cases ho : M.owned = true
  · rw [if_pos ho, if_pos hs]
    exact ⟨_, rfl, rfl, rfl, Nat.le_refl _, rfl, fun r _ c _ => by unfold DenseMatrix.entry; rw [hc']⟩
  · rw [if_neg ho]
    exact ⟨_, rfl, rfl, rfl, hs, rfl, fun r _ c _ => by unfold DenseMatrix.entry; rw [hc']⟩

/-- **C21 violated** for dense matrices with a leading dimension larger than the number of columns: the copy of
`[[0,1],[3,4]]` stored with leading dimension 3 is `[[0,1],[2,3]]`. -/
theorem C21_dense_padded_violated :
    let M : DenseMatrix ℚ := .ofArray 2 2 3 (fun i => if i = 0 then 0 else if i = 1 then 1 else if i = 2 then 2
      else if i = 3 then 3 else 4) 6
    ∃ M', M.duplicate = .ok M' ∧ M'.nRows = 2 ∧ M'.nCols = 2 ∧ M.entry 1 0 = 3 ∧ M'.entry 1 0 = 2 := by
  refine ⟨_, rfl, rfl, rfl, by decide +kernel, by decide +kernel⟩

/-- Copying the first `n` elements. -/
theorem copy_ok {α : Type} (b1 b2 : Nat) (f : Nat → α) (z : α) : ∀ n, n ≤ b1 → n ≤ b2 →
    ∃ g, loopR (fun i a => do wr b1 a i (← rd b2 f i)) n (fun _ => z) = .ok g ∧ ∀ i < n, g i = f i := by
  intro n
  induction n with
  | zero => intro _ _; exact ⟨_, rfl, fun i hi => by omega⟩
  | succ n ih =>
    intro h1 h2
    obtain ⟨g, e, hg⟩ := ih (by omega) (by omega)
    refine ⟨updA g n (f n), ?_, fun i hi => ?_⟩
    · rw [loopR, e]
      simp only [Res.bind_ok, rd, wr]
      rw [if_pos (by omega)]
      simp only [Res.bind_ok]
      rw [if_pos (by omega)]
    · by_cases e : i = n
      · subst e; rw [updA_same]
      · rw [updA_ne _ _ e, hg i (by omega)]

theorem copy_bad {α : Type} (b1 b2 : Nat) (f : Nat → α) (z : α) : ∀ n, b1 < n ∨ b2 < n →
    loopR (fun i a => do wr b1 a i (← rd b2 f i)) n (fun _ => z) = .ub .outOfBounds := by
  intro n
  induction n with
  | zero => intro h; omega
  | succ n ih =>
    intro h
    by_cases h1 : b1 < n ∨ b2 < n
    · rw [loopR, ih h1]; rfl
    · obtain ⟨g, e, _⟩ := copy_ok b1 b2 f z n (by omega) (by omega)
      rw [loopR, e]
      simp only [Res.bind_ok, rd, wr]
      by_cases h2 : n < b2
      · rw [if_pos h2]
        simp only [Res.bind_ok]
        rw [if_neg (by omega)]
      · rw [if_neg h2]; rfl

theorem compEntry_congr {nMaj : Nat} {ptr ptr' idx idx' : Nat → Nat} {val val' : Nat → K}
    (hp : ∀ m ≤ nMaj, ptr' m = ptr m) (hm : ∀ m ≤ nMaj, ptr m ≤ ptr nMaj) (hi : ∀ t < ptr nMaj, idx' t = idx t)
    (hv : ∀ t < ptr nMaj, val' t = val t) {m : Nat} (h : m < nMaj) (r : Nat) :
    compEntry ptr' idx' val' m r = compEntry ptr idx val m r := by
  unfold compEntry
  rw [hp m (by omega), hp (m+1) (by omega)]
  apply sum_congr rfl
  intro t ht
  rw [mem_Ico] at ht
  have := hm (m+1) (by omega)
  rw [hi t (by omega), hv t (by omega)]

theorem compWf_congr {nMaj nMin size : Nat} {ptr ptr' idx idx' : Nat → Nat} (W : CompWf nMaj nMin size ptr idx)
    (hp : ∀ m ≤ nMaj, ptr' m = ptr m) (hi : ∀ t < ptr nMaj, idx' t = idx t) :
    CompWf nMaj nMin (ptr nMaj) ptr' idx' := by
  have hm : ∀ m ≤ nMaj, ptr m ≤ ptr nMaj := fun m h => W.mono_le h (Nat.le_refl _)
  refine ⟨by rw [hp 0 (by omega)]; exact W.zero, fun m h => ?_, fun m h i j h1 h2 h3 => ?_, fun m h i h1 h2 => ?_, ?_⟩
  · rw [hp m (by omega), hp (m+1) (by omega)]; exact W.mono m h
  · rw [hp m (by omega)] at h1
    rw [hp (m+1) (by omega)] at h3
    have := hm (m+1) (by omega)
    rw [hi i (by omega), hi j (by omega)]
    exact W.inc m h i j h1 h2 h3
  · rw [hp m (by omega)] at h1
    rw [hp (m+1) (by omega)] at h2
    have := hm (m+1) (by omega)
    rw [hi i (by omega)]
    exact W.rng m h i h1 h2
  · rw [hp nMaj (Nat.le_refl _)]

/-- **C21**, compressed columns, with or without diagonal information. -/
theorem C21_columns (M : SparseMatrix K) (W : M.Wf) :
    ∃ M', M.duplicate = .ok M' ∧ M'.nRows = M.nRows ∧ M'.nCols = M.nCols ∧ M'.Wf ∧
      (∀ c < M.nCols, ∀ r, M'.entry r c = M.entry r c) ∧
      (M.jd = none → M'.jd = none) ∧
      ∀ jd, M.jd = some jd → ∃ jd', M'.jd = some jd' ∧ ∀ j < M.nCols, jd' j = jd j := by
  have hsz := W.size
  obtain ⟨ir, e1, h1⟩ := copy_ok (M.jc M.nCols) M.size M.ir 0 (M.jc M.nCols) (Nat.le_refl _) hsz
  obtain ⟨jc, e2, h2⟩ := copy_ok (M.nCols + 1) (M.nCols + 1) M.jc 0 (M.nCols + 1) (Nat.le_refl _) (Nat.le_refl _)
  obtain ⟨val, e3, h3⟩ := copy_ok (M.jc M.nCols) M.size M.val 0 (M.jc M.nCols) (Nat.le_refl _) hsz
  have hp : ∀ m ≤ M.nCols, jc m = M.jc m := fun m h => h2 m (by omega)
  have hm : ∀ m ≤ M.nCols, M.jc m ≤ M.jc M.nCols := fun m h => W.mono_le h (Nat.le_refl _)
  unfold SparseMatrix.duplicate
  simp only [e1, e2, e3, Res.bind_ok]
  cases hj : M.jd with
  | none =>
    exact ⟨_, rfl, rfl, rfl, compWf_congr W hp h1, fun c hc r => compEntry_congr hp hm h1 h3 hc r, fun _ => rfl,
      fun jd h => by cases h⟩
  | some jd =>
    obtain ⟨jd', e4, h4⟩ := copy_ok M.nCols M.nCols jd 0 M.nCols (Nat.le_refl _) (Nat.le_refl _)
    simp only [e4, Res.bind_ok]
    refine ⟨_, rfl, rfl, rfl, compWf_congr W hp h1, fun c hc r => compEntry_congr hp hm h1 h3 hc r, fun h => (by cases h),
      fun d h => ⟨jd', rfl, ?_⟩⟩
    cases h
    exact h4

/-- **C21 violated**, compressed rows: unless the number of stored elements lies between `nCols+1` and
`nRows+1`, the copy reads or writes outside its arrays. -/
theorem C21_rows_violated (M : SparseMatrixRow K) (W : M.Wf)
    (h : M.jr M.nRows < M.nCols + 1 ∨ M.nRows + 1 < M.jr M.nRows) : M.duplicate = .ub .outOfBounds := by
  unfold SparseMatrixRow.duplicate
  by_cases h2 : M.nRows + 1 < M.jr M.nRows
  · simp only [copy_bad (M.nRows + 1) (M.nRows + 1) M.jr 0 (M.jr M.nRows) (by omega), Res.bind_ub]
  · obtain ⟨jr, e1, h1⟩ := copy_ok (M.nRows + 1) (M.nRows + 1) M.jr 0 (M.jr M.nRows) (by omega) (by omega)
    simp only [e1, Res.bind_ok, copy_bad (M.jr M.nRows) M.size M.ic 0 (M.nCols + 1) (by omega), Res.bind_ub]

/-- For example the 2×2 identity matrix cannot be copied. -/
theorem C21_rows_witness : eyeR.Wf ∧ eyeR.duplicate = .ub .outOfBounds := by
  refine ⟨(C16_rows_represents 2 2 2 _).1, C21_rows_violated _ (C16_rows_represents 2 2 2 _).1 (Or.inl ?_)⟩
  decide +kernel

/-- **C21**, compressed rows, in the only case in which the exchanged loop bounds do no harm: as many stored
elements as row pointers, and square. -/
theorem C21_rows_partial (M : SparseMatrixRow K) (W : M.Wf) (hj : M.jd = none)
    (h1 : M.jr M.nRows = M.nRows + 1) (h2 : M.nCols = M.nRows) :
    ∃ M', M.duplicate = .ok M' ∧ M'.nRows = M.nRows ∧ M'.nCols = M.nCols ∧ M'.Wf ∧
      ∀ r < M.nRows, ∀ c, M'.entry r c = M.entry r c := by
  have hsz := W.size
  obtain ⟨jr, e1, g1⟩ := copy_ok (M.nRows + 1) (M.nRows + 1) M.jr 0 (M.jr M.nRows) (by omega) (by omega)
  obtain ⟨ic, e2, g2⟩ := copy_ok (M.jr M.nRows) M.size M.ic 0 (M.nCols + 1) (by omega) (by omega)
  obtain ⟨val, e3, g3⟩ := copy_ok (M.jr M.nRows) M.size M.val 0 (M.jr M.nRows) (Nat.le_refl _) hsz
  have hp : ∀ m ≤ M.nRows, jr m = M.jr m := fun m h => g1 m (by omega)
  have hm : ∀ m ≤ M.nRows, M.jr m ≤ M.jr M.nRows := fun m h => W.mono_le h (Nat.le_refl _)
  have hi : ∀ t < M.jr M.nRows, ic t = M.ic t := fun t h => g2 t (by omega)
  unfold SparseMatrixRow.duplicate
  simp only [e1, e2, e3, Res.bind_ok, hj]
  exact ⟨_, rfl, rfl, rfl, compWf_congr W hp hi, fun r hr c => compEntry_congr hp hm hi g3 hr c⟩

/-! ### Non-vacuity -/

/-- `[[1,1],[0,1]]`: three stored elements, two rows. -/
example : (SparseMatrixRow.ofDense 2 2 2 (fun i => if i = 2 then (0 : ℚ) else 1)).jr 2 = 3 := by decide +kernel

example : ∃ M', eyeC.duplicate = .ok M' ∧ M'.entry 1 1 = 1 := by
  obtain ⟨M', e, _, _, _, h, _⟩ := C21_columns eyeC (C16_columns_represents 2 2 2 _).1
  exact ⟨M', e, (h 1 (by decide +kernel) 1).trans (by decide +kernel)⟩

end QpOASES.Props
