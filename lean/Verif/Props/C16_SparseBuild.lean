import Verif.Proofs.Sparse
import Mathlib.Data.Rat.Cast.Order
import Mathlib.Algebra.Order.Ring.Rat

/-!
# C16 Sparse matrices represent the dense matrix they were built from
-/
namespace QpOASES.Props
open Finset Spec

variable {K : Type} [Field K] [LinearOrder K] [IsStrictOrderedRing K]

/-- What the inner loop of the constructors adds for major index `j`. -/
structure InnerInv (a : Nat → K) (j n0 : Nat) (b0 : Build K) (i : Nat) (b : Build K) : Prop where
  ptr : b.ptr = b0.ptr
  lo : n0 ≤ b.nnz
  up : b.nnz ≤ n0 + i
  idx0 : ∀ t < n0, b.idx t = b0.idx t
  val0 : ∀ t < n0, b.val t = b0.val t
  inc : IncOn b.idx n0 b.nnz
  rng : ∀ t, n0 ≤ t → t < b.nnz → b.idx t < i
  ent : ∀ n, ∑ t ∈ Ico n0 b.nnz, (if b.idx t = n then b.val t else 0) = if n < i then a n else 0
  pat : ∀ n, (∃ t, n0 ≤ t ∧ t < b.nnz ∧ b.idx t = n) ↔ n < i ∧ (n = j ∨ a n ≠ 0)

theorem inner_inv (a : Nat → K) (j : Nat) (b0 : Build K) (n : Nat) :
    InnerInv a j b0.nnz b0 n (loop (fun i b => buildEntry (a i) i j b) n b0) := by
  refine loop_inv (InnerInv a j b0.nnz b0) n b0 ?_ ?_
  · exact ⟨rfl, Nat.le_refl _, Nat.le_refl _, fun _ _ => rfl, fun _ _ => rfl, fun i j h1 h2 h3 => by omega,
      fun t h1 h2 => by omega, fun n => by simp, fun n => ⟨fun ⟨t, h1, h2, _⟩ => by omega, fun h => by omega⟩⟩
  · intro i b hi h
    unfold buildEntry
    split
    · rename_i hz
      have ha : i = j ∨ a i ≠ 0 := by
        rcases hz with hz | hz
        · right
          intro e
          rw [e] at hz
          rw [isZero_iff.2 (by simp)] at hz
          simp at hz
        · exact Or.inl hz
      refine ⟨h.ptr, by have := h.lo; show _ ≤ b.nnz + 1; omega, by have := h.up; show b.nnz + 1 ≤ _; omega, ?_, ?_, ?_, ?_, ?_, ?_⟩
      · intro t ht
        have := h.lo
        show updA b.idx b.nnz i t = _
        rw [updA_ne _ _ (by omega), h.idx0 t ht]
      · intro t ht
        have := h.lo
        show updA b.val b.nnz (a i) t = _
        rw [updA_ne _ _ (by omega), h.val0 t ht]
      · intro s t h1 h2 h3
        show updA b.idx b.nnz i s < updA b.idx b.nnz i t
        have h3' : t < b.nnz + 1 := h3
        rw [updA_ne _ _ (show s ≠ b.nnz by omega)]
        by_cases e : t = b.nnz
        · subst e
          rw [updA_same]
          exact h.rng s h1 h2
        · rw [updA_ne _ _ e]
          exact h.inc s t h1 h2 (by omega)
      · intro t h1 h2
        show updA b.idx b.nnz i t < i + 1
        have h2' : t < b.nnz + 1 := h2
        by_cases e : t = b.nnz
        · subst e; rw [updA_same]; omega
        · rw [updA_ne _ _ e]
          have := h.rng t h1 (by omega)
          omega
      · intro n
        show ∑ t ∈ Ico b0.nnz (b.nnz + 1), (if updA b.idx b.nnz i t = n then updA b.val b.nnz (a i) t else 0) = _
        rw [sum_Ico_succ_top h.lo]
        have e1 : ∑ t ∈ Ico b0.nnz b.nnz, (if updA b.idx b.nnz i t = n then updA b.val b.nnz (a i) t else 0) =
            ∑ t ∈ Ico b0.nnz b.nnz, (if b.idx t = n then b.val t else 0) := by
          apply sum_congr rfl
          intro t ht
          rw [mem_Ico] at ht
          rw [updA_ne _ _ (by omega), updA_ne _ _ (by omega)]
        rw [e1, h.ent n, updA_same, updA_same]
        by_cases hn : n = i
        · subst hn; simp
        · rw [if_neg (show ¬ i = n from fun e => hn e.symm), add_zero]
          by_cases h5 : n < i
          · rw [if_pos h5, if_pos (by omega)]
          · rw [if_neg h5, if_neg (by omega)]
      · intro n
        show (∃ t, b0.nnz ≤ t ∧ t < b.nnz + 1 ∧ updA b.idx b.nnz i t = n) ↔ _
        constructor
        · rintro ⟨t, h1, h2, h3⟩
          by_cases e : t = b.nnz
          · subst e
            rw [updA_same] at h3
            subst h3
            exact ⟨by omega, ha⟩
          · rw [updA_ne _ _ e] at h3
            obtain ⟨h4, h5⟩ := (h.pat n).1 ⟨t, h1, by omega, h3⟩
            exact ⟨by omega, h5⟩
        · rintro ⟨h1, h2⟩
          by_cases e : n = i
          · exact ⟨b.nnz, h.lo, by omega, by rw [updA_same, e]⟩
          · obtain ⟨t, h3, h4, h5⟩ := (h.pat n).2 ⟨by omega, h2⟩
            exact ⟨t, h3, by omega, by rw [updA_ne _ _ (by omega), h5]⟩
    · rename_i hz
      have hj : i ≠ j := fun e => hz (Or.inr e)
      have ha : a i = 0 := by
        by_contra hne
        apply hz
        left
        rw [← Bool.not_eq_true, isZero_iff]
        simpa using hne
      refine ⟨h.ptr, h.lo, by have := h.up; omega, h.idx0, h.val0, h.inc, fun t h1 h2 => by have := h.rng t h1 h2; omega, ?_, fun n => ?_⟩
      swap
      · rw [h.pat n]
        constructor
        · rintro ⟨h1, h2⟩; exact ⟨by omega, h2⟩
        · rintro ⟨h1, h2⟩
          refine ⟨?_, h2⟩
          by_contra hlt
          have e : n = i := by omega
          subst e
          rcases h2 with h2 | h2
          · exact hj h2
          · exact h2 ha
      intro n
      rw [h.ent n]
      by_cases hn : n = i
      · subst hn; rw [if_neg (Nat.lt_irrefl _), if_pos (by omega), ha]
      · by_cases h5 : n < i
        · rw [if_pos h5, if_pos (by omega)]
        · rw [if_neg h5, if_neg (by omega)]

/-- The constructed compressed storage is well formed and represents the given entries. -/
theorem build_spec (nMaj nMin : Nat) (a : Nat → Nat → K) :
    CompWf nMaj nMin (nMaj * nMin) (build nMaj nMin a).ptr (build nMaj nMin a).idx ∧
    (∀ m < nMaj, ∀ n < nMin, compEntry (build nMaj nMin a).ptr (build nMaj nMin a).idx (build nMaj nMin a).val m n = a m n) ∧
    ∀ m < nMaj, ∀ n, (∃ t, (build nMaj nMin a).ptr m ≤ t ∧ t < (build nMaj nMin a).ptr (m+1) ∧
      (build nMaj nMin a).idx t = n) ↔ n < nMin ∧ (n = m ∨ a m n ≠ 0) := by
  let P : Nat → Build K → Prop := fun j b =>
    CompWf j nMin (j * nMin) (updA b.ptr j b.nnz) b.idx ∧
    (∀ m < j, ∀ n < nMin, compEntry (updA b.ptr j b.nnz) b.idx b.val m n = a m n) ∧
    ∀ m < j, ∀ n, (∃ t, updA b.ptr j b.nnz m ≤ t ∧ t < updA b.ptr j b.nnz (m+1) ∧ b.idx t = n) ↔
      n < nMin ∧ (n = m ∨ a m n ≠ 0)
  have key := loop_inv P nMaj (f := fun j b =>
      loop (fun i b => buildEntry (a j i) i j b) nMin { b with ptr := updA b.ptr j b.nnz })
    { ptr := fun _ => 0, idx := fun _ => 0, val := fun _ => 0, nnz := 0 } ?_ ?_
  · exact key
  · exact ⟨⟨by simp, fun m hm => by omega, fun m hm => by omega, fun m hm => by omega, by simp⟩,
      fun m hm => by omega, fun m hm => by omega⟩
  · rintro j b hj ⟨W, E, S⟩
    have I := inner_inv (a j) j { b with ptr := updA b.ptr j b.nnz } nMin
    generalize loop (fun i b => buildEntry (a j i) i j b) nMin { b with ptr := updA b.ptr j b.nnz } = b' at I
    obtain ⟨ptr, lo, up, idx0, val0, inc, rng, ent, pat⟩ := I
    simp only at ptr lo up idx0 val0 inc rng ent pat
    have p1 : ∀ m, m ≤ j → updA b'.ptr (j+1) b'.nnz m = updA b.ptr j b.nnz m := by
      intro m hm
      rw [updA_ne _ _ (by omega), ptr]
    have p2 : updA b'.ptr (j+1) b'.nnz (j+1) = b'.nnz := updA_same _ _ _
    have p3 : updA b.ptr j b.nnz j = b.nnz := updA_same _ _ _
    have below : ∀ m < j, updA b.ptr j b.nnz (m+1) ≤ b.nnz := by
      intro m hm
      have := W.mono_le (m := m+1) (m' := j) (by omega) (Nat.le_refl _)
      rw [p3] at this; exact this
    refine ⟨⟨?_, ?_, ?_, ?_, ?_⟩, ?_, ?_⟩
    · rw [p1 0 (by omega)]; exact W.zero
    · intro m hm
      by_cases e : m = j
      · subst e; rw [p1 m (by omega), p2, p3]; exact lo
      · rw [p1 m (by omega), p1 (m+1) (by omega)]; exact W.mono m (by omega)
    · intro m hm s t h1 h2 h3
      by_cases e : m = j
      · subst e
        rw [p1 m (by omega), p3] at h1
        rw [p2] at h3
        exact inc s t h1 h2 h3
      · rw [p1 m (by omega)] at h1
        rw [p1 (m+1) (by omega)] at h3
        have := below m (by omega)
        rw [idx0 s (by omega), idx0 t (by omega)]
        exact W.inc m (by omega) s t h1 h2 h3
    · intro m hm t h1 h2
      by_cases e : m = j
      · subst e
        rw [p1 m (by omega), p3] at h1
        rw [p2] at h2
        exact rng t h1 h2
      · rw [p1 m (by omega)] at h1
        rw [p1 (m+1) (by omega)] at h2
        have := below m (by omega)
        rw [idx0 t (by omega)]
        exact W.rng m (by omega) t h1 h2
    · rw [p2]
      have := W.size
      rw [p3] at this
      rw [Nat.add_mul]; omega
    · intro m hm n hn
      unfold compEntry
      by_cases e : m = j
      · subst e
        rw [p1 m (by omega), p2, p3, ent n, if_pos hn]
      · rw [p1 m (by omega), p1 (m+1) (by omega), ← E m (by omega) n hn]
        unfold compEntry
        apply sum_congr rfl
        intro t ht
        rw [mem_Ico] at ht
        have := below m (by omega)
        rw [idx0 t (by omega), val0 t (by omega)]
    · intro m hm n
      by_cases e : m = j
      · subst e
        rw [p1 m (by omega), p2, p3]
        exact pat n
      · rw [p1 m (by omega), p1 (m+1) (by omega), ← S m (by omega) n]
        have := below m (by omega)
        constructor
        · rintro ⟨t, h1, h2, h3⟩
          exact ⟨t, h1, h2, by rw [← idx0 t (by omega), h3]⟩
        · rintro ⟨t, h1, h2, h3⟩
          exact ⟨t, h1, h2, by rw [idx0 t (by omega), h3]⟩

/-- **C16** (structure).  The compressed-column matrix built from a dense array is well formed and stands for
the matrix in the array. -/
theorem C16_columns_represents (nr nc ld : Nat) (v : Nat → K) :
    (SparseMatrix.ofDense nr nc ld v).Wf ∧
    ∀ r < nr, ∀ c < nc, (SparseMatrix.ofDense nr nc ld v).entry r c = v (r * ld + c) := by
  have h := build_spec nc nr (fun j i => v (i * ld + j))
  refine ⟨?_, fun r hr c hc => h.2.1 c hc r hr⟩
  have := h.1
  rw [Nat.mul_comm nc nr] at this
  exact this

/-- **C16** (structure), compressed rows. -/
theorem C16_rows_represents (nr nc ld : Nat) (v : Nat → K) :
    (SparseMatrixRow.ofDense nr nc ld v).Wf ∧
    ∀ r < nr, ∀ c < nc, (SparseMatrixRow.ofDense nr nc ld v).entry r c = v (r * ld + c) := by
  have h := build_spec nr nc (fun j i => v (j * ld + i))
  exact ⟨h.1, fun r hr c hc => h.2.1 r hr c hc⟩

/-- **C16** (structure).  Exactly the nonzero entries and the diagonal are stored. -/
theorem C16_columns_pattern (nr nc ld : Nat) (v : Nat → K) (c : Nat) (hc : c < nc) (r : Nat) :
    (∃ t, (SparseMatrix.ofDense nr nc ld v).jc c ≤ t ∧ t < (SparseMatrix.ofDense nr nc ld v).jc (c+1) ∧
      (SparseMatrix.ofDense nr nc ld v).ir t = r) ↔ r < nr ∧ (r = c ∨ v (r * ld + c) ≠ 0) :=
  (build_spec nc nr (fun j i => v (i * ld + j))).2.2 c hc r

theorem C16_rows_pattern (nr nc ld : Nat) (v : Nat → K) (r : Nat) (hr : r < nr) (c : Nat) :
    (∃ t, (SparseMatrixRow.ofDense nr nc ld v).jr r ≤ t ∧ t < (SparseMatrixRow.ofDense nr nc ld v).jr (r+1) ∧
      (SparseMatrixRow.ofDense nr nc ld v).ic t = c) ↔ c < nc ∧ (c = r ∨ v (r * ld + c) ≠ 0) :=
  (build_spec nr nc (fun j i => v (j * ld + i))).2.2 r hr c

/-- Writing one major index into the expanded array. -/
theorem fill_segment {idx : Nat → Nat} {lo hi : Nat} (hI : IncOn idx lo hi) (val : Nat → K) (pos : Nat → Nat)
    (v : Nat → K) (q : Nat → Nat) (bound : Nat) (hr : ∀ i, lo ≤ i → i < hi → idx i < bound)
    (hpos : ∀ i, lo ≤ i → i < hi → pos i = q (idx i))
    (hq : ∀ r < bound, ∀ r' < bound, q r = q r' → r = r') (h0 : ∀ r < bound, v (q r) = 0) :
    (∀ r < bound, loopFrom lo hi (fun i v => updA v (pos i) (val i)) v (q r) =
      ∑ i ∈ Ico lo hi, if idx i = r then val i else 0) ∧
    (∀ p, (∀ r < bound, p ≠ q r) → loopFrom lo hi (fun i v => updA v (pos i) (val i)) v p = v p) := by
  have key : ∀ n, n ≤ hi - lo →
    (∀ r < bound, loop (fun t v => updA v (pos (lo+t)) (val (lo+t))) n v (q r) =
      ∑ t ∈ range n, if idx (lo+t) = r then val (lo+t) else 0) ∧
    (∀ p, (∀ r < bound, p ≠ q r) → loop (fun t v => updA v (pos (lo+t)) (val (lo+t))) n v p = v p) := by
    intro n hn
    induction n with
    | zero => exact ⟨fun r hr => by simpa [loop] using h0 r hr, fun p _ => rfl⟩
    | succ n ih =>
      obtain ⟨i1, i2⟩ := ih (by omega)
      have hb := hr (lo+n) (by omega) (by omega)
      refine ⟨fun r hr => ?_, fun p hp => ?_⟩
      · rw [loop, sum_range_succ]
        beta_reduce
        rw [hpos (lo+n) (by omega) (by omega)]
        by_cases e : idx (lo+n) = r
        · rw [if_pos e, e, updA_same]
          have : ∑ t ∈ range n, (if idx (lo+t) = r then val (lo+t) else 0) = 0 := by
            apply sum_eq_zero
            intro t ht
            rw [mem_range] at ht
            have := hI (lo+t) (lo+n) (by omega) (by omega) (by omega)
            rw [if_neg (by omega)]
          rw [this, zero_add]
        · rw [if_neg e, add_zero, updA_ne _ _ (fun h => e (hq _ hr _ hb h).symm), i1 r hr]
      · rw [loop]
        beta_reduce
        rw [hpos (lo+n) (by omega) (by omega), updA_ne _ _ (hp _ hb), i2 p hp]
  obtain ⟨k1, k2⟩ := key (hi - lo) (Nat.le_refl _)
  refine ⟨fun r hr => ?_, k2⟩
  rw [← sum_loopFrom]
  exact k1 r hr

theorem zero_loop (n : Nat) (v : Nat → K) (hv : ∀ i, v i = 0) (i : Nat) :
    loop (fun i v => updA v i (0 : K)) n v i = 0 := by
  induction n with
  | zero => exact hv i
  | succ n ih =>
    rw [loop]
    by_cases e : i = n
    · subst e; exact updA_same _ _ _
    · rw [updA_ne _ _ e, ih]

theorem mulAdd_inj {n r r' c c' : Nat} (hc : c < n) (hc' : c' < n) (h : r * n + c = r' * n + c') : r = r' ∧ c = c' := by
  have h1 : r = r' := by
    have := congrArg (· / n) h
    simpa [Nat.add_comm _ c, Nat.add_comm _ c', Nat.add_mul_div_right _ _ (show 0 < n by omega),
      Nat.div_eq_of_lt hc, Nat.div_eq_of_lt hc'] using this
  subst h1
  exact ⟨rfl, by omega⟩

/-- **C16** (expansion).  `full()` of a well-formed compressed-column matrix returns the represented matrix,
stored by rows. -/
theorem C16_columns_full (M : SparseMatrix K) (W : M.Wf) :
    ∀ r < M.nRows, ∀ c < M.nCols, M.full (r * M.nCols + c) = M.entry r c := by
  unfold SparseMatrix.full
  generalize hv : loop (fun i v => updA v i (0:K)) (M.nCols * M.nRows) (fun _ => 0) = v0
  have hv0 : ∀ i, v0 i = 0 := fun i => by rw [← hv]; exact zero_loop _ _ (fun _ => rfl) i
  have key := loop_inv
    (fun (j : Nat) (v : Nat → K) => ∀ r < M.nRows, ∀ c < M.nCols,
      v (r * M.nCols + c) = if c < j then M.entry r c else 0)
    (f := fun j v => loopFrom (M.jc j) (M.jc (j+1)) (fun i v => updA v (M.ir i * M.nCols + j) (M.val i)) v)
    M.nCols v0 (fun r _ c _ => by rw [hv0, if_neg (by omega)]) ?_
  · intro r hr c hc
    rw [key r hr c hc, if_pos hc]
  · intro j v hj ih r hr c hc
    have F := fill_segment (W.incOn hj) M.val (fun i => M.ir i * M.nCols + j) v (fun r => r * M.nCols + j) M.nRows
      (fun i h1 h2 => W.rng j hj i h1 h2) (fun i _ _ => rfl)
      (fun r _ r' _ e => (mulAdd_inj hj hj e).1)
      (fun r hr => by rw [ih r hr j hj, if_neg (Nat.lt_irrefl _)])
    by_cases e : c = j
    · subst e
      rw [if_pos (by omega)]
      exact F.1 r hr
    · rw [F.2 (r * M.nCols + c) (fun r' _ h => e (mulAdd_inj hc hj h).2), ih r hr c hc]
      by_cases h5 : c < j
      · rw [if_pos h5, if_pos (by omega)]
      · rw [if_neg h5, if_neg (by omega)]

/-- **C16** (expansion), compressed rows. -/
theorem C16_rows_full (M : SparseMatrixRow K) (W : M.Wf) :
    ∀ r < M.nRows, ∀ c < M.nCols, M.full (r * M.nCols + c) = M.entry r c := by
  unfold SparseMatrixRow.full
  generalize hv : loop (fun i v => updA v i (0:K)) (M.nCols * M.nRows) (fun _ => 0) = v0
  have hv0 : ∀ i, v0 i = 0 := fun i => by rw [← hv]; exact zero_loop _ _ (fun _ => rfl) i
  have key := loop_inv
    (fun (j : Nat) (v : Nat → K) => ∀ r < M.nRows, ∀ c < M.nCols,
      v (r * M.nCols + c) = if r < j then M.entry r c else 0)
    (f := fun i v => loopFrom (M.jr i) (M.jr (i+1)) (fun j v => updA v (M.ic j + i * M.nCols) (M.val j)) v)
    M.nRows v0 (fun r _ c _ => by rw [hv0, if_neg (by omega)]) ?_
  · intro r hr c hc
    rw [key r hr c hc, if_pos hr]
  · intro j v hj ih r hr c hc
    have F := fill_segment (W.incOn hj) M.val (fun i => M.ic i + j * M.nCols) v (fun c => c + j * M.nCols) M.nCols
      (fun i h1 h2 => W.rng j hj i h1 h2) (fun i _ _ => rfl)
      (fun r _ r' _ e => by have e' : r + j * M.nCols = r' + j * M.nCols := e; omega)
      (fun c hc => by rw [Nat.add_comm, ih j hj c hc, if_neg (Nat.lt_irrefl _)])
    by_cases e : r = j
    · subst e
      rw [if_pos (by omega), Nat.add_comm (r * M.nCols) c]
      exact F.1 c hc
    · rw [F.2 (r * M.nCols + c) (fun c' hc' h => e (mulAdd_inj hc hc' (by
        have h' : r * M.nCols + c = c' + j * M.nCols := h
        omega)).1), ih r hr c hc]
      by_cases h5 : r < j
      · rw [if_pos h5, if_pos (by omega)]
      · rw [if_neg h5, if_neg (by omega)]

/-- **C16** (round trip).  Expanding the compressed-column or compressed-row matrix built from a dense array
returns the matrix in the array. -/
theorem C16_round_trip (nr nc ld : Nat) (v : Nat → K) :
    ∀ r < nr, ∀ c < nc, (SparseMatrix.ofDense nr nc ld v).full (r * nc + c) = v (r * ld + c) ∧
      (SparseMatrixRow.ofDense nr nc ld v).full (r * nc + c) = v (r * ld + c) := by
  intro r hr c hc
  refine ⟨?_, ?_⟩
  · rw [← (C16_columns_represents nr nc ld v).2 r hr c hc]
    exact C16_columns_full _ (C16_columns_represents nr nc ld v).1 r hr c hc
  · rw [← (C16_rows_represents nr nc ld v).2 r hr c hc]
    exact C16_rows_full _ (C16_rows_represents nr nc ld v).1 r hr c hc

/-- Non-vacuity: a 2×3 matrix with leading dimension 4, a zero diagonal entry (stored) and another zero entry
(not stored). -/
example : (SparseMatrix.ofDense 2 3 4 (fun i => if i = 1 then 5 else if i = 4 then 7 else if i = 6 then 9 else (0:ℚ))).jc 3 = 5 ∧
    (SparseMatrix.ofDense 2 3 4 (fun i => if i = 1 then 5 else if i = 4 then 7 else if i = 6 then 9 else (0:ℚ))).full 5 = 9 := by
  decide +kernel

end QpOASES.Props
