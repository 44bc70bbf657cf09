import Verif.Props.C17_SparseProducts
import Verif.Spec.MatrixAccess

/-!
C18: reading rows, columns and diagonals.
-/
namespace QpOASES.Props
open Finset Spec

variable {K : Type} [Field K] [LinearOrder K] [IsStrictOrderedRing K]

theorem holds_loop (n : Nat) (a : Nat → K) (out : Nat → K) :
    Holds n a out (loop (fun i r => updA r i (a i)) n out) := by
  obtain ⟨h1, h2⟩ := loop_write n (fun i => i) (fun i _ => a i) (fun _ _ _ _ e => e) out
  exact ⟨h1, fun i hi => h2 i fun j hj => by omega⟩

theorem Holds.congr {n : Nat} {a b out out' : Nat → K} (h : Holds n a out out') (e : ∀ i < n, a i = b i) :
    Holds n b out out' := ⟨fun i hi => by rw [h.1 i hi, e i hi], h.2⟩

/-- Writing in sorted order. -/
theorem holds_sorted {ix : Ix} {b : Nat} (h : ix.Wf b) (a : Nat → K) (out : Nat → K) :
    Holds ix.len a out (loop (fun k r => updA r (ix.iSort k) (a (ix.iSort k))) ix.len out) := by
  obtain ⟨h1, h2⟩ := loop_write ix.len ix.iSort (fun k _ => a (ix.iSort k)) h.sinj out
  refine ⟨fun i hi => ?_, fun i hi => h2 i fun j hj => ?_⟩
  · obtain ⟨k, hk, e⟩ := h.surj hi
    rw [← e]
    exact h1 k hk
  · have := h.rng j hj
    omega

/-! ### Dense -/

/-- **C18** dense rows. -/
theorem C18_dense_getRow (M : DenseMatrix K) (r : Nat) {icols : Option Ix} {α : K} (hα : Coeff α) (row : Nat → K) :
    Holds (colCount M.nCols icols) (fun i => α * M.entry r (colOf icols i)) row (M.getRow r icols α row) := by
  unfold DenseMatrix.getRow
  cases icols with
  | none => exact Holds.congr (holds_loop _ _ _) fun i _ => by rw [scaleEntry_eq hα]; rfl
  | some ic => exact Holds.congr (holds_loop _ _ _) fun i _ => by rw [scaleEntry_eq hα]; rfl

/-- **C18** dense columns. -/
theorem C18_dense_getCol (M : DenseMatrix K) (c : Nat) (irows : Ix) {α : K} (hα : Coeff α) (col : Nat → K) :
    Holds irows.len (fun i => α * M.entry (irows.number i) c) col (M.getCol c irows α col) := by
  unfold DenseMatrix.getCol
  exact Holds.congr (holds_loop _ _ _) fun i _ => by rw [scaleEntry_eq hα]; rfl

/-- **C18** dense diagonal. -/
theorem C18_dense_diag (M : DenseMatrix K) (i : Nat) : M.diag i = M.entry i i := by
  unfold DenseMatrix.diag DenseMatrix.entry
  rw [Nat.mul_add, Nat.mul_one]

theorem loop_and (n : Nat) (p : Nat → Bool) (b : Bool) :
    loop (fun i b => if p i then false else b) n b = true ↔ b = true ∧ ∀ i < n, p i = false := by
  induction n with
  | zero => simp [loop]
  | succ n ih =>
    rw [loop]
    by_cases h : p n = true
    · simp only [h, if_true]
      constructor
      · intro e; simp at e
      · intro e; have := e.2 n (by omega); rw [h] at this; simp at this
    · simp only [h]
      refine ih.trans ⟨fun e => ⟨e.1, fun i hi => ?_⟩, fun e => ⟨e.1, fun i hi => e.2 i (by omega)⟩⟩
      by_cases e1 : i = n
      · subst e1; simpa using h
      · exact e.2 i (by omega)

/-- **C18** dense `isDiag`: square and all off-diagonal entries at most `EPS` in absolute value. -/
theorem C18_dense_isDiag (M : DenseMatrix K) :
    M.isDiag = true ↔ M.nRows = M.nCols ∧ ∀ r < M.nRows, ∀ c < M.nCols, r ≠ c → |M.entry r c| ≤ EPS := by
  unfold DenseMatrix.isDiag
  by_cases hs : M.nRows = M.nCols
  · rw [if_neg (by simpa using hs)]
    have inner : ∀ i (b : Bool), (loop (fun j b =>
        if decide (getAbs (M.val (i * M.leaDim + j)) > EPS) || decide (getAbs (M.val (j * M.leaDim + i)) > EPS)
        then false else b) i b = true ↔ b = true ∧ ∀ j < i, |M.entry i j| ≤ EPS ∧ |M.entry j i| ≤ EPS) := by
      intro i b
      rw [loop_and]
      refine and_congr_right fun _ => forall_congr' fun j => forall_congr' fun _ => ?_
      rw [Bool.or_eq_false_iff, decide_eq_false_iff_not, decide_eq_false_iff_not, not_lt, not_lt]
      rfl
    have outer : ∀ n, (loop (fun i b => loop (fun j b =>
        if decide (getAbs (M.val (i * M.leaDim + j)) > EPS) || decide (getAbs (M.val (j * M.leaDim + i)) > EPS)
        then false else b) i b) n true = true ↔ ∀ i < n, ∀ j < i, |M.entry i j| ≤ EPS ∧ |M.entry j i| ≤ EPS) := by
      intro n
      induction n with
      | zero => simp [loop]
      | succ n ih =>
        rw [loop]
        beta_reduce
        rw [inner, ih]
        constructor
        · rintro ⟨h1, h2⟩ i hi j hj
          by_cases e : i = n
          · subst e; exact h2 j hj
          · exact h1 i (by omega) j hj
        · intro h
          exact ⟨fun i hi j hj => h i (by omega) j hj, fun j hj => h n (by omega) j hj⟩
    rw [outer]
    constructor
    · intro h
      refine ⟨hs, fun r hr c hc hne => ?_⟩
      rcases Nat.lt_or_ge c r with h1 | h1
      · exact (h r hr c h1).1
      · exact (h c (by omega) r (by omega)).2
    · rintro ⟨_, h⟩ i hi j hj
      exact ⟨h i hi j (by omega) (by omega), h j (by omega) i (by omega) (by omega)⟩
  · rw [if_pos (by simpa using hs)]
    simp [hs]

/-! ### Compressed storage -/

/-- The search loop followed by the comparison returns the entry. -/
theorem find_eq {nMaj nMin size : Nat} {ptr idx : Nat → Nat} (W : CompWf nMaj nMin size ptr idx) (val : Nat → K)
    {m : Nat} (hm : m < nMaj) (r : Nat) (f : K → K) (f0 : f 0 = 0) :
    (if scan idx r (ptr (m+1) - ptr m) (ptr m) < ptr (m+1) ∧ idx (scan idx r (ptr (m+1) - ptr m) (ptr m)) = r
      then f (val (scan idx r (ptr (m+1) - ptr m) (ptr m))) else 0) = f (compEntry ptr idx val m r) := by
  rw [scan_find (W.mono m hm) (W.incOn hm) r (fun i => f (val i)), entry_map (W.incOn hm) r val f f0]
  rfl

theorem scale0 {α : K} (hα : Coeff α) : scaleEntry α 0 = 0 := by rw [scaleEntry_eq hα, mul_zero]

/-- **C18** rows of compressed columns, with a column list or `α = 1`.  Missing case: `C18_getRow_null`. -/
theorem C18_columns_getRow_partial (M : SparseMatrix K) (W : M.Wf) (r : Nat) {icols : Option Ix}
    (hc : ∀ ic ∈ icols, ic.Wf M.nCols) {α : K} (hα : Coeff α) (h : icols = none → α = 1) (row : Nat → K) :
    ∃ row', M.getRow r icols α row = .ok row' ∧
      Holds (colCount M.nCols icols) (fun i => α * M.entry r (colOf icols i)) row row' := by
  unfold SparseMatrix.getRow
  cases icols with
  | some ic =>
    have hw := hc ic rfl
    refine ⟨_, rfl, Holds.congr (holds_sorted hw (fun k => M.find (ic.number k) r (scaleEntry α)) row) fun i hi => ?_⟩
    have := find_eq W M.val (hw.num i hi) r (scaleEntry α) (scale0 hα)
    rw [scaleEntry_eq hα (compEntry _ _ _ _ _)] at this
    exact this
  | none =>
    have e := h rfl
    subst e
    rw [if_pos (hα.isOne.2 rfl)]
    refine ⟨_, rfl, Holds.congr (holds_loop _ _ _) fun i hi => ?_⟩
    rw [one_mul]
    exact find_eq W M.val hi r (fun v => v) rfl

/-- **C18 violated**: the row of a compressed-column matrix without a column list and with `α ≠ 1`
dereferences a null pointer, for every matrix. -/
theorem C18_columns_getRow_null (M : SparseMatrix K) (r : Nat) {α : K} (hα : Coeff α) (h : α ≠ 1) (row : Nat → K) :
    M.getRow r none α row = .ub .nullDeref := by
  unfold SparseMatrix.getRow
  exact if_neg fun e => h (hα.isOne.1 e)

/-- The merge loop that writes the selected entries, with the clean-up loop behind it. -/
theorem merge_write {idx : Nat → Nat} {hi : Nat} {num s : Nat → Nat} {len : Nat} (g : Nat → K)
    (sinj : ∀ i < len, ∀ j < len, s i = s j → i = j) :
    ∀ fuel i j, (hi - i) + (len - j) < fuel → IncOn idx i hi → IncOn num j len → ∀ c : Nat → K,
      ∃ j' c', mergeLoop idx hi num len (fun i j c => updA c (s j) (g i)) (fun j c => updA c (s j) 0) fuel i j c =
          .ok (j', c') ∧
        (∀ b, j ≤ b → b < len → loopFrom j' len (fun j c => updA c (s j) 0) c' (s b) =
          ∑ a ∈ Ico i hi, if idx a = num b then g a else 0) ∧
        (∀ q, (∀ b, j ≤ b → b < len → q ≠ s b) → loopFrom j' len (fun j c => updA c (s j) 0) c' q = c q) := by
  have tail : ∀ j (c : Nat → K), (∀ b, j ≤ b → b < len → loopFrom j len (fun j c => updA c (s j) 0) c (s b) = 0) ∧
      (∀ q, (∀ b, j ≤ b → b < len → q ≠ s b) → loopFrom j len (fun j c => updA c (s j) 0) c q = c q) := by
    intro j c
    obtain ⟨h1, h2⟩ := loop_write (len - j) (fun t => s (j + t)) (fun _ _ => (0 : K))
      (fun a ha b hb e => by have := sinj _ (by omega) _ (by omega) e; omega) c
    refine ⟨fun b hb1 hb2 => ?_, fun q hq => h2 q fun t ht => hq _ (by omega) (by omega)⟩
    have := h1 (b - j) (by omega)
    beta_reduce at this
    rwa [Nat.add_sub_cancel' hb1] at this
  intro fuel
  induction fuel with
  | zero => intro i j h; omega
  | succ fuel ih =>
    intro i j hf hI hN c
    simp only [mergeLoop]
    by_cases hc : i < hi ∧ j < len
    · rw [if_pos hc]
      obtain ⟨hi1, hj1⟩ := hc
      by_cases he : idx i = num j
      · rw [if_pos he]
        obtain ⟨j', c', e, h1, h2⟩ := ih (i+1) (j+1) (by omega) (fun a b x y z => hI a b (by omega) y z)
          (fun a b x y z => hN a b (by omega) y z) (updA c (s j) (g i))
        refine ⟨j', c', e, fun b hb1 hb2 => ?_, fun q hq => ?_⟩
        · by_cases hb : b = j
          · subst hb
            rw [h2 (s b) fun b' h3 h4 e => by have := sinj _ hb2 _ h4 e; omega, updA_same]
            rw [sum_eq_sum_Ico_succ_bot hi1, if_pos he, sum_eq_zero, add_zero]
            intro a ha
            rw [mem_Ico] at ha
            have := hI i a (by omega) (by omega) ha.2
            rw [if_neg (by omega)]
          · rw [h1 b (by omega) hb2, sum_eq_sum_Ico_succ_bot hi1, if_neg, zero_add]
            have := hN j b (by omega) (by omega) hb2
            omega
        · rw [h2 q fun b h3 h4 => hq b (by omega) h4, updA_ne _ _ (hq j (by omega) hj1)]
      · rw [if_neg he]
        by_cases hg : num j < idx i
        · rw [if_pos hg]
          obtain ⟨j', c', e, h1, h2⟩ := ih i (j+1) (by omega) hI
            (fun a b x y z => hN a b (by omega) y z) (updA c (s j) 0)
          refine ⟨j', c', e, fun b hb1 hb2 => ?_, fun q hq => ?_⟩
          · by_cases hb : b = j
            · subst hb
              rw [h2 (s b) fun b' h3 h4 e => by have := sinj _ hb2 _ h4 e; omega, updA_same, sum_eq_zero]
              intro a ha
              rw [mem_Ico] at ha
              by_cases e1 : a = i
              · subst e1; exact if_neg he
              · have := hI i a (by omega) (by omega) ha.2
                rw [if_neg (by omega)]
            · exact h1 b (by omega) hb2
          · rw [h2 q fun b h3 h4 => hq b (by omega) h4, updA_ne _ _ (hq j (by omega) hj1)]
        · rw [if_neg hg]
          obtain ⟨j', c', e, h1, h2⟩ := ih (i+1) j (by omega) (fun a b x y z => hI a b (by omega) y z) hN c
          refine ⟨j', c', e, fun b hb1 hb2 => ?_, h2⟩
          rw [h1 b hb1 hb2, sum_eq_sum_Ico_succ_bot hi1, if_neg, zero_add]
          by_cases e1 : b = j
          · subst e1; exact he
          · have := hN j b (by omega) (by omega) hb2
            omega
    · rw [if_neg hc]
      obtain ⟨t1, t2⟩ := tail j c
      refine ⟨j, c, rfl, fun b hb1 hb2 => ?_, t2⟩
      rw [t1 b hb1 hb2, Ico_eq_empty (by omega), sum_empty]

/-- One selected slice of compressed storage by merging. -/
theorem slice_spec {nMaj nMin size : Nat} {ptr idx : Nat → Nat} (W : CompWf nMaj nMin size ptr idx) (val : Nat → K)
    {m : Nat} (hm : m < nMaj) {ix : Ix} (hx : ix.Wf nMin) {α : K} (hα : Coeff α) (out : Nat → K) :
    ∃ out', (do
        let (j, c) ← mergeLoop idx (ptr (m+1)) (fun j => ix.number (ix.iSort j)) ix.len
          (fun i j c => updA c (ix.iSort j) (scaleEntry α (val i)))
          (fun j c => updA c (ix.iSort j) 0) ((ptr (m+1) - ptr m) + ix.len + 1) (ptr m) 0 out
        Res.ok (loopFrom j ix.len (fun j c => updA c (ix.iSort j) 0) c)) = .ok out' ∧
      Holds ix.len (fun i => α * compEntry ptr idx val m (ix.number i)) out out' := by
  obtain ⟨j', c', e, h1, h2⟩ := merge_write (idx := idx) (hi := ptr (m+1)) (num := fun j => ix.number (ix.iSort j))
    (s := ix.iSort) (len := ix.len) (fun i => scaleEntry α (val i)) hx.sinj ((ptr (m+1) - ptr m) + ix.len + 1) (ptr m) 0
    (by omega) (W.incOn hm) (incOn_sorted hx) out
  rw [e]
  refine ⟨_, rfl, fun i hi => ?_, fun i hi => h2 i fun b _ hb e => ?_⟩
  · obtain ⟨k, hk, e⟩ := hx.surj hi
    have := h1 k (by omega) hk
    rw [e] at this
    refine this.trans ?_
    rw [entry_map (W.incOn hm) _ val (scaleEntry α) (scale0 hα), scaleEntry_eq hα]
    rfl
  · have := hx.rng b hb
    omega

/-- **C18** columns of compressed columns. -/
theorem C18_columns_getCol (M : SparseMatrix K) (W : M.Wf) {c : Nat} (hc : c < M.nCols) {irows : Ix}
    (hr : irows.Wf M.nRows) {α : K} (hα : Coeff α) (col : Nat → K) :
    ∃ col', M.getCol c irows α col = .ok col' ∧
      Holds irows.len (fun i => α * M.entry (irows.number i) c) col col' :=
  slice_spec W M.val hc hr hα col

/-- **C18** rows of compressed rows. -/
theorem C18_rows_getRow (M : SparseMatrixRow K) (W : M.Wf) {r : Nat} (hr : r < M.nRows) {icols : Option Ix}
    (hc : ∀ ic ∈ icols, ic.Wf M.nCols) {α : K} (hα : Coeff α) (row : Nat → K) :
    ∃ row', M.getRow r icols α row = .ok row' ∧
      Holds (colCount M.nCols icols) (fun i => α * M.entry r (colOf icols i)) row row' := by
  cases icols with
  | some ic => exact slice_spec W M.val hr (hc ic rfl) hα row
  | none =>
    refine ⟨_, rfl, ?_⟩
    obtain ⟨z1, z2⟩ := holds_loop M.nCols (fun _ => (0 : K)) row
    obtain ⟨h1, h2⟩ := loop_write (M.jr (r+1) - M.jr r) (fun t => M.ic (M.jr r + t))
      (fun t _ => scaleEntry α (M.val (M.jr r + t)))
      (fun a ha b hb e => by
        have := (W.incOn hr).inj (i := M.jr r + a) (j := M.jr r + b) (by omega) (by omega) (by omega) (by omega) e
        omega) (loop (fun i r => updA r i 0) M.nCols row)
    refine ⟨fun i hi => ?_, fun i hi => ?_⟩
    · show (loopFrom _ _ _ _ : Nat → K) i = α * M.entry r i
      unfold loopFrom
      rw [← scaleEntry_eq hα]
      unfold SparseMatrixRow.entry compEntry
      rw [← entry_map (W.incOn hr) i M.val (scaleEntry α) (scale0 hα)]
      rcases pick_cases (K := K) (W.incOn hr) i with ⟨t, t1, t2, t3, t4⟩ | ⟨t1, t2⟩
      · rw [t4 fun i => scaleEntry α (M.val i)]
        have := h1 (t - M.jr r) (by omega)
        beta_reduce at this
        rwa [Nat.add_sub_cancel' t1, t3] at this
      · rw [t2 fun i => scaleEntry α (M.val i)]
        rw [h2 i fun t ht => (t1 (M.jr r + t) (by omega) (by omega)).symm, z1 i hi]
    · show (loopFrom _ _ _ _ : Nat → K) i = row i
      unfold loopFrom
      rw [h2 i fun t ht => ?_]
      · exact z2 i hi
      · have := W.rng r hr (M.jr r + t) (by omega) (by omega)
        have h3 : M.nCols ≤ i := hi
        omega

/-- **C18** columns of compressed rows with a row list.  Missing case: `C18_rows_getCol_null`,
`C18_rows_getCol_out_of_bounds`. -/
theorem C18_rows_getCol_partial (M : SparseMatrixRow K) (W : M.Wf) (c : Nat) {irows : Ix}
    (hr : irows.Wf M.nRows) {α : K} (hα : Coeff α) (col : Nat → K) :
    ∃ col', M.getCol c (some irows) α col = .ok col' ∧
      Holds irows.len (fun i => α * M.entry (irows.number i) c) col col' := by
  refine ⟨_, rfl, Holds.congr (holds_sorted hr (fun k => M.find (irows.number k) c (scaleEntry α)) col) fun i hi => ?_⟩
  have := find_eq W M.val (hr.num i hi) c (scaleEntry α) (scale0 hα)
  rw [scaleEntry_eq hα (compEntry _ _ _ _ _)] at this
  exact this

/-- **C18 violated**: without a row list and with `α ≠ 1` a null pointer is dereferenced. -/
theorem C18_rows_getCol_null (M : SparseMatrixRow K) (c : Nat) {α : K} (hα : Coeff α) (h : α ≠ 1) (col : Nat → K) :
    M.getCol c none α col = .ub .nullDeref := by
  unfold SparseMatrixRow.getCol
  exact if_neg fun e => h (hα.isOne.1 e)

/-- **C18 violated**: without a row list and with `α = 1` the loop runs over the number of columns: if there
are more columns than rows it reads behind the row pointers. -/
theorem C18_rows_getCol_out_of_bounds (M : SparseMatrixRow K) (c : Nat) (h : M.nRows < M.nCols) (col : Nat → K) :
    M.getCol c none 1 col = .ub .outOfBounds := by
  unfold SparseMatrixRow.getCol
  have e : isEqual (1 : K) 1 = true := isEqual_iff.2 (by rw [sub_self, abs_zero]; exact ZERO_pos.le)
  simp only [e, if_true]
  have key : ∀ n, M.nRows < n → loopR (fun j r => do
      let _ ← rd (M.nRows + 1) M.jr (j+1)
      Res.ok (updA r j (M.find j c (fun v => v)))) n col = .ub .outOfBounds := by
    intro n hn
    induction n with
    | zero => omega
    | succ n ih =>
      rw [loopR]
      by_cases h1 : M.nRows < n
      · rw [ih h1]; rfl
      · have h2 : n = M.nRows := by omega
        have ok : ∀ m, m ≤ M.nRows → ∃ z, loopR (fun j r => do
            let _ ← rd (M.nRows + 1) M.jr (j+1)
            Res.ok (updA r j (M.find j c (fun v => v)))) m col = .ok z := by
          intro m hm
          induction m with
          | zero => exact ⟨_, rfl⟩
          | succ m ihm =>
            obtain ⟨z, hz⟩ := ihm (by omega)
            rw [loopR, hz]
            refine ⟨updA z m (M.find m c (fun v => v)), ?_⟩
            simp only [Res.bind_ok, rd]
            rw [if_pos (by omega)]
            rfl
        obtain ⟨z, hz⟩ := ok n (by omega)
        rw [hz]
        simp only [Res.bind_ok, rd]
        rw [if_neg (by omega)]
        rfl
  exact key _ h

/-- `createDiagInfo` computes the documented diagonal pointers. -/
theorem diagPtr_loop {nMaj nMin size : Nat} {ptr idx : Nat → Nat} (W : CompWf nMaj nMin size ptr idx) :
    DiagPtr ptr idx nMaj (loop (fun j d => updA d j (scan idx j (ptr (j+1) - ptr j) (ptr j))) nMaj (fun _ => 0)) := by
  intro j hj
  obtain ⟨h1, _⟩ := loop_write nMaj (fun i => i) (fun j _ => scan idx j (ptr (j+1) - ptr j) (ptr j))
    (fun _ _ _ _ e => e) (fun _ => 0)
  have h := h1 j hj
  beta_reduce at h
  rw [h]
  obtain ⟨s1, s2, s3, s4⟩ := scan_spec idx j (ptr (j+1) - ptr j) (ptr j)
  have := W.mono j hj
  exact ⟨s1, by omega, s3, fun h => s4 (by omega)⟩

theorem diag_eq {nMaj nMin size : Nat} {ptr idx jd : Nat → Nat} (W : CompWf nMaj nMin size ptr idx)
    (D : DiagPtr ptr idx nMaj jd) (val : Nat → K) {j : Nat} (hj : j < nMaj) :
    (if jd j < ptr (j+1) ∧ idx (jd j) = j then val (jd j) else 0) = compEntry ptr idx val j j := by
  obtain ⟨d1, d2, d3, d4⟩ := D j hj
  unfold compEntry
  rcases pick_cases (K := K) (W.incOn hj) j with ⟨t, t1, t2, t3, t4⟩ | ⟨t1, t2⟩
  · rw [t4 val]
    have : t = jd j := by
      rcases Nat.lt_trichotomy t (jd j) with h | h | h
      · have := d3 t t1 h; omega
      · exact h
      · have h1 := d4 (by omega)
        have h2 := W.incOn hj (jd j) t d1 h t2
        omega
    subst this
    rw [if_pos ⟨t2, t3⟩]
  · rw [t2 val, if_neg]
    rintro ⟨h1, h2⟩
    exact t1 (jd j) d1 h1 h2

/-- **C18** diagonal of compressed columns once the diagonal information is available. -/
theorem C18_columns_diag (M : SparseMatrix K) (W : M.Wf) {jd : Nat → Nat} (hjd : M.jd = some jd)
    (D : DiagPtr M.jc M.ir M.nCols jd) {i : Nat} (hi : i < M.nCols) : M.diag i = M.entry i i := by
  unfold SparseMatrix.diag
  rw [hjd]
  exact diag_eq W D M.val hi

theorem C18_columns_createDiagInfo (M : SparseMatrix K) (W : M.Wf) (h : M.jd = none) :
    ∃ jd, M.createDiagInfo = { M with jd := some jd } ∧ DiagPtr M.jc M.ir M.nCols jd := by
  unfold SparseMatrix.createDiagInfo
  rw [h]
  exact ⟨_, rfl, diagPtr_loop W⟩

/-- **C18** diagonal of compressed rows. -/
theorem C18_rows_diag (M : SparseMatrixRow K) (W : M.Wf) {jd : Nat → Nat} (hjd : M.jd = some jd)
    (D : DiagPtr M.jr M.ic M.nRows jd) {i : Nat} (hi : i < M.nRows) : M.diag i = M.entry i i := by
  unfold SparseMatrixRow.diag
  rw [hjd]
  exact diag_eq W D M.val hi

theorem C18_rows_createDiagInfo (M : SparseMatrixRow K) (W : M.Wf) (h : M.jd = none) :
    ∃ jd, M.createDiagInfo = { M with jd := some jd } ∧ DiagPtr M.jr M.ic M.nRows jd := by
  unfold SparseMatrixRow.createDiagInfo
  rw [h]
  exact ⟨_, rfl, diagPtr_loop W⟩

/-- No entry is stored outside the diagonal. -/
def OffDiagFree (ptr idx : Nat → Nat) (n : Nat) : Prop := ∀ j < n, ∀ i, ptr j ≤ i → i < ptr (j+1) → idx i = j

theorem isDiag_loop {nMaj nMin size : Nat} {ptr idx : Nat → Nat} (W : CompWf nMaj nMin size ptr idx) :
    loop (fun j b => if ptr (j+1) > ptr j + 1 then false
      else if ptr (j+1) = ptr j + 1 ∧ idx (ptr j) ≠ j then false else b) nMaj true = true ↔
      OffDiagFree ptr idx nMaj := by
  have e : loop (fun j b => if ptr (j+1) > ptr j + 1 then false
      else if ptr (j+1) = ptr j + 1 ∧ idx (ptr j) ≠ j then false else b) nMaj true =
      loop (fun j b => if (decide (ptr (j+1) > ptr j + 1) || decide (ptr (j+1) = ptr j + 1 ∧ idx (ptr j) ≠ j)) = true
        then false else b) nMaj true := by
    apply loop_congr
    intro j _
    funext b
    by_cases h1 : ptr (j+1) > ptr j + 1
    · simp [h1]
    · by_cases h2 : ptr (j+1) = ptr j + 1 ∧ idx (ptr j) ≠ j
      · simp [h2]
      · simp only [h1, h2, if_false, decide_false, Bool.or_self, Bool.false_eq_true]
  rw [e, loop_and]
  constructor
  · rintro ⟨_, h⟩ j hj i h1 h2
    have := h j hj
    rw [Bool.or_eq_false_iff, decide_eq_false_iff_not, decide_eq_false_iff_not] at this
    obtain ⟨a, b⟩ := this
    have e1 : i = ptr j := by omega
    subst e1
    by_contra hne
    exact b ⟨by omega, hne⟩
  · intro h
    refine ⟨rfl, fun j hj => ?_⟩
    rw [Bool.or_eq_false_iff, decide_eq_false_iff_not, decide_eq_false_iff_not]
    refine ⟨fun hgt => ?_, fun hc => hc.2 (h j hj _ (Nat.le_refl _) (by omega))⟩
    have h1 := h j hj (ptr j) (Nat.le_refl _) (by omega)
    have h2 := h j hj (ptr j + 1) (by omega) (by omega)
    have h3 := W.incOn hj (ptr j) (ptr j + 1) (Nat.le_refl _) (by omega) (by omega)
    omega

/-- **C18** `isDiag` of compressed columns: square and nothing stored outside the diagonal. -/
theorem C18_columns_isDiag (M : SparseMatrix K) (W : M.Wf) :
    M.isDiag = true ↔ M.nCols = M.nRows ∧ OffDiagFree M.jc M.ir M.nCols := by
  unfold SparseMatrix.isDiag
  by_cases h : M.nCols = M.nRows
  · rw [if_neg (by simpa using h), isDiag_loop W]
    simp [h]
  · rw [if_pos (by simpa using h)]
    simp [h]

theorem C18_rows_isDiag (M : SparseMatrixRow K) (W : M.Wf) :
    M.isDiag = true ↔ M.nCols = M.nRows ∧ OffDiagFree M.jr M.ic M.nRows := by
  unfold SparseMatrixRow.isDiag
  by_cases h : M.nCols = M.nRows
  · rw [if_neg (by simpa using h), isDiag_loop W]
    simp [h]
  · rw [if_pos (by simpa using h)]
    simp [h]

/-- If nothing is stored outside the diagonal, the off-diagonal entries are zero. -/
theorem offDiagFree_entry {ptr idx : Nat → Nat} {n : Nat} (h : OffDiagFree ptr idx n) (val : Nat → K) {m r : Nat}
    (hm : m < n) (hne : r ≠ m) : compEntry ptr idx val m r = 0 := by
  unfold compEntry
  apply sum_eq_zero
  intro i hi
  rw [mem_Ico] at hi
  rw [if_neg]
  rw [h m hm i hi.1 hi.2]
  exact fun e => hne e.symm

/-- **C18** `isDiag` after construction from a dense array: exactly the square matrices whose off-diagonal
entries are all zero. -/
theorem C18_columns_isDiag_ofDense (nr nc ld : Nat) (v : Nat → K) :
    (SparseMatrix.ofDense nr nc ld v).isDiag = true ↔
      nr = nc ∧ ∀ r < nr, ∀ c < nc, r ≠ c → v (r * ld + c) = 0 := by
  rw [C18_columns_isDiag _ (C16_columns_represents nr nc ld v).1]
  constructor
  · rintro ⟨h1, h2⟩
    refine ⟨h1.symm, fun r hr c hc hne => ?_⟩
    by_contra hv
    obtain ⟨t, t1, t2, t3⟩ := (C16_columns_pattern nr nc ld v c hc r).2 ⟨hr, Or.inr hv⟩
    have := h2 c hc t t1 t2
    omega
  · rintro ⟨h1, h2⟩
    refine ⟨h1.symm, fun c hc t t1 t2 => ?_⟩
    obtain ⟨h3, h4⟩ := (C16_columns_pattern nr nc ld v c hc _).1 ⟨t, t1, t2, rfl⟩
    rcases h4 with h4 | h4
    · exact h4
    · by_contra hne
      exact h4 (h2 _ h3 c hc hne)

theorem C18_rows_isDiag_ofDense (nr nc ld : Nat) (v : Nat → K) :
    (SparseMatrixRow.ofDense nr nc ld v).isDiag = true ↔
      nr = nc ∧ ∀ r < nr, ∀ c < nc, r ≠ c → v (r * ld + c) = 0 := by
  rw [C18_rows_isDiag _ (C16_rows_represents nr nc ld v).1]
  constructor
  · rintro ⟨h1, h2⟩
    refine ⟨h1.symm, fun r hr c hc hne => ?_⟩
    by_contra hv
    obtain ⟨t, t1, t2, t3⟩ := (C16_rows_pattern nr nc ld v r hr c).2 ⟨hc, Or.inr hv⟩
    have := h2 r hr t t1 t2
    omega
  · rintro ⟨h1, h2⟩
    refine ⟨h1.symm, fun r hr t t1 t2 => ?_⟩
    obtain ⟨h3, h4⟩ := (C16_rows_pattern nr nc ld v r hr _).1 ⟨t, t1, t2, rfl⟩
    rcases h4 with h4 | h4
    · exact h4
    · by_contra hne
      exact h4 (h2 r hr _ h3 fun e => hne e.symm)

/-- **C18 violated** (`isDiag`): the answer depends on the storage format: with one off-diagonal entry between
0 and `EPS` the dense format answers yes, the sparse formats answer no. -/
theorem C18_isDiag_formats_disagree :
    let v : Nat → ℚ := fun i => if i = 1 then EPS / 2 else if i = 0 then 1 else if i = 3 then 1 else 0
    (DenseMatrix.ofArray 2 2 2 v 4).isDiag = true ∧ (SparseMatrix.ofDense 2 2 2 v).isDiag = false ∧
      (SparseMatrixRow.ofDense 2 2 2 v).isDiag = false := by
  decide +kernel

/-! ### Non-vacuity -/

example : ∃ M : SparseMatrix ℚ, M.Wf ∧ M.nRows = 2 ∧ M.nCols = 2 ∧ (∃ jd, M.createDiagInfo.jd = some jd ∧
      DiagPtr M.jc M.ir M.nCols jd) ∧ M.createDiagInfo.diag 1 = 1 ∧ M.isDiag = true ∧
    (match M.getRow 1 (some ix10) 3 (fun _ => 7) with | .ok r => (r 0, r 1, r 2) | _ => (0, 0, 0)) = (3, 0, 7) ∧
    (match M.getCol 1 ix10 3 (fun _ => 7) with | .ok r => (r 0, r 1, r 2) | _ => (0, 0, 0)) = (3, 0, 7) := by
  refine ⟨eyeC, (C16_columns_represents 2 2 2 _).1, rfl, rfl, ?_, by decide +kernel, by decide +kernel,
    by decide +kernel, by decide +kernel⟩
  obtain ⟨jd, e, d⟩ := C18_columns_createDiagInfo eyeC (C16_columns_represents 2 2 2 _).1 rfl
  exact ⟨jd, by rw [e], d⟩

end QpOASES.Props
