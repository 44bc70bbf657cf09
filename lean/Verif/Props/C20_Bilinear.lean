import Verif.Props.C19_AddToDiag

/-!
C20: quadratic forms `Xᵀ H X`.
-/
namespace QpOASES.Props
open Finset Spec ReturnValue

variable {K : Type} [Field K] [LinearOrder K] [IsStrictOrderedRing K]

/-- `x_iᵀ H x_j` over the rows and columns in the list; `x_i` starts at `x + i*xLD`. -/
def quadForm (H : Nat → Nat → K) (ix : Ix) (x : Nat → K) (xLD : Nat) (i j : Nat) : K :=
  ∑ a ∈ range ix.len, ∑ b ∈ range ix.len,
    x (i * xLD + ix.number a) * H (ix.number a) (ix.number b) * x (j * xLD + ix.number b)

theorem posInj_rows {n m ld : Nat} (h : Fits n m ld) : PosInj n m (fun k j => k * ld + j) := by
  intro k hk j hj k' hk' j' hj' e
  have e' : k * ld + j = k' * ld + j' := e
  exact posInj_id h k hk j hj k' hk' j' hj' (show j + k * ld = j' + k' * ld by omega)

/-- **C20**, dense. -/
theorem C20_dense (M : DenseMatrix K) {icols : Ix} (xN : Nat) (x : Nat → K) (xLD : Nat) (y : Nat → K) (yLD : Nat)
    (hy : Fits xN xN yLD) :
    HoldsBlock xN xN yLD (fun kk jj => quadForm M.entry icols x xLD jj kk) y (M.bilinear icols xN x xLD y yLD) := by
  -- the cleared result
  obtain ⟨z1, z2⟩ := loop2_write xN xN (fun ii jj => ii * yLD + jj) (fun _ _ _ => (0 : K)) (posInj_rows hy) y
  -- the product `H x`
  have A0 : ∀ q, loop (fun i a => updA a i (0 : K)) (icols.len * xN) (fun _ => 0) q = 0 :=
    zero_loop _ _ (fun _ => rfl)
  have hAx := adds_loop (F := fun j => loop (fun i a => loop (fun k a => updA a (j + k * icols.len)
      (a (j + k * icols.len) + M.val (icols.number j * M.leaDim + icols.number i) * x (k * xLD + icols.number i))) xN a) icols.len)
    icols.len fun j _ => adds_loop icols.len fun i _ => adds_loop xN fun k _ => adds_upd (j + k * icols.len)
      (M.val (icols.number j * M.leaDim + icols.number i) * x (k * xLD + icols.number i))
  have hA : ∀ ii < icols.len, ∀ kk < xN, loop2 icols.len icols.len (fun j i a =>
      let h := M.val (icols.number j * M.leaDim + icols.number i)
      loop (fun k a => updA a (j + k * icols.len) (a (j + k * icols.len) + h * x (k * xLD + icols.number i))) xN a)
      (loop (fun i a => updA a i (0 : K)) (icols.len * xN) (fun _ => 0)) (ii + kk * icols.len) =
      ∑ b ∈ range icols.len, M.entry (icols.number ii) (icols.number b) * x (kk * xLD + icols.number b) := by
    intro ii hii kk hkk
    refine (hAx _ _).trans ?_
    beta_reduce
    rw [A0, zero_add]
    have inj := posInj_id (n := xN) (m := icols.len) (ld := icols.len) (Or.inr (Nat.le_refl _))
    rw [sum_congr rfl fun j _ => sum_comm, sum_comm]
    refine (sum_congr rfl fun k _ => sum_congr rfl fun j _ => ?_).trans
      (sum_block inj (fun k j => ∑ b ∈ range icols.len, M.entry (icols.number j) (icols.number b) * x (k * xLD + icols.number b)) hkk hii)
    by_cases e : ii + kk * icols.len = j + k * icols.len
    · simp only [e, if_true]; rfl
    · simp only [e, if_false, sum_const_zero]
  suffices key : ∀ Ax : Nat → K, (∀ ii < icols.len, ∀ kk < xN, Ax (ii + kk * icols.len) =
      ∑ b ∈ range icols.len, M.entry (icols.number ii) (icols.number b) * x (kk * xLD + icols.number b)) →
      HoldsBlock xN xN yLD (fun kk jj => quadForm M.entry icols x xLD jj kk) y
        (loop3 icols.len xN xN (fun ii jj kk y => updA y (kk + jj * yLD)
          (y (kk + jj * yLD) + x (icols.number ii + jj * xLD) * Ax (ii + kk * icols.len)))
          (loop2 xN xN (fun ii jj y => updA y (ii * yLD + jj) 0) y)) from key _ hA
  clear hA
  intro Ax hA
  have hF := adds_loop3 (n := icols.len) (m := xN) (l := xN) (F := fun ii jj kk y =>
      updA y (kk + jj * yLD) (y (kk + jj * yLD) + x (icols.number ii + jj * xLD) * Ax (ii + kk * icols.len)))
    fun ii _ jj _ kk _ => adds_upd (kk + jj * yLD) (x (icols.number ii + jj * xLD) * Ax (ii + kk * icols.len))
  have inj := posInj_id hy
  refine ⟨fun jj hjj kk hkk => ?_, fun q hq => ?_⟩
  · refine (hF _ _).trans ?_
    beta_reduce
    have := z1 jj hjj kk hkk
    beta_reduce at this
    rw [Nat.add_comm] at this
    rw [this, zero_add, sum_comm]
    unfold quadForm
    have : ∀ jj' ∈ range xN, ∑ ii ∈ range icols.len, ∑ kk' ∈ range xN,
        (if kk + jj * yLD = kk' + jj' * yLD then x (icols.number ii + jj' * xLD) * Ax (ii + kk' * icols.len) else 0) =
        ∑ kk' ∈ range xN, if kk + jj * yLD = kk' + jj' * yLD then
          ∑ ii ∈ range icols.len, x (icols.number ii + jj' * xLD) * Ax (ii + kk' * icols.len) else 0 := by
      intro jj' _
      rw [sum_comm]
      refine sum_congr rfl fun kk' _ => ?_
      by_cases e : kk + jj * yLD = kk' + jj' * yLD
      · simp only [e, if_true]
      · simp only [e, if_false, sum_const_zero]
    rw [sum_congr rfl this, sum_block inj (fun jj' kk' => ∑ ii ∈ range icols.len,
      x (icols.number ii + jj' * xLD) * Ax (ii + kk' * icols.len)) hjj hkk]
    refine sum_congr rfl fun ii hii => ?_
    rw [hA ii (mem_range.1 hii) kk hkk, mul_sum]
    refine sum_congr rfl fun b _ => ?_
    rw [Nat.add_comm (icols.number ii), mul_assoc]
  · refine (hF _ _).trans ?_
    beta_reduce
    rw [sum_eq_zero, add_zero]
    · exact z2 q fun k hk j hj e => hq k hk j hj (by omega)
    · intro ii _
      exact sum_block_off _ hq

/-- Selected lower part of a column: the entries from the diagonal pointer on. -/
theorem lower_sum {nMaj nMin size : Nat} {ptr idx jd : Nat → Nat} (W : CompWf nMaj nMin size ptr idx)
    (D : DiagPtr ptr idx nMaj jd) (val : Nat → K) {c : Nat} (hc : c < nMaj) (r : Nat) :
    ∑ a ∈ Ico (jd c) (ptr (c+1)), (if idx a = r then val a else 0) = if c ≤ r then compEntry ptr idx val c r else 0 := by
  obtain ⟨d1, d2, d3, d4⟩ := D c hc
  unfold compEntry
  by_cases h : c ≤ r
  · rw [if_pos h, ← sum_Ico_consecutive _ d1 d2, sum_eq_zero (s := Ico (ptr c) (jd c)), zero_add]
    intro a ha
    rw [mem_Ico] at ha
    have := d3 a ha.1 ha.2
    rw [if_neg (by omega)]
  · rw [if_neg h]
    apply sum_eq_zero
    intro a ha
    rw [mem_Ico] at ha
    have h1 := d4 (by omega)
    rw [if_neg]
    rcases Nat.eq_or_lt_of_le ha.1 with h2 | h2
    · rw [← h2]; omega
    · have := W.incOn hc (jd c) a d1 h2 ha.2
      omega

/-- A full double sum from its lower triangle. -/
theorem sum_symm (n : Nat) (num : Nat → Nat) (inj : ∀ i < n, ∀ j < n, num i = num j → i = j) (h : Nat → Nat → K) :
    ∑ l ∈ range n, ∑ k ∈ range n, (if num l ≤ num k then (if num k = num l then h l k else h l k + h k l) else 0) =
    ∑ l ∈ range n, ∑ k ∈ range n, h l k := by
  have e1 : ∑ l ∈ range n, ∑ k ∈ range n, h l k =
      ∑ l ∈ range n, ∑ k ∈ range n, (if num l ≤ num k then h l k else 0) +
      ∑ l ∈ range n, ∑ k ∈ range n, (if num k < num l then h l k else 0) := by
    rw [← sum_add_distrib]
    refine sum_congr rfl fun l _ => ?_
    rw [← sum_add_distrib]
    refine sum_congr rfl fun k _ => ?_
    by_cases e : num l ≤ num k
    · rw [if_pos e, if_neg (by omega), add_zero]
    · rw [if_neg e, if_pos (by omega), zero_add]
  rw [e1, sum_comm (f := fun l k => if num k < num l then h l k else 0), ← sum_add_distrib]
  refine sum_congr rfl fun l hl => ?_
  rw [← sum_add_distrib]
  refine sum_congr rfl fun k hk => ?_
  by_cases e : num l ≤ num k
  · rw [if_pos e, if_pos e]
    by_cases e2 : num k = num l
    · rw [if_pos e2, if_neg (by omega), add_zero]
    · rw [if_neg e2, if_pos (by omega)]
  · rw [if_neg e, if_neg e, if_neg (by omega), add_zero]

/-- Mirroring the triangle. -/
theorem mirror (n ld : Nat) (h : Fits n n ld) (y : Nat → K) :
    (∀ i j, i ≤ j → j < n → loop (fun i y => loopFrom i n (fun j y => updA y (j * ld + i) (y (i * ld + j))) y) n y (j * ld + i) = y (i * ld + j)) ∧
    (∀ i j, i ≤ j → j < n → loop (fun i y => loopFrom i n (fun j y => updA y (j * ld + i) (y (i * ld + j))) y) n y (i * ld + j) = y (i * ld + j)) ∧
    (∀ q, (∀ i < n, ∀ j < n, q ≠ i * ld + j) → loop (fun i y => loopFrom i n (fun j y => updA y (j * ld + i) (y (i * ld + j))) y) n y q = y q) := by
  have inj := posInj_rows h
  let P : Nat → Nat → (Nat → K) → Prop := fun i jj s =>
    (∀ a b, a ≤ b → b < n → s (a * ld + b) = y (a * ld + b)) ∧
    (∀ a b, a ≤ b → b < n → (a < i ∨ (a = i ∧ b < jj)) → s (b * ld + a) = y (a * ld + b)) ∧
    (∀ q, (∀ i < n, ∀ j < n, q ≠ i * ld + j) → s q = y q)
  have key := loop_inv (f := fun i y => loopFrom i n (fun j y => updA y (j * ld + i) (y (i * ld + j))) y)
    (fun i s => P i 0 s) n y ⟨fun _ _ _ _ => rfl, fun a b h1 h2 h3 => by omega, fun _ _ => rfl⟩ (by
      intro i s hi hP
      have inner := loop_inv (f := fun t s => updA s ((i + t) * ld + i) (s (i * ld + (i + t)))) (fun t s => P i (i + t) s) (n - i) s
        ⟨hP.1, fun a b h1 h2 h3 => by
          rcases h3 with h3 | h3
          · exact hP.2.1 a b h1 h2 (Or.inl h3)
          · omega, hP.2.2⟩ (by
          intro t s ht hs
          obtain ⟨s1, s2, s3⟩ := hs
          have hit : i + t < n := by omega
          refine ⟨fun a b h1 h2 => ?_, fun a b h1 h2 h3 => ?_, fun q hq => ?_⟩
          · by_cases e : a * ld + b = (i + t) * ld + i
            · obtain ⟨e1, e2⟩ := inj a (by omega) b h2 (i+t) hit i hi e
              have : t = 0 := by omega
              subst this
              rw [e, updA_same, s1 i (i+0) (by omega) hit]
              rfl
            · rw [updA_ne _ _ e, s1 a b h1 h2]
          · by_cases e : b * ld + a = (i + t) * ld + i
            · obtain ⟨e1, e2⟩ := inj b h2 a (by omega) (i+t) hit i hi e
              subst e1 e2
              rw [updA_same, s1 _ _ h1 h2]
            · rw [updA_ne _ _ e]
              refine s2 a b h1 h2 ?_
              rcases h3 with h3 | ⟨h3, h4⟩
              · exact Or.inl h3
              · right
                refine ⟨h3, ?_⟩
                subst h3
                rcases Nat.lt_or_ge b (a + t) with h5 | h5
                · exact h5
                · have : b = a + t := by omega
                  subst this
                  exact absurd rfl e
          · rw [updA_ne _ _ (hq _ hit _ hi), s3 q hq])
      refine ⟨inner.1, fun a b h1 h2 h3 => inner.2.1 a b h1 h2 ?_, inner.2.2⟩
      rcases h3 with h3 | h3
      · by_cases e : a = i
        · exact Or.inr ⟨e, by omega⟩
        · exact Or.inl (by omega)
      · omega)
  exact ⟨fun i j h1 h2 => key.2.1 i j h1 h2 (Or.inl (by omega)), key.1, key.2.2⟩

/-- **C20**, compressed columns.  The result array must either have leading dimension `xN` or be zero on the
part of the block that the clearing loop `for (i < xN*xN)` misses (as it is in the solver); missing: other
arrays, see `C20_sparse_violated`. -/
theorem C20_sparse_partial (M : SparseMatrix K) (W : M.Wf) (hsq : M.nRows = M.nCols) {jd : Nat → Nat}
    (hjd : M.jd = some jd) (D : DiagPtr M.jc M.ir M.nCols jd)
    (hsym : ∀ r < M.nCols, ∀ c < M.nCols, M.entry r c = M.entry c r) {icols : Ix} (hc : icols.Wf M.nCols)
    (xN : Nat) (x : Nat → K) (xLD : Nat) (y : Nat → K) (yLD : Nat) (hy : Fits xN xN yLD)
    (hy0 : ∀ i < xN, ∀ j < xN, xN * xN ≤ i * yLD + j → y (i * yLD + j) = 0) :
    ∃ y', M.bilinear icols xN x xLD y yLD = .ok (SUCCESSFUL_RETURN, y') ∧
      (∀ i < xN, ∀ j < xN, y' (i + j * yLD) = quadForm M.entry icols x xLD i j) ∧
      ∀ q, xN * xN ≤ q → (∀ i < xN, ∀ j < xN, q ≠ i + j * yLD) → y' q = y q := by
  unfold SparseMatrix.bilinear
  simp only [hjd]
  set num := fun k => icols.number (icols.iSort k) with hnum
  have inj := posInj_rows hy
  have hcol : ∀ l < icols.len, num l < M.nCols := fun l hl => hc.num _ (hc.rng l hl)
  have ninj : ∀ i < icols.len, ∀ j < icols.len, num i = num j → i = j := fun i hi j hj e =>
    hc.sinj i hi j hj (hc.ninj _ (hc.rng i hi) _ (hc.rng j hj) e)
  -- coefficient added to the entry (i,j) for column l and row k, divided by the matrix entry
  let c : Nat → Nat → Nat → Nat → K := fun l k i j =>
    if num k = num l then x (i * xLD + num l) * x (j * xLD + num l)
    else x (i * xLD + num l) * x (j * xLD + num k) + x (i * xLD + num k) * x (j * xLD + num l)
  have hbody : ∀ l < icols.len, ∀ z : Nat → K, ∃ z', (do
      let (_, y) ← mergeLoop M.ir (M.jc (num l+1)) num icols.len (fun idx k y =>
          let row := num k
          if row = num l then
            loop (fun i y => loopFrom i xN (fun j y =>
              updA y (i * yLD + j) (y (i * yLD + j) + M.val idx * x (i * xLD + num l) * x (j * xLD + num l))) y) xN y
          else
            loop (fun i y => loopFrom i xN (fun j y =>
              updA y (i * yLD + j) (y (i * yLD + j) + M.val idx *
                (x (i * xLD + num l) * x (j * xLD + row) + x (i * xLD + row) * x (j * xLD + num l)))) y) xN y)
        (fun _ y => y) ((M.jc (num l+1) - jd (num l)) + icols.len + 1) (jd (num l)) 0 z
      Res.ok y) = .ok z' ∧ ∀ q, z' q = z q + ∑ a ∈ Ico (jd (num l)) (M.jc (num l + 1)), ∑ k ∈ Ico 0 icols.len,
        if M.ir a = num k then (∑ i ∈ range xN, ∑ j ∈ Ico i xN, if q = i * yLD + j then M.val a * c l k i j else 0) else 0 := by
    intro l hl z
    have hd := D (num l) (hcol l hl)
    obtain ⟨j', z', e, h⟩ := merge_adds (idx := M.ir) (hi := M.jc (num l+1)) (num := num) (len := icols.len)
      (onEq := fun idx k y =>
          if num k = num l then
            loop (fun i y => loopFrom i xN (fun j y =>
              updA y (i * yLD + j) (y (i * yLD + j) + M.val idx * x (i * xLD + num l) * x (j * xLD + num l))) y) xN y
          else
            loop (fun i y => loopFrom i xN (fun j y =>
              updA y (i * yLD + j) (y (i * yLD + j) + M.val idx *
                (x (i * xLD + num l) * x (j * xLD + num k) + x (i * xLD + num k) * x (j * xLD + num l)))) y) xN y)
      (d := fun a k q => ∑ i ∈ range xN, ∑ j ∈ Ico i xN, if q = i * yLD + j then M.val a * c l k i j else 0)
      ((M.jc (num l+1) - jd (num l)) + icols.len + 1) (jd (num l)) 0 (by omega)
      (fun a b h1 h2 h3 => W.incOn (hcol l hl) a b (le_trans hd.1 h1) h2 h3) (incOn_sorted hc)
      (fun a k _ _ _ => by
        by_cases e : num k = num l
        · simp only [e, if_true]
          refine Adds.congr (adds_loop xN fun i _ => adds_loopFrom i xN fun j _ _ => adds_upd (i * yLD + j)
            (M.val a * x (i * xLD + num l) * x (j * xLD + num l))) fun q => ?_
          refine sum_congr rfl fun i _ => sum_congr rfl fun j _ => ?_
          simp only [c, e, if_true, mul_assoc]
        · simp only [e, if_false]
          refine Adds.congr (adds_loop xN fun i _ => adds_loopFrom i xN fun j _ _ => adds_upd (i * yLD + j)
            (M.val a * (x (i * xLD + num l) * x (j * xLD + num k) + x (i * xLD + num k) * x (j * xLD + num l)))) fun q => ?_
          refine sum_congr rfl fun i _ => sum_congr rfl fun j _ => ?_
          simp only [c, e, if_false]) z
    refine ⟨z', ?_, h⟩
    simp only [e, Res.bind_ok]
  obtain ⟨y1, e1, h1⟩ := loopR_adds icols.len hbody (loop (fun i y => updA y i 0) (xN * xN) y)
  rw [e1]
  -- the cleared array
  obtain ⟨z1, z2⟩ := holds_loop (xN * xN) (fun _ => (0 : K)) y
  have y0 : ∀ i < xN, ∀ j < xN, loop (fun i y => updA y i (0 : K)) (xN * xN) y (i * yLD + j) = 0 := by
    intro i hi j hj
    rcases Nat.lt_or_ge (i * yLD + j) (xN * xN) with h | h
    · exact z1 _ h
    · rw [z2 _ h]; exact hy0 i hi j hj h
  -- the accumulated lower triangle
  have low : ∀ i j, i ≤ j → j < xN → y1 (i * yLD + j) = quadForm M.entry icols x xLD i j := by
    intro i j hij hj
    rw [h1, y0 i (by omega) j hj, zero_add]
    have s1 : ∀ (a l k : Nat), ∑ i' ∈ range xN, ∑ j' ∈ Ico i' xN,
        (if i * yLD + j = i' * yLD + j' then M.val a * c l k i' j' else 0) = M.val a * c l k i j := by
      intro a l k
      rw [sum_eq_single i, sum_eq_single j]
      · rw [if_pos rfl]
      · intro j' hj' hne
        rw [mem_Ico] at hj'
        rw [if_neg]
        intro e
        exact hne (inj i (by omega) j hj i (by omega) j' hj'.2 e).2.symm
      · intro hn; exact absurd (mem_Ico.2 ⟨hij, hj⟩) hn
      · intro i' hi' hne
        apply sum_eq_zero
        intro j' hj'
        rw [mem_Ico] at hj'
        rw [if_neg]
        intro e
        exact hne (inj i (by omega) j hj i' (mem_range.1 hi') j' hj'.2 e).1.symm
      · intro hn; exact absurd (mem_range.2 (by omega)) hn
    have s2 : ∀ l ∈ range icols.len, ∑ a ∈ Ico (jd (num l)) (M.jc (num l + 1)), ∑ k ∈ Ico 0 icols.len,
        (if M.ir a = num k then (∑ i' ∈ range xN, ∑ j' ∈ Ico i' xN,
          if i * yLD + j = i' * yLD + j' then M.val a * c l k i' j' else 0) else 0) =
        ∑ k ∈ range icols.len, if num l ≤ num k then (if num k = num l then
          x (i * xLD + num l) * M.entry (num l) (num k) * x (j * xLD + num k) else
          x (i * xLD + num l) * M.entry (num l) (num k) * x (j * xLD + num k) +
          x (i * xLD + num k) * M.entry (num k) (num l) * x (j * xLD + num l)) else 0 := by
      intro l hl
      rw [mem_range] at hl
      rw [sum_comm, Nat.Ico_zero_eq_range]
      refine sum_congr rfl fun k hk => ?_
      rw [mem_range] at hk
      have s3 : ∑ a ∈ Ico (jd (num l)) (M.jc (num l + 1)),
          (if M.ir a = num k then (∑ i' ∈ range xN, ∑ j' ∈ Ico i' xN,
            if i * yLD + j = i' * yLD + j' then M.val a * c l k i' j' else 0) else 0) =
          (∑ a ∈ Ico (jd (num l)) (M.jc (num l + 1)), if M.ir a = num k then M.val a else 0) * c l k i j := by
        rw [sum_mul]
        refine sum_congr rfl fun a _ => ?_
        rw [s1]
        by_cases e : M.ir a = num k
        · rw [if_pos e, if_pos e]
        · rw [if_neg e, if_neg e, zero_mul]
      rw [s3, lower_sum W D M.val (hcol l hl)]
      by_cases e : num l ≤ num k
      · rw [if_pos e, if_pos e]
        have e2 : compEntry M.jc M.ir M.val (num l) (num k) = M.entry (num k) (num l) := rfl
        rw [e2]
        by_cases e3 : num k = num l
        · simp only [c, e3, if_true]
          ring
        · simp only [c, e3, if_false]
          rw [hsym (num l) (hcol l hl) (num k) (hcol k hk)]
          ring
      · rw [if_neg e, if_neg e, zero_mul]
    rw [sum_congr rfl s2, sum_symm icols.len num ninj (fun l k =>
      x (i * xLD + num l) * M.entry (num l) (num k) * x (j * xLD + num k))]
    unfold quadForm
    rw [← hc.sum_sort (fun a => ∑ b ∈ range icols.len, x (i * xLD + icols.number a) *
      M.entry (icols.number a) (icols.number b) * x (j * xLD + icols.number b))]
    refine sum_congr rfl fun l _ => ?_
    exact hc.sum_sort (fun b => x (i * xLD + num l) * M.entry (num l) (icols.number b) * x (j * xLD + icols.number b))
  obtain ⟨m1, m2, m3⟩ := mirror xN yLD hy y1
  refine ⟨_, rfl, fun i hi j hj => ?_, fun q hq1 hq2 => ?_⟩
  · rw [Nat.add_comm]
    rcases Nat.le_or_le i j with h | h
    · exact (m1 i j h hj).trans (low i j h hj)
    · rw [m2 j i h hi, low j i h hi]
      unfold quadForm
      rw [sum_comm]
      refine sum_congr rfl fun a ha => sum_congr rfl fun b hb => ?_
      rw [hsym _ (hc.num _ (mem_range.1 hb)) _ (hc.num _ (mem_range.1 ha))]
      ring
  · have hq3 : ∀ i < xN, ∀ j < xN, q ≠ i * yLD + j := fun i hi j hj e => hq2 j hj i hi (by omega)
    rw [m3 q hq3, h1, z2 q hq1]
    rw [sum_eq_zero, add_zero]
    intro l _
    apply sum_eq_zero
    intro a _
    apply sum_eq_zero
    intro k _
    have : ∑ i ∈ range xN, ∑ j ∈ Ico i xN, (if q = i * yLD + j then M.val a * c l k i j else 0) = 0 := by
      apply sum_eq_zero
      intro i hi
      apply sum_eq_zero
      intro j hj
      rw [mem_Ico] at hj
      rw [if_neg (hq3 i (mem_range.1 hi) j hj.2)]
    rw [this, ite_self]

/-- **C20 violated** for a result array with a leading dimension larger than the number of vectors: two zero
vectors, result array filled with 1 and leading dimension 3: the entry (1,1) stays 1. -/
theorem C20_sparse_violated :
    (match (eyeC.createDiagInfo).bilinear ix10 2 (fun _ => 0) 2 (fun _ => 1) 3 with
      | .ok (_, y) => y (1 + 1 * 3) | _ => 0) = 1 ∧
    quadForm eyeC.entry ix10 (fun _ => 0) 2 1 1 = 0 := by
  refine ⟨by decide +kernel, ?_⟩
  unfold quadForm
  simp

/-! ### Non-vacuity -/

example : (match (eyeC.createDiagInfo).bilinear ix10 2 (fun i => if i = 0 then 1 else 3) 2 (fun _ => 1) 2 with
      | .ok (_, y) => (y 0, y 1, y 2, y 3) | _ => (0, 0, 0, 0)) = (10, 12, 12, 18) := by decide +kernel

example : ∀ r < eyeC.nCols, ∀ c < eyeC.nCols, eyeC.entry r c = eyeC.entry c r := by decide +kernel

end QpOASES.Props
