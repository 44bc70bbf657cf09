import Verif.Proofs.Sparse
import Verif.Spec.Triples
import Mathlib.Algebra.Order.Ring.Rat
import Mathlib.Data.List.Nodup

/-!
# C60 Submatrices as coordinate triples, C61 replacing the values of a sparse matrix
-/
namespace QpOASES.Props
open Finset Spec

variable {K : Type} [Field K] [LinearOrder K] [IsStrictOrderedRing K]

theorem loop_append {α : Type} (g : Nat → List α) (n : Nat) (o : List α) : loop (fun i out => out ++ g i) n o = o ++ (List.range n).flatMap g := by
  induction n with
  | zero => simp [loop]
  | succ n ih => rw [loop, ih, List.range_succ, List.flatMap_append]; simp

theorem loop_count (g : Nat → Nat) (n : Nat) (c : Nat) : loop (fun i c => c + g i) n c = c + ((List.range n).map g).sum := by
  induction n with
  | zero => simp [loop]
  | succ n ih => rw [loop, ih, List.range_succ]; simp [Nat.add_assoc]

/-- Entries collected position by position: all triples for which `p` holds. -/
def collect (nr : Nat) (nc : Nat → Nat) (p : Nat → Nat → Bool) (t : Nat → Nat → Int × Int × K) : List (Int × Int × K) :=
  (List.range nr).flatMap fun j => (List.range (nc j)).flatMap fun i => if p j i then [t j i] else []

theorem mem_collect {nr : Nat} {nc : Nat → Nat} {p : Nat → Nat → Bool} {t : Nat → Nat → Int × Int × K} {q : Int × Int × K} :
    q ∈ collect nr nc p t ↔ ∃ j < nr, ∃ i < nc j, p j i = true ∧ q = t j i := by
  unfold collect
  simp only [List.mem_flatMap, List.mem_range]
  constructor
  · rintro ⟨j, hj, i, hi, h⟩
    split at h
    · rename_i hp; exact ⟨j, hj, i, hi, hp, List.mem_singleton.1 h⟩
    · cases h
  · rintro ⟨j, hj, i, hi, hp, rfl⟩
    exact ⟨j, hj, i, hi, by rw [if_pos hp]; exact List.mem_singleton.2 rfl⟩

theorem nodup_collect {nr : Nat} {nc : Nat → Nat} {p : Nat → Nat → Bool} {t : Nat → Nat → Int × Int × K}
    (h : ∀ j < nr, ∀ i < nc j, ∀ j' < nr, ∀ i' < nc j', p j i = true → p j' i' = true →
      ((t j i).1, (t j i).2.1) = ((t j' i').1, (t j' i').2.1) → j = j' ∧ i = i') :
    ((collect nr nc p t).map fun t => (t.1, t.2.1)).Nodup := by
  unfold collect
  simp only [List.map_flatMap]
  rw [List.nodup_flatMap]
  refine ⟨fun j hj => ?_, ?_⟩
  · rw [List.nodup_flatMap]
    refine ⟨fun i _ => by split <;> simp, ?_⟩
    refine List.nodup_range.imp_of_mem fun {a b} ha hb hab => ?_
    rw [List.mem_range] at ha hb hj
    intro q hq hq'
    dsimp only at hq hq'
    split at hq <;> split at hq' <;> simp at hq hq'
    rename_i h1 h2
    exact hab (h j hj a ha j hj b hb h1 h2 (hq.symm.trans hq')).2
  · refine List.nodup_range.imp_of_mem fun {a b} ha hb hab => ?_
    rw [List.mem_range] at ha hb
    intro q hq hq'
    simp only [List.mem_flatMap, List.mem_range] at hq hq'
    obtain ⟨i, hi, hq⟩ := hq
    obtain ⟨i', hi', hq'⟩ := hq'
    split at hq <;> split at hq' <;> simp at hq hq'
    rename_i h1 h2
    exact hab (h a ha i hi b hb i' hi' h1 h2 (hq.symm.trans hq')).1

theorem length_collect (nr : Nat) (nc : Nat → Nat) (p : Nat → Nat → Bool) (t : Nat → Nat → Int × Int × K) :
    (collect nr nc p t).length = loop (fun j c => loop (fun i c => if p j i then c + 1 else c) (nc j) c) nr 0 := by
  have h : ∀ j c, loop (fun i c => if p j i then c + 1 else c) (nc j) c = c + ((List.range (nc j)).map fun i => if p j i then 1 else 0).sum := by
    intro j c
    rw [← loop_count]
    congr 1
    funext i c
    split <;> rfl
  simp only [h]
  rw [loop_count]
  unfold collect
  rw [List.length_flatMap, Nat.zero_add]
  congr 2
  funext j
  rw [List.length_flatMap]
  congr 2
  funext i
  split <;> rfl

theorem loop_collect (nr : Nat) (nc : Nat → Nat) (p : Nat → Nat → Bool) (t : Nat → Nat → Int × Int × K) :
    loop (fun j out => loop (fun i out => if p j i then out ++ [t j i] else out) (nc j) out) nr [] = collect nr nc p t := by
  have h : ∀ j out, loop (fun i out => if p j i then out ++ [t j i] else out) (nc j) out =
      out ++ (List.range (nc j)).flatMap fun i => if p j i then [t j i] else [] := by
    intro j out
    rw [← loop_append]
    congr 1
    funext i out
    split <;> simp
  simp only [h]
  rw [loop_append]
  rfl

/-- Which positions are asked for. -/
def Wanted (onlyLower : Bool) (i j : Nat) : Prop := onlyLower = true → j ≤ i

theorem dense_eq (M : DenseMatrix K) (nr : Nat) (rows : Nat → Nat) (nc : Nat) (cols : Nat → Nat) (ro co : Int) (ol : Bool) :
    M.getSparseSubmatrix nr rows nc cols ro co ol = collect nr (fun j => if ol then j + 1 else nc)
      (fun j i => !isZero (M.entry (rows j) (if ol then rows i else cols i)))
      (fun j i => ((j : Int) + ro, (i : Int) + co, M.entry (rows j) (if ol then rows i else cols i))) := by
  unfold DenseMatrix.getSparseSubmatrix
  rw [← loop_collect]
  cases ol <;> simp [loop2, DenseMatrix.entry]

/-- **C60**, dense matrices: the triples are the selected entries that are not negligible, each once, and the counting call returns their
number.  The lower triangle is meant for equal row and column lists. -/
theorem C60_dense (M : DenseMatrix K) (nr : Nat) (rows : Nat → Nat) (nc : Nat) (cols : Nat → Nat) (ro co : Int) (ol : Bool)
    (hol : ol = true → nc = nr ∧ cols = rows) :
    IsSubmatrix (M.getSparseSubmatrix nr rows nc cols ro co ol) nr nc ro co (Wanted ol) (fun i j => M.entry (rows i) (cols j)) ZERO ∧
    M.countSparseSubmatrix nr rows nc cols ol = (M.getSparseSubmatrix nr rows nc cols ro co ol).length := by
  have hcol : (fun i => if ol = true then rows i else cols i) = cols := by
    cases ol
    · rfl
    · exact (hol rfl).2.symm
  have hcol' : ∀ i, (if ol = true then rows i else cols i) = cols i := fun i => congrFun hcol i
  refine ⟨⟨?_, ?_, ?_⟩, ?_⟩
  · rw [dense_eq]
    refine nodup_collect fun j _ i _ j' _ i' _ _ _ e => ?_
    simp only [Prod.mk.injEq] at e
    omega
  · intro t ht
    rw [dense_eq, mem_collect] at ht
    obtain ⟨j, hj, i, hi, _, rfl⟩ := ht
    refine ⟨j, hj, i, ?_, ?_, by rw [hcol']⟩
    · cases ol
      · exact hi
      · have := (hol rfl).1; simp at hi; omega
    · intro h
      subst h
      simp at hi
      omega
  · intro i hi j hj hs
    by_cases hz : isZero (M.entry (rows i) (cols j)) = true
    · exact Or.inr (isZero_iff.1 hz)
    · left
      rw [dense_eq, mem_collect]
      refine ⟨i, hi, j, ?_, ?_, by rw [hcol']⟩
      · cases ol
        · exact hj
        · have := hs rfl; simp; omega
      · rw [hcol']
        simpa using hz
  · rw [dense_eq, length_collect]
    unfold DenseMatrix.countSparseSubmatrix
    cases ol <;> simp [loop2, DenseMatrix.entry]

/-- The inverse of the list of row numbers. -/
theorem inv_spec (rows : Nat → Nat) (nr : Nat) (hinj : ∀ a < nr, ∀ b < nr, rows a = rows b → a = b) (q : Nat) :
    (∀ l < nr, rows l = q → loop (fun (i : Nat) f => updA f (rows i) (i : Int)) nr (fun _ => (-1 : Int)) q = l) ∧
    ((∀ l < nr, rows l ≠ q) → loop (fun (i : Nat) f => updA f (rows i) (i : Int)) nr (fun _ => (-1 : Int)) q = -1) := by
  induction nr with
  | zero => exact ⟨fun l hl => absurd hl (Nat.not_lt_zero l), fun _ => rfl⟩
  | succ n ih =>
    obtain ⟨h1, h2⟩ := ih fun a ha b hb => hinj a (by omega) b (by omega)
    refine ⟨fun l hl e => ?_, fun h => ?_⟩
    · rw [loop]
      by_cases hq : q = rows n
      · subst hq
        rw [updA_same]
        have := hinj l hl n (by omega) e
        omega
      · rw [updA_ne _ _ hq]
        exact h1 l (by rcases Nat.lt_succ_iff_lt_or_eq.1 hl with h | h; exact h; subst h; exact absurd e.symm hq) e
    · rw [loop, updA_ne _ _ (h n (by omega)).symm]
      exact h2 fun l hl => h l (by omega)

theorem sparse_eq (M : SparseMatrix K) (nr : Nat) (rows : Nat → Nat) (nc : Nat) (cols : Nat → Nat) (ro co : Int) (ol : Bool) :
    M.getSparseSubmatrix nr rows nc cols ro co ol = collect nc (fun k => M.jc (cols k + 1) - M.jc (cols k))
      (fun k t => decide (if ol then loop (fun (i : Nat) f => updA f (rows i) (i : Int)) nr (fun _ => (-1 : Int)) (M.ir (M.jc (cols k) + t)) ≥ (k : Int)
        else loop (fun (i : Nat) f => updA f (rows i) (i : Int)) nr (fun _ => (-1 : Int)) (M.ir (M.jc (cols k) + t)) ≥ 0))
      (fun k t => (loop (fun (i : Nat) f => updA f (rows i) (i : Int)) nr (fun _ => (-1 : Int)) (M.ir (M.jc (cols k) + t)) + ro, (k : Int) + co,
        M.val (M.jc (cols k) + t))) := by
  unfold SparseMatrix.getSparseSubmatrix
  rw [← loop_collect]
  dsimp only [loopFrom]
  simp only [decide_eq_true_eq]

/-- **C60**, matrices stored by columns: the triples are the stored selected entries, each once, and the counting call returns their number. -/
theorem C60_columns (M : SparseMatrix K) (hM : M.Wf) (nr : Nat) (rows : Nat → Nat) (nc : Nat) (cols : Nat → Nat) (ro co : Int) (ol : Bool)
    (hinj : ∀ a < nr, ∀ b < nr, rows a = rows b → a = b) (hc : ∀ k < nc, cols k < M.nCols) :
    IsSubmatrix (M.getSparseSubmatrix nr rows nc cols ro co ol) nr nc ro co (Wanted ol) (fun i j => M.entry (rows i) (cols j)) 0 ∧
    M.countSparseSubmatrix nr rows nc cols ol = (M.getSparseSubmatrix nr rows nc cols ro co ol).length := by
  have hinv := inv_spec rows nr hinj
  have hlen : M.countSparseSubmatrix nr rows nc cols ol = (M.getSparseSubmatrix nr rows nc cols ro co ol).length := by
    rw [sparse_eq, length_collect]
    unfold SparseMatrix.countSparseSubmatrix
    dsimp only [loopFrom]
    simp only [decide_eq_true_eq]
  refine ⟨?_, hlen⟩
  have heq := sparse_eq M nr rows nc cols ro co ol
  generalize loop (fun (i : Nat) f => updA f (rows i) (i : Int)) nr (fun _ => (-1 : Int)) = inv at *
  have hsel : ∀ k t, decide (if ol then inv (M.ir (M.jc (cols k) + t)) ≥ (k : Int) else inv (M.ir (M.jc (cols k) + t)) ≥ 0) = true →
      ∃ l < nr, rows l = M.ir (M.jc (cols k) + t) ∧ inv (M.ir (M.jc (cols k) + t)) = l ∧ Wanted ol l k := by
    intro k t h
    rw [decide_eq_true_eq] at h
    obtain ⟨h1, h2⟩ := hinv (M.ir (M.jc (cols k) + t))
    by_cases hex : ∃ l < nr, rows l = M.ir (M.jc (cols k) + t)
    · obtain ⟨l, hl, e⟩ := hex
      refine ⟨l, hl, e, h1 l hl e, fun ho => ?_⟩
      rw [if_pos ho, h1 l hl e] at h
      omega
    · have := h2 fun l hl e => hex ⟨l, hl, e⟩
      rw [this] at h
      cases ol <;> simp at h
      omega
  have hpos : ∀ k < nc, ∀ t < M.jc (cols k + 1) - M.jc (cols k), ∀ l, rows l = M.ir (M.jc (cols k) + t) →
      M.entry (rows l) (cols k) = M.val (M.jc (cols k) + t) := by
    intro k hk t ht l e
    have hi := CompWf.incOn hM (hc k hk)
    rcases pick_cases (K := K) hi (rows l) with ⟨q, q1, q2, q3, q4⟩ | ⟨q1, _⟩
    · have := hi.inj q1 q2 (j := M.jc (cols k) + t) (by omega) (by omega) (q3.trans e)
      rw [← this]
      exact q4 M.val
    · exact absurd e.symm (q1 _ (by omega) (by omega))
  refine ⟨?_, ?_, ?_⟩
  · rw [heq]
    refine nodup_collect fun k hk t ht k' hk' t' ht' hp hp' e => ?_
    simp only [Prod.mk.injEq] at e
    obtain rfl : k = k' := by omega
    obtain ⟨l, hl, e1, e2, _⟩ := hsel k t hp
    obtain ⟨l', hl', e1', e2', _⟩ := hsel k t' hp'
    rw [e2, e2'] at e
    obtain rfl : l = l' := by omega
    have := (CompWf.incOn hM (hc k hk)).inj (i := M.jc (cols k) + t) (j := M.jc (cols k) + t') (by omega) (by omega) (by omega) (by omega)
      (e1.symm.trans e1')
    exact ⟨rfl, by omega⟩
  · intro q hq
    rw [heq, mem_collect] at hq
    obtain ⟨k, hk, t, ht, hp, rfl⟩ := hq
    obtain ⟨l, hl, e1, e2, e3⟩ := hsel k t hp
    refine ⟨l, hl, k, hk, e3, ?_⟩
    rw [e2, ← hpos k hk t ht l e1]
  · intro i hi j hj hs
    have hinc := CompWf.incOn hM (hc j hj)
    rcases pick_cases (K := K) hinc (rows i) with ⟨q, q1, q2, q3, q4⟩ | ⟨_, q2⟩
    · left
      rw [heq, mem_collect]
      have hq : M.jc (cols j) + (q - M.jc (cols j)) = q := by omega
      refine ⟨j, hj, q - M.jc (cols j), by omega, ?_, ?_⟩
      · rw [hq, q3, (hinv (rows i)).1 i hi rfl, decide_eq_true_eq]
        split
        · rename_i ho; have := hs ho; omega
        · omega
      · rw [hq, q3, (hinv (rows i)).1 i hi rfl]
        exact congrArg (fun v => ((i : Int) + ro, (j : Int) + co, v)) (q4 M.val)
    · right
      show |M.entry (rows i) (cols j)| ≤ 0
      rw [show M.entry (rows i) (cols j) = 0 from q2 M.val, abs_zero]

/-- **C60 violated** for matrices stored by rows: no submatrix is returned. -/
theorem C60_rows_violated (M : SparseMatrixRow K) : M.getSparseSubmatrix = (ReturnValue.RET_NOT_YET_IMPLEMENTED, none) := rfl

/-- **C60 violated**: the two formats disagree about the lower triangle if the row and column lists differ; the dense matrix ignores the
list of columns. -/
theorem C60_lower_violated : ∃ (D : DenseMatrix ℚ) (S : SparseMatrix ℚ), S.Wf ∧ (∀ i < 2, ∀ j < 2, D.entry i j = S.entry i j) ∧
    D.getSparseSubmatrix 1 (fun _ => 0) 1 (fun _ => 1) 0 0 true = [(0, 0, 5)] ∧ S.getSparseSubmatrix 1 (fun _ => 0) 1 (fun _ => 1) 0 0 true = [(0, 0, 7)] := by
  refine ⟨⟨2, 2, 2, fun i => [5, 7, 7, 5].getD i 0, 4, false⟩, .ofDense 2 2 2 fun i => [5, 7, 7, 5].getD i 0, ?_, ?_, ?_, ?_⟩
  · refine ⟨rfl, ?_, ?_, ?_, ?_⟩
    · decide +kernel
    · intro m hm i j h1 h2 h3
      have hm' : m = 0 ∨ m = 1 := by have : m < 2 := hm; omega
      rcases hm' with rfl | rfl
      · have h3' : j < 2 := h3
        obtain rfl : i = 0 := by omega
        obtain rfl : j = 1 := by omega
        decide +kernel
      · have h1' : 2 ≤ i := h1
        have h3' : j < 4 := h3
        obtain rfl : i = 2 := by omega
        obtain rfl : j = 3 := by omega
        decide +kernel
    · intro m hm i h1 h2
      have hm' : m = 0 ∨ m = 1 := by have : m < 2 := hm; omega
      rcases hm' with rfl | rfl
      · have h3' : i < 2 := h2
        have hi' : i = 0 ∨ i = 1 := by omega
        rcases hi' with rfl | rfl <;> decide +kernel
      · have h1' : 2 ≤ i := h1
        have h3' : i < 4 := h2
        have hi' : i = 2 ∨ i = 3 := by omega
        rcases hi' with rfl | rfl <;> decide +kernel
    · decide +kernel
  · decide +kernel
  · decide +kernel
  · decide +kernel

/-- A case: the lower triangle of rows and columns 2, 0 of a matrix with a zero entry. -/
example : (DenseMatrix.mk 3 3 3 (fun i => [4, 1, 0, 1, 5, 2, 0, 2, 6].getD i (0 : ℚ)) 9 false).getSparseSubmatrix 2 (fun i => [2, 0].getD i 0) 2
    (fun i => [2, 0].getD i 0) 1 1 true = [(1, 1, 6), (2, 2, 4)] := by decide +kernel

example : (SparseMatrix.ofDense 3 3 3 (fun i => [4, 1, 0, 1, 5, 2, 0, 2, 6].getD i (0 : ℚ))).getSparseSubmatrix 2 (fun i => [2, 1].getD i 0) 2
    (fun i => [2, 1].getD i 0) 1 1 true = [(2, 1, 2), (1, 1, 6), (2, 2, 5)] := by decide +kernel

/-- **C61**: after replacing the values, every entry of the matrix is the new value stored for its position, and zero where there is none;
the pattern stays. -/
theorem C61_values (M : SparseMatrix K) (hM : M.Wf) (v : Nat → K) : (M.setVal v).Wf ∧ (M.setVal v).jd = M.jd ∧
    ∀ c < M.nCols, ∀ r, (∀ i, M.jc c ≤ i → i < M.jc (c+1) → M.ir i = r → (M.setVal v).entry r c = v i) ∧
      ((∀ i, M.jc c ≤ i → i < M.jc (c+1) → M.ir i ≠ r) → (M.setVal v).entry r c = 0) := by
  have hval : ∀ n (f : Nat → K) q, loop (fun i w => updA w i (v i)) n f q = if q < n then v q else f q := by
    intro n f q
    induction n with
    | zero => rw [if_neg (Nat.not_lt_zero q)]; rfl
    | succ n ih =>
      rw [loop]
      by_cases hq : q = n
      · subst hq; rw [updA_same, if_pos (by omega)]
      · rw [updA_ne _ _ hq, ih]
        by_cases h : q < n
        · rw [if_pos h, if_pos (by omega)]
        · rw [if_neg h, if_neg (by omega)]
  refine ⟨hM, rfl, fun c hc r => ?_⟩
  have hi := CompWf.incOn hM hc
  have hle : M.jc (c+1) ≤ M.jc M.nCols := by
    have : ∀ d, c + 1 + d ≤ M.nCols → M.jc (c+1) ≤ M.jc (c + 1 + d) := by
      intro d
      induction d with
      | zero => intro _; exact Nat.le_refl _
      | succ d ih => intro h; exact (ih (by omega)).trans (hM.mono (c + 1 + d) (by omega))
    have := this (M.nCols - (c+1)) (by omega)
    rwa [show c + 1 + (M.nCols - (c+1)) = M.nCols by omega] at this
  refine ⟨fun i h1 h2 e => ?_, fun h => ?_⟩
  · rcases pick_cases (K := K) hi r with ⟨q, q1, q2, q3, q4⟩ | ⟨q1, _⟩
    · obtain rfl := hi.inj q1 q2 h1 h2 (q3.trans e.symm)
      refine (q4 (M.setVal v).val).trans ?_
      show loop (fun i w => updA w i (v i)) (M.jc M.nCols) M.val q = v q
      rw [hval, if_pos (by omega)]
    · exact absurd e (q1 i h1 h2)
  · rcases pick_cases (K := K) hi r with ⟨q, q1, q2, q3, _⟩ | ⟨_, q2⟩
    · exact absurd q3 (h q q1 q2)
    · exact q2 _

example : (∀ i < 2, ∀ j < 2, ((SparseMatrix.ofDense 2 2 2 (fun i => [4, 1, 0, 3].getD i (0 : ℚ))).setVal fun i => [7, 8, 9].getD i 0).entry i j =
    [7, 8, 0, 9].getD (2 * i + j) 0) := by decide +kernel

end QpOASES.Props
