import Verif.Proofs.TQ

/-!
The TQ factorisation under the four changes of the working set, stated for the matrices only.
-/
namespace QpOASES
open Finset Props QPC

set_option linter.unusedSectionVars false

variable {K : Type} [Field K] [LinearOrder K] [IsStrictOrderedRing K]

/-- Product of a row `x` with column `j` of `Q` over the free variables -/
def lin (F : Finset Nat) (x : Nat → K) (Q : Nat → Nat → K) (j : Nat) : K := ∑ i ∈ F, x i * Q i j

theorem lin_rot (F : Finset Nat) (x : Nat → K) {p : Nat → Bool} (hp : ∀ i ∈ F, p i = true) (c s : K) (a b : Nat) (Q : Nat → Nat → K)
    (j : Nat) : lin F x (rotCols p c s a b Q) j = rotRow c s a b (lin F x Q) j := lin_rotCols F x hp c s a b Q j

/-- `Q` is orthogonal on the free variables `F` (`n` of them) and the `m` rows `a` times `Q` are `[0 T]` with `T` reverse
triangular, stored from column `tcol` on. -/
structure TQm (F : Finset Nat) (n m : Nat) (a Q T : Nat → Nat → K) (tcol : Nat) : Prop where
  orth : Orth F n Q
  zero : ∀ k < m, ∀ j, j + k + 1 < n → lin F (a k) Q j = 0
  tri : ∀ k < m, ∀ j < n, n ≤ j + k + 1 → lin F (a k) Q j = T k (tcol + (j - (n - m)))

/-! ### a constraint enters -/

/-- Row `x` enters: `t` is the result of the sweep started with the products of `x`. -/
theorem TQm.addRow {F : Finset Nat} {n m : Nat} {a Q T : Nat → Nat → K} {tcol : Nat} (h : TQm F n m a Q T tcol) (hm : m < n) (ht : 1 ≤ tcol)
    {x : Nat → K} {H R0 : Nat → Nat → K} {upd : Bool} {t : Sweep K} (hs : SweepInv F n (n-m) H upd x Q R0 (n-m-1) t) {a' T' : Nat → Nat → K}
    (ha : ∀ k < m, a' k = a k) (hx : a' m = x) (hT : ∀ k < m, T' k = T k) (hd : T' m (tcol - 1) = t.w (n-m-1))
    (hT2 : ∀ c < m, T' m (tcol + c) = lin F x Q (n - m + c)) : TQm F n (m+1) a' t.Q T' (tcol-1) := by
  refine ⟨hs.orth, fun k hk j hj => ?_, fun k hk j hj hjk => ?_⟩
  · by_cases h1 : k = m
    · subst h1
      rw [hx]
      show ∑ i ∈ F, x i * t.Q i j = 0
      rw [← hs.w j (by omega)]
      exact hs.zero j (by omega)
    · rw [ha k (by omega)]
      by_cases h2 : j < n - m
      · exact hs.kernel (a k) (fun j' hj' => h.zero k (by omega) j' (by omega)) j h2
      · show ∑ i ∈ F, a k i * t.Q i j = 0
        rw [sum_congr rfl fun i _ => by rw [hs.right i j (by omega)]]
        exact h.zero k (by omega) j hj
  · by_cases h1 : k = m
    · subst h1
      rw [hx]
      by_cases h2 : j = n - k - 1
      · subst h2
        rw [show tcol - 1 + (n - k - 1 - (n - (k+1))) = tcol - 1 by omega, hd, hs.w _ (by omega)]
        rfl
      · show ∑ i ∈ F, x i * t.Q i j = _
        rw [sum_congr rfl fun i _ => by rw [hs.right i j (by omega)]]
        rw [show tcol - 1 + (j - (n - (k+1))) = tcol + (j - (n - k)) by omega, hT2 _ (by omega), show n - k + (j - (n - k)) = j by omega]
        rfl
    · rw [ha k (by omega), hT k (by omega)]
      show ∑ i ∈ F, a k i * t.Q i j = _
      rw [sum_congr rfl fun i _ => by rw [hs.right i j (by omega)]]
      rw [show tcol - 1 + (j - (n - (m+1))) = tcol + (j - (n - m)) by omega]
      exact h.tri k (by omega) j hj hjk

/-! ### a bound enters -/

/-- State before step `j` of the second part of the sweep -/
structure BoundInv (F : Finset Nat) (n m : Nat) (a : Nat → Nat → K) (tcol number : Nat) (Q0 : Nat → Nat → K) (j : Nat)
    (t : (Nat → K) × (Nat → Nat → K) × (Nat → Nat → K) × (Nat → K)) : Prop where
  w : ∀ j' < n, t.1 j' = t.2.1 number j'
  zero : ∀ j' < j, t.1 j' = 0
  orth : Orth F n t.2.1
  left : ∀ i j', j' < n - m - 1 → t.2.1 i j' = Q0 i j'
  low : ∀ k < m, ∀ j' < n - m - 1, lin F (a k) t.2.1 j' = 0
  old0 : ∀ k < m, ∀ j', j < j' → j' + k + 1 < n → lin F (a k) t.2.1 j' = 0
  old : ∀ k < m, ∀ j', j < j' → j' < n → n ≤ j' + k + 1 → lin F (a k) t.2.1 j' = t.2.2.1 k (tcol + (j' - (n - m)))
  cur : ∀ k < m, lin F (a k) t.2.1 j = t.2.2.2 k
  cur0 : ∀ k < m, j + k + 1 < n → t.2.2.2 k = 0
  new0 : ∀ k < m, ∀ j', n - m - 1 ≤ j' → j' < j → j' + k + 2 < n → lin F (a k) t.2.1 j' = 0
  new : ∀ k < m, ∀ j', n - m - 1 ≤ j' → j' < j → n ≤ j' + k + 2 → lin F (a k) t.2.1 j' = t.2.2.1 k (tcol + (j' + 1 - (n - m)))

theorem BoundInv.step {sq : K → K} {F : Finset Nat} {n m : Nat} {a : Nat → Nat → K} {tcol number : Nat} {Q0 : Nat → Nat → K}
    {j : Nat} {free : Nat → Bool} (hF : ∀ i ∈ F, free i = true) (hnum : number ∈ F) (hm : m < n) (hj1 : n - m - 1 ≤ j) (hj2 : j + 1 < n)
    {t : (Nat → K) × (Nat → Nat → K) × (Nat → Nat → K) × (Nat → K)} (h : BoundInv F n m a tcol number Q0 j t) (hc : Clean sq (t.1 (j+1)) (t.1 j)) :
    BoundInv F n m a tcol number Q0 (j+1) (boundSweepStep sq free n m (n-m) tcol j t) := by
  obtain ⟨g1, g2, g3, g4⟩ := hc
  unfold boundSweepStep
  dsimp only
  generalize computeGivens sq (t.1 (j+1)) (t.1 j) = p at *
  have hrow := rotCols_row p.2.2.1 p.2.2.2 (j+1) j t.2.1 (hF number hnum)
  constructor <;> dsimp only
  · intro j' hj'
    rw [hrow]
    by_cases h1 : j' = j
    · subst h1
      rw [updA_same, rotRow_snd _ _ (by omega), g3, ← h.w _ hj', ← h.w _ hj2]
    · rw [updA_ne _ _ h1]
      by_cases h2 : j' = j + 1
      · subst h2
        rw [updA_same, rotRow_fst, g2, ← h.w _ hj', ← h.w _ (by omega)]
      · rw [updA_ne _ _ h2, rotRow_ne _ _ h2 h1, ← h.w _ hj']
  · intro j' hj'
    by_cases h1 : j' = j
    · subst h1
      rw [updA_same, g4]
    · rw [updA_ne _ _ h1, updA_ne _ _ (by omega)]
      exact h.zero j' (by omega)
  · exact h.orth.rotCols hF g1 (by omega) hj2 (by omega)
  · intro i j' hj'
    rw [rotCols_ne _ _ _ (by omega) (by omega)]
    exact h.left i j' hj'
  · intro k hk j' hj'
    rw [lin_rot F _ hF, rotRow_ne _ _ (by omega) (by omega)]
    exact h.low k hk j' hj'
  · intro k hk j' h1 h2
    rw [lin_rot F _ hF, rotRow_ne _ _ (by omega) (by omega)]
    exact h.old0 k hk j' (by omega) h2
  · intro k hk j' h1 h2 h3
    rw [lin_rot F _ hF, rotRow_ne _ _ (by omega) (by omega), if_neg (by omega)]
    exact h.old k hk j' (by omega) h2 h3
  · intro k hk
    rw [lin_rot F _ hF, rotRow_fst, h.cur k hk]
    by_cases h1 : n - 2 - j ≤ k
    · rw [if_pos ⟨h1, hk⟩]
      unfold applyGivens
      dsimp only
      rw [h.old k hk (j+1) (by omega) hj2 (by omega)]
    · rw [if_neg (by omega), h.old0 k hk (j+1) (by omega) (by omega), h.cur0 k hk (by omega)]
      ring
  · intro k hk h1
    rw [if_neg (by omega)]
    exact h.cur0 k hk (by omega)
  · intro k hk j' h1 h2 h3
    rw [lin_rot F _ hF]
    by_cases h4 : j' = j
    · subst h4
      rw [rotRow_snd _ _ (by omega), h.cur k hk, h.cur0 k hk (by omega), h.old0 k hk (j'+1) (by omega) (by omega)]
      ring
    · rw [rotRow_ne _ _ (by omega) h4]
      exact h.new0 k hk j' h1 (by omega) h3
  · intro k hk j' h1 h2 h3
    rw [lin_rot F _ hF]
    by_cases h4 : j' = j
    · subst h4
      rw [rotRow_snd _ _ (by omega), h.cur k hk, h.old k hk (j'+1) (by omega) hj2 (by omega), if_pos ⟨rfl, by omega, hk⟩]
      rfl
    · rw [rotRow_ne _ _ (by omega) h4, if_neg (by omega)]
      exact h.new k hk j' h1 (by omega) h3

/-- No rotation of the second part is skipped for a nonzero number. -/
def CleanBound (sq : K → K) (free : Nat → Bool) (n m tcol : Nat) (t : (Nat → K) × (Nat → Nat → K) × (Nat → Nat → K) × (Nat → K)) : Prop :=
  ∀ i < m, Clean sq ((loop (fun d => boundSweepStep sq free n m (n-m) tcol (n - m - 1 + d)) i t).1 (n - m - 1 + i + 1))
    ((loop (fun d => boundSweepStep sq free n m (n-m) tcol (n - m - 1 + d)) i t).1 (n - m - 1 + i))

theorem BoundInv.all {sq : K → K} {F : Finset Nat} {n m : Nat} {a : Nat → Nat → K} {tcol number : Nat} {Q0 : Nat → Nat → K}
    {free : Nat → Bool} (hF : ∀ i ∈ F, free i = true) (hnum : number ∈ F) (hm : m < n)
    {t : (Nat → K) × (Nat → Nat → K) × (Nat → Nat → K) × (Nat → K)} (h : BoundInv F n m a tcol number Q0 (n-m-1) t)
    (hc : CleanBound sq free n m tcol t) :
    BoundInv F n m a tcol number Q0 (n-1) (loopFrom (n-m-1) (n-1) (boundSweepStep sq free n m (n-m) tcol) t) := by
  unfold loopFrom
  have : ∀ i ≤ m, BoundInv F n m a tcol number Q0 (n-m-1+i) (loop (fun d => boundSweepStep sq free n m (n-m) tcol (n - m - 1 + d)) i t) := by
    intro i
    induction i with
    | zero => intro _; exact h
    | succ i ih =>
      intro hi
      rw [loop]
      exact (ih (by omega)).step hF hnum hm (by omega) (by omega) (hc i (by omega))
  have := this m (Nat.le_refl _)
  rw [show n - m - 1 + m = n - 1 by omega] at this
  rw [show n - 1 - (n - m - 1) = m by omega]
  exact this

/-- Start of the second part: after the sweep over the null space columns. -/
theorem BoundInv.start {F : Finset Nat} {n m : Nat} {a Q T : Nat → Nat → K} {tcol : Nat} (h : TQm F n m a Q T tcol) (hm : m < n)
    {number : Nat} (hnum : number ∈ F) {H R0 : Nat → Nat → K} {upd : Bool} {t : Sweep K}
    (hs : SweepInv F n (n-m) H upd (fun i => if i = number then 1 else 0) Q R0 (n-m-1) t) (hw : ∀ j, n - m ≤ j → t.w j = Q number j) :
    BoundInv F n m a tcol number t.Q (n-m-1) (t.w, t.Q, T, fun _ => 0) := by
  have low : ∀ k < m, ∀ j' < n - m, lin F (a k) t.Q j' = 0 := fun k hk j' hj' =>
    hs.kernel (a k) (fun j'' hj'' => h.zero k hk j'' (by omega)) j' hj'
  constructor <;> dsimp only
  · intro j' hj'
    by_cases h1 : j' < n - m
    · rw [hs.w j' h1]
      rw [sum_congr rfl fun i _ => ite_mul _ _ _ _]
      simp only [one_mul, zero_mul]
      rw [sum_ite_eq' F number, if_pos hnum]
    · rw [hw j' (by omega), hs.right _ _ (by omega)]
  · intro j' hj'
    exact hs.zero j' hj'
  · exact hs.orth
  · intro _ _ _; rfl
  · intro k hk j' hj'
    exact low k hk j' (by omega)
  · intro k hk j' h1 h2
    show ∑ i ∈ F, a k i * t.Q i j' = 0
    rw [sum_congr rfl fun i _ => by rw [hs.right i j' (by omega)]]
    exact h.zero k hk j' h2
  · intro k hk j' h1 h2 h3
    show ∑ i ∈ F, a k i * t.Q i j' = _
    rw [sum_congr rfl fun i _ => by rw [hs.right i j' (by omega)]]
    exact h.tri k hk j' h2 h3
  · intro k hk
    exact low k hk _ (by omega)
  · intro _ _ _; rfl
  · intro k hk j' h1 h2 h3; omega
  · intro k hk j' h1 h2 h3; omega

theorem BoundInv.row {F : Finset Nat} {n m : Nat} {a : Nat → Nat → K} {tcol number : Nat} {Q0 : Nat → Nat → K}
    {t : (Nat → K) × (Nat → Nat → K) × (Nat → Nat → K) × (Nat → K)} (h : BoundInv F n m a tcol number Q0 (n-1) t) :
    ∀ j, j + 1 < n → t.2.1 number j = 0 := fun j hj => by
  rw [← h.w j (by omega)]
  exact h.zero j (by omega)

/-- The variable leaves the free ones. -/
theorem BoundInv.finish {F : Finset Nat} {n m : Nat} {a : Nat → Nat → K} {tcol number : Nat} {Q0 : Nat → Nat → K} (hm : m < n) (hnum : number ∈ F)
    {t : (Nat → K) × (Nat → Nat → K) × (Nat → Nat → K) × (Nat → K)} (h : BoundInv F n m a tcol number Q0 (n-1) t) :
    TQm (F.erase number) (n-1) m a t.2.1 t.2.2.1 tcol := by
  have hrow := h.row
  have hlin : ∀ x : Nat → K, ∀ j, j + 1 < n → lin (F.erase number) x t.2.1 j = lin F x t.2.1 j := by
    intro x j hj
    unfold lin
    rw [← add_sum_erase F _ hnum, hrow j hj, mul_zero, zero_add]
  have hn : n - 1 + 1 = n := by omega
  have hd : t.2.1 number (n-1) * t.2.1 number (n-1) = 1 := by
    have := h.orth number hnum number hnum
    rw [if_pos rfl, ← hn, sum_range_succ] at this
    rw [sum_eq_zero, zero_add] at this
    · exact this
    · intro j hj
      rw [mem_range] at hj
      rw [hrow j (by omega), zero_mul]
  have hlast : ∀ i ∈ F.erase number, t.2.1 i (n-1) = 0 := by
    intro i hi
    rw [mem_erase] at hi
    have := h.orth number hnum i hi.2
    rw [if_neg (Ne.symm hi.1), ← hn, sum_range_succ] at this
    rw [sum_eq_zero, zero_add] at this
    · have hne : t.2.1 number (n-1) ≠ 0 := by
        intro h0
        rw [h0, mul_zero] at hd
        exact zero_ne_one hd
      exact (mul_eq_zero.1 this).resolve_left hne
    · intro j hj
      rw [mem_range] at hj
      rw [hrow j (by omega), zero_mul]
  refine ⟨fun i hi i' hi' => ?_, fun k hk j hj => ?_, fun k hk j hj hjk => ?_⟩
  · have := h.orth i (mem_of_mem_erase hi) i' (mem_of_mem_erase hi')
    rw [← hn, sum_range_succ, hlast i hi, zero_mul, add_zero] at this
    exact this
  · rw [hlin _ j (by omega)]
    by_cases h1 : j < n - m - 1
    · exact h.low k hk j h1
    · exact h.new0 k hk j (by omega) (by omega) (by omega)
  · rw [hlin _ j (by omega), h.new k hk j (by omega) (by omega) (by omega)]
    exact congrArg _ (by omega)

/-- Columns in which the row of `number` is zero do not see it in the projected Hessian. -/
theorem projH_erase {F : Finset Nat} {number : Nat} (hnum : number ∈ F) (H Q : Nat → Nat → K) {u v : Nat} (hu : Q number u = 0)
    (hv : Q number v = 0) : projH (F.erase number) H Q u v = projH F H Q u v := by
  unfold projH
  rw [← add_sum_erase F _ hnum, hu, zero_mul, zero_add]
  refine sum_congr rfl fun i _ => ?_
  rw [← add_sum_erase F (fun i' => H i i' * Q i' v) hnum, hv, mul_zero, zero_add]

theorem projH_congr {F : Finset Nat} {H Q Q' : Nat → Nat → K} {u v : Nat} (hu : ∀ i ∈ F, Q i u = Q' i u) (hv : ∀ i ∈ F, Q i v = Q' i v) :
    projH F H Q u v = projH F H Q' u v := by
  unfold projH
  refine sum_congr rfl fun i hi => ?_
  rw [hu i hi, sum_congr rfl fun i' hi' => by rw [hv i' hi']]

/-! ### a constraint leaves -/

/-- State before the rotation for row `k`: rows from `k` on have one element too many on the left.  `a` are the remaining `m-1` rows. -/
structure RemoveInv (F : Finset Nat) (n m : Nat) (a : Nat → Nat → K) (tcol : Nat) (Q0 : Nat → Nat → K) (k : Nat)
    (t : (Nat → Nat → K) × (Nat → Nat → K)) : Prop where
  orth : Orth F n t.2
  left : ∀ i j, j < n - m → t.2 i j = Q0 i j
  zero : ∀ q, q + 1 < m → ∀ j, (if q < k then j + q + 1 else j + q + 2) < n → lin F (a q) t.2 j = 0
  tri : ∀ q, q + 1 < m → ∀ j < n, n ≤ (if q < k then j + q + 1 else j + q + 2) → lin F (a q) t.2 j = t.1 q (tcol + (j - (n - m)))

theorem RemoveInv.step {sq : K → K} {F : Finset Nat} {n m : Nat} {a : Nat → Nat → K} {tcol : Nat} {Q0 : Nat → Nat → K} {k : Nat}
    {free : Nat → Bool} (hF : ∀ i ∈ F, free i = true) (hm : m ≤ n) (hk : k + 1 < m) {t : (Nat → Nat → K) × (Nat → Nat → K)}
    (h : RemoveInv F n m a tcol Q0 k t) (hc : Clean sq (t.1 k (tcol + 1 + (m - 2 - k))) (t.1 k (tcol + (m - 2 - k)))) :
    RemoveInv F n m a tcol Q0 (k+1) (removeStep sq free m (n-m) tcol k t) := by
  obtain ⟨g1, g2, g3, g4⟩ := hc
  unfold removeStep
  dsimp only
  generalize computeGivens sq (t.1 k (tcol + 1 + (m - 2 - k))) (t.1 k (tcol + (m - 2 - k))) = p at *
  obtain ⟨j0, hj0⟩ : ∃ j0, j0 + k + 2 = m := ⟨m - 2 - k, by omega⟩
  have ej : m - 2 - k = j0 := by omega
  rw [ej] at g2 g3 ⊢
  -- the products before the step
  have z1 := h.zero
  have t1 := h.tri
  -- both rotated columns vanish in the rows that are finished
  have v1 : ∀ q, q < k → lin F (a q) t.2 (n - m + 1 + j0) = 0 := fun q hq => z1 q (by omega) _ (by rw [if_pos hq]; omega)
  have v2 : ∀ q, q < k → lin F (a q) t.2 (n - m + j0) = 0 := fun q hq => z1 q (by omega) _ (by rw [if_pos hq]; omega)
  have v3 : ∀ q, k ≤ q → q + 1 < m → lin F (a q) t.2 (n - m + 1 + j0) = t.1 q (tcol + 1 + j0) := fun q hq hqm => by
    rw [t1 q hqm _ (by omega) (by rw [if_neg (by omega)]; omega)]
    exact congrArg _ (by omega)
  have v4 : ∀ q, k ≤ q → q + 1 < m → lin F (a q) t.2 (n - m + j0) = t.1 q (tcol + j0) := fun q hq hqm => by
    rw [t1 q hqm _ (by omega) (by rw [if_neg (by omega)]; omega)]
    exact congrArg _ (by omega)
  constructor <;> dsimp only
  · exact h.orth.rotCols hF g1 (by omega) (by omega) (by omega)
  · intro i j hj
    rw [rotCols_ne _ _ _ (by omega) (by omega)]
    exact h.left i j hj
  · intro q hq j hj
    rw [lin_rot F _ hF]
    by_cases h1 : j = n - m + 1 + j0
    · subst h1
      rw [rotRow_fst]
      by_cases h2 : q < k
      · rw [v1 q h2, v2 q h2]; ring
      · split at hj <;> omega
    · by_cases h2 : j = n - m + j0
      · subst h2
        rw [rotRow_snd _ _ (by omega)]
        by_cases h3 : q < k
        · rw [v1 q h3, v2 q h3]; ring
        · by_cases h4 : q = k
          · subst h4
            rw [v3 q (Nat.le_refl _) hk, v4 q (Nat.le_refl _) hk, ← g3, g4]
          · rw [if_neg (by omega)] at hj; omega
      · rw [rotRow_ne _ _ h1 h2]
        refine z1 q hq j ?_
        by_cases h3 : q < k
        · rw [if_pos h3]; rw [if_pos (by omega)] at hj; exact hj
        · rw [if_neg h3]
          by_cases h4 : q = k
          · subst h4; rw [if_pos (by omega)] at hj; omega
          · rw [if_neg (by omega)] at hj; exact hj
  · intro q hq j hjn hj
    rw [lin_rot F _ hF]
    by_cases h0 : q < k
    · rw [if_pos (by omega)] at hj
      rw [rotCols_row_not _ _ _ _ _ (decide_eq_false (by omega)), if_neg (by omega)]
      rw [rotRow_ne _ _ (by omega) (by omega)]
      exact t1 q hq j hjn (by rw [if_pos h0]; exact hj)
    · by_cases h4 : q = k
      · subst h4
        rw [if_pos (by omega)] at hj
        rw [rotCols_row_not _ _ _ _ _ (decide_eq_false (by omega)), if_pos rfl]
        by_cases h1 : j = n - m + 1 + j0
        · subst h1
          rw [rotRow_fst, v3 q (Nat.le_refl _) hk, v4 q (Nat.le_refl _) hk, if_pos (by omega), g2]
        · rw [rotRow_ne _ _ h1 (by omega), if_neg (by omega), if_neg (by omega)]
          exact t1 q hq j hjn (by rw [if_neg (by omega)]; omega)
      · rw [if_neg (by omega)] at hj
        rw [rotCols_row _ _ _ _ _ (decide_eq_true (by omega))]
        by_cases h1 : j = n - m + 1 + j0
        · subst h1
          rw [rotRow_fst, show tcol + (n - m + 1 + j0 - (n - m)) = tcol + 1 + j0 by omega, rotRow_fst, if_neg h4, if_neg h4,
            v3 q (by omega) hq, v4 q (by omega) hq]
        · by_cases h2 : j = n - m + j0
          · subst h2
            rw [rotRow_snd _ _ (by omega), show tcol + (n - m + j0 - (n - m)) = tcol + j0 by omega, rotRow_snd _ _ (by omega), if_neg h4,
              if_neg h4, v3 q (by omega) hq, v4 q (by omega) hq]
          · rw [rotRow_ne _ _ h1 h2]
            have : tcol + (j - (n - m)) ≠ tcol + 1 + j0 := by omega
            have h' : tcol + (j - (n - m)) ≠ tcol + j0 := by omega
            rw [rotRow_ne _ _ this h', if_neg h4]
            exact t1 q hq j hjn (by rw [if_neg h0]; exact hj)

/-- No rotation is skipped for a nonzero number. -/
def CleanRemove (sq : K → K) (free : Nat → Bool) (n m tcol k : Nat) (t : (Nat → Nat → K) × (Nat → Nat → K)) : Prop :=
  ∀ i, i + k + 1 < m → 
    Clean sq ((loop (fun d => removeStep sq free m (n-m) tcol (k + d)) i t).1 (k + i) (tcol + 1 + (m - 2 - (k + i))))
      ((loop (fun d => removeStep sq free m (n-m) tcol (k + d)) i t).1 (k + i) (tcol + (m - 2 - (k + i))))

theorem RemoveInv.all {sq : K → K} {F : Finset Nat} {n m : Nat} {a : Nat → Nat → K} {tcol : Nat} {Q0 : Nat → Nat → K} {k : Nat}
    {free : Nat → Bool} (hF : ∀ i ∈ F, free i = true) (hm : m ≤ n) (hk : k < m) {t : (Nat → Nat → K) × (Nat → Nat → K)}
    (h : RemoveInv F n m a tcol Q0 k t) (hc : CleanRemove sq free n m tcol k t) :
    RemoveInv F n m a tcol Q0 (m-1) (loopFrom k (m-1) (removeStep sq free m (n-m) tcol) t) := by
  unfold loopFrom
  have : ∀ i, i + k < m → RemoveInv F n m a tcol Q0 (k+i) (loop (fun d => removeStep sq free m (n-m) tcol (k + d)) i t) := by
    intro i
    induction i with
    | zero => intro _; exact h
    | succ i ih =>
      intro hi
      rw [loop]
      exact (ih (by omega)).step hF hm (by omega) (hc i (by omega))
  have := this (m-1-k) (by omega)
  rw [show k + (m - 1 - k) = m - 1 by omega] at this
  exact this

/-- Row `k` leaves: the other rows move up. -/
theorem TQm.removeRow {sq : K → K} {F : Finset Nat} {n m : Nat} {a Q T : Nat → Nat → K} {tcol : Nat} (h : TQm F n m a Q T tcol)
    {free : Nat → Bool} (hF : ∀ i ∈ F, free i = true) (hm : m ≤ n) {k : Nat} (hk : k < m) {a' T2 : Nat → Nat → K}
    (ha : ∀ q, q + 1 < m → a' q = if q < k then a q else a (q+1)) (hT1 : ∀ q < k, ∀ c, q + 1 < m → T2 q c = T q c)
    (hT2 : ∀ q, k ≤ q → q + 1 < m → ∀ c, m - 2 - q ≤ c → c < m → T2 q (tcol + c) = T (q+1) (tcol + c))
    (hc : CleanRemove sq free n m tcol k (T2, Q)) :
    let u := loopFrom k (m-1) (removeStep sq free m (n-m) tcol) (T2, Q)
    TQm F n (m-1) a' u.2 u.1 (tcol+1) ∧ ∀ i j, j < n - m → u.2 i j = Q i j := by
  have h0 : RemoveInv F n m a' tcol Q k (T2, Q) := by
    refine ⟨h.orth, fun _ _ _ => rfl, fun q hq j hj => ?_, fun q hq j hjn hj => ?_⟩
    · rw [ha q hq]
      split
      · next h1 => rw [if_pos h1] at hj; exact h.zero q (by omega) j hj
      · next h1 => rw [if_neg h1] at hj; exact h.zero (q+1) (by omega) j (by omega)
    · rw [ha q hq]
      split
      · next h1 =>
        rw [if_pos h1] at hj
        dsimp only
        rw [hT1 q h1 _ hq]
        exact h.tri q (by omega) j hjn hj
      · next h1 =>
        rw [if_neg h1] at hj
        dsimp only
        rw [hT2 q (by omega) hq _ (by omega) (by omega)]
        exact h.tri (q+1) (by omega) j hjn (by omega)
  have := RemoveInv.all hF hm hk h0 hc
  refine ⟨⟨this.orth, fun q hq j hj => ?_, fun q hq j hjn hj => ?_⟩, this.left⟩
  · exact this.zero q (by omega) j (by rw [if_pos hq]; exact hj)
  · rw [this.tri q (by omega) j hjn (by rw [if_pos hq]; exact hj)]
    exact congrArg _ (by omega)

/-! ### a bound leaves -/

/-- State before the rotation for row `k`; `a` are the rows, including the column of the new free variable. -/
structure FreeInv (F : Finset Nat) (n m : Nat) (a : Nat → Nat → K) (tcol : Nat) (Q0 : Nat → Nat → K) (k : Nat)
    (t : (Nat → Nat → K) × (Nat → K) × (Nat → Nat → K)) : Prop where
  orth : Orth F (n+1) t.2.2
  left : ∀ i j, j < n - m → t.2.2 i j = Q0 i j
  new0 : ∀ q < m, ∀ j, n - k < j → j + q + 1 < n + 1 → lin F (a q) t.2.2 j = 0
  new : ∀ q < m, ∀ j, n - k < j → j < n + 1 → n + 1 ≤ j + q + 1 → lin F (a q) t.2.2 j = t.1 q (tcol + (j - (n - m) - 1))
  cur : ∀ q < m, lin F (a q) t.2.2 (n-k) = t.2.1 q
  cur0 : ∀ q < m, q < k → t.2.1 q = 0
  old0 : ∀ q < m, ∀ j, j < n - k → j + q + 1 < n → lin F (a q) t.2.2 j = 0
  old : ∀ q < m, ∀ j, j < n - k → n ≤ j + q + 1 → lin F (a q) t.2.2 j = t.1 q (tcol + (j - (n - m)))

theorem FreeInv.step {sq : K → K} {F : Finset Nat} {n m : Nat} {a : Nat → Nat → K} {tcol : Nat} {Q0 : Nat → Nat → K} {k : Nat}
    {free : Nat → Bool} (hF : ∀ i ∈ F, free i = true) (hm : m ≤ n) (hk : k < m) {t : (Nat → Nat → K) × (Nat → K) × (Nat → Nat → K)}
    (h : FreeInv F n m a tcol Q0 k t) (hc : Clean sq (t.2.1 k) (t.1 k (tcol + (m - 1 - k)))) :
    FreeInv F n m a tcol Q0 (k+1) (removeBoundStep sq free m (n-m) tcol k t) := by
  obtain ⟨g1, g2, g3, g4⟩ := hc
  unfold removeBoundStep
  dsimp only
  generalize computeGivens sq (t.2.1 k) (t.1 k (tcol + (m - 1 - k))) = p at *
  have e1 : n - m + 1 + (m - 1 - k) = n - k := by omega
  have e2 : n - m + (m - 1 - k) = n - (k + 1) := by omega
  rw [e1, e2]
  have c1 := h.cur
  have o1 := h.old
  have o0 := h.old0
  have v1 : ∀ q < m, q < k → lin F (a q) t.2.2 (n - k) = 0 := fun q hq hqk => by rw [c1 q hq]; exact h.cur0 q hq hqk
  have v2 : ∀ q < m, q < k → lin F (a q) t.2.2 (n - (k+1)) = 0 := fun q hq hqk => o0 q hq _ (by omega) (by omega)
  have v3 : ∀ q < m, k ≤ q → lin F (a q) t.2.2 (n - (k+1)) = t.1 q (tcol + (m - 1 - k)) := fun q hq hqk => by
    rw [o1 q hq _ (by omega) (by omega)]
    exact congrArg _ (by omega)
  constructor <;> dsimp only
  · exact h.orth.rotCols hF g1 (by omega) (by omega) (by omega)
  · intro i j hj
    rw [rotCols_ne _ _ _ (by omega) (by omega)]
    exact h.left i j hj
  · intro q hq j h1 h2
    rw [lin_rot F _ hF]
    by_cases h3 : j = n - k
    · subst h3
      rw [rotRow_fst, v1 q hq (by omega), v2 q hq (by omega)]; ring
    · rw [rotRow_ne _ _ h3 (by omega)]
      exact h.new0 q hq j (by omega) h2
  · intro q hq j h1 h2 h3
    rw [lin_rot F _ hF]
    by_cases h4 : j = n - k
    · subst h4
      rw [rotRow_fst, c1 q hq, v3 q hq (by omega), if_pos (by omega)]
      by_cases h5 : q = k
      · subst h5
        rw [if_pos rfl, g2]
      · rw [if_neg h5, if_pos ⟨by omega, hq⟩]
        unfold applyGivens
        dsimp only
        rw [show tcol + (n - k - (n - m) - 1) = tcol + (m - 1 - k) by omega]
    · rw [rotRow_ne _ _ h4 (by omega), if_neg (by omega)]
      exact h.new q hq j (by omega) h2 h3
  · intro q hq
    rw [lin_rot F _ hF, rotRow_snd _ _ (by omega), c1 q hq]
    by_cases h5 : q = k
    · subst h5
      rw [if_pos rfl, v3 q hq (Nat.le_refl _), g3]
    · rw [if_neg h5]
      by_cases h6 : q < k
      · rw [if_neg (by omega), v2 q hq h6, h.cur0 q hq h6]; ring
      · rw [if_pos ⟨by omega, hq⟩, v3 q hq (by omega)]
        rfl
  · intro q hq h1
    by_cases h5 : q = k
    · rw [if_pos h5, g4]
    · rw [if_neg h5, if_neg (by omega)]
      exact h.cur0 q hq (by omega)
  · intro q hq j h1 h2
    rw [lin_rot F _ hF, rotRow_ne _ _ (by omega) (by omega)]
    exact o0 q hq j (by omega) h2
  · intro q hq j h1 h2
    rw [lin_rot F _ hF, rotRow_ne _ _ (by omega) (by omega), if_neg (by omega)]
    exact o1 q hq j (by omega) h2

/-- No rotation is skipped for a nonzero number. -/
def CleanFree (sq : K → K) (free : Nat → Bool) (n m tcol : Nat) (t : (Nat → Nat → K) × (Nat → K) × (Nat → Nat → K)) : Prop :=
  ∀ k < m, Clean sq ((loop (removeBoundStep sq free m (n-m) tcol) k t).2.1 k) ((loop (removeBoundStep sq free m (n-m) tcol) k t).1 k (tcol + (m - 1 - k)))

/-- Variable `number` becomes free; `Q1` is `Q` with the new row and column. -/
theorem TQm.addFree {sq : K → K} {F : Finset Nat} {n m : Nat} {a Q T Q1 : Nat → Nat → K} {tcol : Nat} (h : TQm F n m a Q T tcol)
    {free : Nat → Bool} {number : Nat} (hF : ∀ i ∈ insert number F, free i = true) (hnum : number ∉ F) (hm : m ≤ n)
    (hrow : ∀ j < n, Q1 number j = 0) (hone : Q1 number n = 1) (hcol : ∀ i ∈ F, Q1 i n = 0) (hrest : ∀ i ∈ F, ∀ j < n, Q1 i j = Q i j)
    {tmp : Nat → K} (htmp : ∀ q < m, tmp q = a q number) (hc : CleanFree sq free n m tcol (T, tmp, Q1)) :
    let u := loop (removeBoundStep sq free m (n-m) tcol) m (T, tmp, Q1)
    TQm (insert number F) (n+1) m a u.2.2 u.1 tcol ∧ ∀ i j, j < n - m → u.2.2 i j = Q1 i j := by
  have hlin : ∀ x : Nat → K, ∀ j < n, lin (insert number F) x Q1 j = lin F x Q j := by
    intro x j hj
    unfold lin
    rw [sum_insert hnum, hrow j hj, mul_zero, zero_add]
    exact sum_congr rfl fun i hi => by rw [hrest i hi j hj]
  have h0 : FreeInv (insert number F) n m a tcol Q1 0 (T, tmp, Q1) := by
    constructor <;> dsimp only
    · intro i hi i' hi'
      rw [sum_range_succ]
      rcases mem_insert.1 hi with h1 | h1
      · subst h1
        rw [sum_eq_zero (fun j hj => by rw [hrow j (mem_range.1 hj), zero_mul]), zero_add, hone, one_mul]
        rcases mem_insert.1 hi' with h2 | h2
        · rw [h2, hone, if_pos rfl]
        · rw [hcol i' h2, if_neg (fun e : i = i' => hnum (e ▸ h2))]
      · rcases mem_insert.1 hi' with h2 | h2
        · subst h2
          rw [sum_eq_zero (fun j hj => by rw [hrow j (mem_range.1 hj), mul_zero]), zero_add, hcol i h1, zero_mul,
            if_neg (fun e : i = i' => hnum (e ▸ h1))]
        · rw [hcol i h1, zero_mul, add_zero, ← h.orth i h1 i' h2]
          exact sum_congr rfl fun j hj => by rw [hrest i h1 j (mem_range.1 hj), hrest i' h2 j (mem_range.1 hj)]
    · intro _ _ _; rfl
    · intro q hq j h1 h2; omega
    · intro q hq j h1 h2; omega
    · intro q hq
      unfold lin
      rw [sum_insert hnum, Nat.sub_zero, hone, mul_one, sum_eq_zero (fun i hi => by rw [hcol i hi, mul_zero]), add_zero, htmp q hq]
    · intro q hq h1; omega
    · intro q hq j h1 h2
      rw [hlin _ j (by omega)]
      exact h.zero q hq j h2
    · intro q hq j h1 h2
      rw [hlin _ j (by omega)]
      exact h.tri q hq j (by omega) h2
  have hend : FreeInv (insert number F) n m a tcol Q1 m (loop (removeBoundStep sq free m (n-m) tcol) m (T, tmp, Q1)) := by
    suffices ∀ k ≤ m, FreeInv (insert number F) n m a tcol Q1 k (loop (removeBoundStep sq free m (n-m) tcol) k (T, tmp, Q1)) from
      this m (Nat.le_refl _)
    intro k
    induction k with
    | zero => intro _; exact h0
    | succ k ih =>
      intro hk
      rw [loop]
      exact (ih (by omega)).step hF hm (by omega) (hc k (by omega))
  refine ⟨⟨hend.orth, fun q hq j hj => ?_, fun q hq j hjn hj => ?_⟩, hend.left⟩
  · rcases Nat.lt_trichotomy j (n - m) with h1 | h1 | h1
    · exact hend.old0 q hq j h1 (by omega)
    · rw [h1, hend.cur q hq, hend.cur0 q hq hq]
    · exact hend.new0 q hq j h1 hj
  · rw [hend.new q hq j (by omega) hjn hj]
    exact congrArg _ (by omega)

end QpOASES
