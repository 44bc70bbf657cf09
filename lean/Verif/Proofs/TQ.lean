import Verif.Model.QProblem
import Verif.Proofs.Factor
import Verif.Proofs.WS

/-!
Rotating columns of `Q`: what it does to the products with other matrices.
-/
namespace QpOASES
open Finset Props QPC

set_option linter.unusedSectionVars false

variable {K : Type} [Field K] [LinearOrder K] [IsStrictOrderedRing K]

/-- Rotation of elements `a` and `b` of a row -/
def rotRow (c s : K) (a b : Nat) (v : Nat → K) : Nat → K := fun j =>
  if j = a then c * v a + s * v b else if j = b then -s * v a + c * v b else v j

theorem rotRow_fst (c s : K) (a b : Nat) (v : Nat → K) : rotRow c s a b v a = c * v a + s * v b := if_pos rfl
theorem rotRow_snd (c s : K) {a b : Nat} (h : b ≠ a) (v : Nat → K) : rotRow c s a b v b = -s * v a + c * v b := by
  unfold rotRow; rw [if_neg h, if_pos rfl]
theorem rotRow_ne (c s : K) {a b j : Nat} (h1 : j ≠ a) (h2 : j ≠ b) (v : Nat → K) : rotRow c s a b v j = v j := by
  unfold rotRow; rw [if_neg h1, if_neg h2]

theorem rotRow_congr (c s : K) {a b n : Nat} (ha : a < n) (hb : b < n) {v w : Nat → K} (h : ∀ j < n, v j = w j) :
    ∀ j < n, rotRow c s a b v j = rotRow c s a b w j := by
  intro j hj
  unfold rotRow
  rw [h a ha, h b hb, h j hj]

theorem rotCols_row {p : Nat → Bool} (c s : K) (a b : Nat) (M : Nat → Nat → K) {r : Nat} (hr : p r = true) :
    rotCols p c s a b M r = rotRow c s a b (M r) := by
  funext j
  unfold rotCols rotRow applyGivens
  rw [if_pos hr]

theorem rotCols_row_not {p : Nat → Bool} (c s : K) (a b : Nat) (M : Nat → Nat → K) {r : Nat} (hr : p r = false) :
    rotCols p c s a b M r = M r := by
  funext j
  unfold rotCols
  rw [if_neg (by rw [hr]; decide)]

theorem rotCols_ne (p : Nat → Bool) (c s : K) {a b j : Nat} (h1 : j ≠ a) (h2 : j ≠ b) (M : Nat → Nat → K) (r : Nat) :
    rotCols p c s a b M r j = M r j := by
  unfold rotCols
  rw [if_neg h1, if_neg h2, ite_self]

/-- A linear combination of rotated rows is the rotated combination. -/
theorem lin_rotRow {ι : Type} (F : Finset ι) (x : ι → K) (c s : K) (a b : Nat) (Q : ι → Nat → K) (j : Nat) :
    ∑ i ∈ F, x i * rotRow c s a b (Q i) j = rotRow c s a b (fun j => ∑ i ∈ F, x i * Q i j) j := by
  unfold rotRow
  split
  · rw [mul_sum, mul_sum, ← sum_add_distrib]
    exact sum_congr rfl fun i _ => by ring
  · split
    · rw [mul_sum, mul_sum, ← sum_add_distrib]
      exact sum_congr rfl fun i _ => by ring
    · rfl

theorem lin_rotCols (F : Finset Nat) (x : Nat → K) {p : Nat → Bool} (hp : ∀ i ∈ F, p i = true) (c s : K) (a b : Nat) (Q : Nat → Nat → K)
    (j : Nat) : ∑ i ∈ F, x i * rotCols p c s a b Q i j = rotRow c s a b (fun j => ∑ i ∈ F, x i * Q i j) j := by
  rw [← lin_rotRow]
  refine sum_congr rfl fun i hi => ?_
  rw [rotCols_row c s a b Q (hp i hi)]

/-- Rotations preserve scalar products. -/
theorem dot_rotRow {c s : K} (h : c * c + s * s = 1) {a b n : Nat} (hab : a ≠ b) (ha : a < n) (hb : b < n) (v w : Nat → K) :
    ∑ j ∈ range n, rotRow c s a b v j * rotRow c s a b w j = ∑ j ∈ range n, v j * w j := by
  have key : ∀ f : Nat → K, ∑ j ∈ range n, f j = f a + f b + ∑ j ∈ (range n).erase a |>.erase b, f j := by
    intro f
    rw [← add_sum_erase (range n) f (mem_range.2 ha), ← add_sum_erase ((range n).erase a) f (mem_erase.2 ⟨hab.symm, mem_range.2 hb⟩), add_assoc]
  rw [key, key (fun j => v j * w j)]
  rw [rotRow_fst, rotRow_fst, rotRow_snd c s hab.symm, rotRow_snd c s hab.symm]
  have e : (c * v a + s * v b) * (c * w a + s * w b) + (-s * v a + c * v b) * (-s * w a + c * w b) = v a * w a + v b * w b := by
    linear_combination (v a * w a + v b * w b) * h
  rw [e]
  congr 1
  refine sum_congr rfl fun j hj => ?_
  rw [mem_erase, mem_erase] at hj
  rw [rotRow_ne c s hj.2.1 hj.1, rotRow_ne c s hj.2.1 hj.1]

/-- Rows `F` of the first `n` columns are orthonormal. -/
def Orth (F : Finset Nat) (n : Nat) (Q : Nat → Nat → K) : Prop :=
  ∀ i ∈ F, ∀ i' ∈ F, ∑ j ∈ range n, Q i j * Q i' j = if i = i' then 1 else 0

theorem Orth.rotCols {F : Finset Nat} {n : Nat} {Q : Nat → Nat → K} (h : Orth F n Q) {p : Nat → Bool} (hp : ∀ i ∈ F, p i = true) {c s : K}
    (hcs : c * c + s * s = 1) {a b : Nat} (hab : a ≠ b) (ha : a < n) (hb : b < n) : Orth F n (rotCols p c s a b Q) := by
  intro i hi i' hi'
  rw [rotCols_row c s a b Q (hp i hi), rotCols_row c s a b Q (hp i' hi'), dot_rotRow hcs hab ha hb]
  exact h i hi i' hi'

/-- The projected Hessian `Q'HQ` -/
def projH (F : Finset Nat) (H Q : Nat → Nat → K) (a b : Nat) : K := ∑ i ∈ F, Q i a * ∑ i' ∈ F, H i i' * Q i' b

theorem projH_rotCols (F : Finset Nat) (H : Nat → Nat → K) {p : Nat → Bool} (hp : ∀ i ∈ F, p i = true) (c s : K) (a b : Nat)
    (Q : Nat → Nat → K) (u v : Nat) :
    projH F H (rotCols p c s a b Q) u v = rotRow c s a b (fun u => rotRow c s a b (fun v => projH F H Q u v) v) u := by
  unfold projH
  have e1 : ∀ i, ∑ i' ∈ F, H i i' * rotCols p c s a b Q i' v = rotRow c s a b (fun v => ∑ i' ∈ F, H i i' * Q i' v) v :=
    fun i => lin_rotCols F (H i) hp c s a b Q v
  rw [sum_congr rfl fun i _ => by rw [e1 i]]
  have e2 : ∀ u, ∑ i ∈ F, Q i u * rotRow c s a b (fun v => ∑ i' ∈ F, H i i' * Q i' v) v =
      rotRow c s a b (fun v => ∑ i ∈ F, Q i u * ∑ i' ∈ F, H i i' * Q i' v) v :=
    fun u => lin_rotRow F (fun i => Q i u) c s a b _ v
  have e3 : ∑ i ∈ F, rotCols p c s a b Q i u * rotRow c s a b (fun v => ∑ i' ∈ F, H i i' * Q i' v) v =
      rotRow c s a b (fun u => ∑ i ∈ F, Q i u * rotRow c s a b (fun v => ∑ i' ∈ F, H i i' * Q i' v) v) u := by
    rw [sum_congr rfl fun i _ => mul_comm _ _, lin_rotCols F _ hp]
    congr 1
    funext u
    exact sum_congr rfl fun i _ => mul_comm _ _
  rw [e3]
  congr 1
  funext u
  exact e2 u

/-- Products of the columns of `R` over the first `N` rows -/
def gram (N : Nat) (R : Nat → Nat → K) (a b : Nat) : K := ∑ r ∈ range N, R r a * R r b

theorem gram_rotRow (N : Nat) (c s : K) (a b : Nat) (R : Nat → Nat → K) (u v : Nat) :
    gram N (fun r => rotRow c s a b (R r)) u v = rotRow c s a b (fun u => rotRow c s a b (fun v => gram N R u v) v) u := by
  unfold gram
  have e2 : ∀ u, ∑ r ∈ range N, R r u * rotRow c s a b (R r) v = rotRow c s a b (fun v => ∑ r ∈ range N, R r u * R r v) v :=
    fun u => lin_rotRow (range N) (fun i => R i u) c s a b _ v
  have e3 : ∑ r ∈ range N, rotRow c s a b (R r) u * rotRow c s a b (R r) v =
      rotRow c s a b (fun u => ∑ r ∈ range N, R r u * rotRow c s a b (R r) v) u := by
    rw [sum_congr rfl fun i _ => mul_comm _ _, lin_rotRow]
    congr 1
    funext u
    exact sum_congr rfl fun i _ => mul_comm _ _
  rw [e3]
  congr 1
  funext u
  exact e2 u

/-! ### rotations -/

/-- The Givens rotation computed for the pair `x`, `y` is a rotation and turns `y` into 0: the square root is exact, and `y` is not a
negligible nonzero number, for which the code skips the rotation (see `clean_of`). -/
def Clean (sq : K → K) (x y : K) : Prop :=
  (computeGivens sq x y).2.2.1 * (computeGivens sq x y).2.2.1 + (computeGivens sq x y).2.2.2 * (computeGivens sq x y).2.2.2 = 1 ∧
  (computeGivens sq x y).1 = (computeGivens sq x y).2.2.1 * x + (computeGivens sq x y).2.2.2 * y ∧
  (computeGivens sq x y).2.1 = -(computeGivens sq x y).2.2.2 * x + (computeGivens sq x y).2.2.1 * y ∧
  (computeGivens sq x y).2.1 = 0

theorem clean_of {sq : K → K} (hsq : IsSqrt sq) (x : K) {y : K} (hc : y = 0 ∨ ZERO < |y|) : Clean sq x y := by
  unfold Clean
  rcases hp : computeGivens sq x y with ⟨xn, yn, c, s⟩
  obtain ⟨g1, g2, g3, g4, g5, g6⟩ := C26_compute_partial hsq x y _ _ _ _ hp
  rw [Prod.mk.injEq] at g4
  refine ⟨g1, g4.1, g4.2, ?_⟩
  rcases hc with h | h
  · rw [h, abs_zero] at g6
    exact (g6 ZERO_pos.le).2
  · exact (g5 h).1

/-! ### the sweep over the null space columns -/

/-- `R` without its entries below the diagonal, except for those in the first `m` columns just below it -/
def hess (m : Nat) (R : Nat → Nat → K) : Nat → Nat → K := fun r c => if r ≤ c ∨ (r = c + 1 ∧ c < m) then R r c else 0

theorem hess_rot {c s : K} {j : Nat} {R : Nat → Nat → K} (h0 : R (j+1) j = 0) (r : Nat) :
    hess (j+1) (rotCols (fun i => decide (i ≤ j+1)) c s (j+1) j R) r = rotRow c s (j+1) j (hess j R r) := by
  have hp : ∀ r, r ≤ j + 1 → rotCols (fun i => decide (i ≤ j+1)) c s (j+1) j R r = rotRow c s (j+1) j (R r) :=
    fun r hr => rotCols_row c s _ _ R (decide_eq_true hr)
  have hq : ∀ r, ¬ r ≤ j + 1 → rotCols (fun i => decide (i ≤ j+1)) c s (j+1) j R r = R r :=
    fun r hr => rotCols_row_not c s _ _ R (decide_eq_false hr)
  funext k
  by_cases h1 : k = j + 1
  · subst h1
    rw [rotRow_fst]
    by_cases hr : r ≤ j + 1
    · have e1 : hess j R r (j+1) = R r (j+1) := if_pos (Or.inl hr)
      have e2 : hess j R r j = R r j := by
        unfold hess
        by_cases h2 : r ≤ j
        · rw [if_pos (Or.inl h2)]
        · rw [if_neg (by omega), show r = j + 1 by omega, h0]
      rw [e1, e2]
      unfold hess
      rw [if_pos (Or.inl hr), hp r hr, rotRow_fst]
    · unfold hess
      rw [if_neg (by omega), if_neg (by omega), if_neg (by omega), mul_zero, mul_zero, add_zero]
  · by_cases h2 : k = j
    · subst h2
      rw [rotRow_snd c s (by omega)]
      by_cases hr : r ≤ k + 1
      · have e1 : hess k R r (k+1) = R r (k+1) := if_pos (Or.inl hr)
        have e2 : hess k R r k = R r k := by
          unfold hess
          by_cases h2 : r ≤ k
          · rw [if_pos (Or.inl h2)]
          · rw [if_neg (by omega), show r = k + 1 by omega, h0]
        rw [e1, e2]
        unfold hess
        rw [if_pos (by omega), hp r hr, rotRow_snd c s (by omega)]
      · unfold hess
        rw [if_neg (by omega), if_neg (by omega), if_neg (by omega), mul_zero, mul_zero, add_zero]
    · rw [rotRow_ne c s h1 h2]
      unfold hess
      rw [rotCols_ne _ c s h1 h2]
      by_cases h3 : r ≤ k ∨ (r = k + 1 ∧ k < j)
      · rw [if_pos h3, if_pos (by omega)]
      · rw [if_neg h3, if_neg (by omega)]

/-- Invariant of the sweep: `x` is the functional whose values `w` are rotated away, `Q0` and `R0` are the matrices before. -/
structure SweepInv (F : Finset Nat) (n nZ : Nat) (H : Nat → Nat → K) (upd : Bool) (x : Nat → K) (Q0 R0 : Nat → Nat → K) (m : Nat)
    (t : Sweep K) : Prop where
  w : ∀ j < nZ, t.w j = ∑ i ∈ F, x i * t.Q i j
  zero : ∀ j < m, t.w j = 0
  orth : Orth F n t.Q
  kernel : ∀ y : Nat → K, (∀ j < nZ, ∑ i ∈ F, y i * Q0 i j = 0) → ∀ j < nZ, ∑ i ∈ F, y i * t.Q i j = 0
  right : ∀ i j, nZ ≤ j → t.Q i j = Q0 i j
  keepR : upd = false → t.R = R0
  gram : upd = true → ∀ a < nZ, ∀ b < nZ, gram nZ (hess m t.R) a b = projH F H t.Q a b
  sub : upd = true → ∀ j, m ≤ j → t.R (j+1) j = 0

theorem SweepInv.step {sq : K → K} {F : Finset Nat} {n nZ : Nat} {H : Nat → Nat → K} {upd : Bool} {x : Nat → K}
    {Q0 R0 : Nat → Nat → K} {free : Nat → Bool} (hF : ∀ i ∈ F, free i = true) (hn : nZ ≤ n) {m : Nat} (hm : m + 1 < nZ) {t : Sweep K}
    (h : SweepInv F n nZ H upd x Q0 R0 m t) (hc : Clean sq (t.w (m+1)) (t.w m)) : SweepInv F n nZ H upd x Q0 R0 (m+1) (sweepStep sq free upd m t) := by
  obtain ⟨g1, g2, g3, g4⟩ := hc
  unfold sweepStep
  dsimp only
  generalize computeGivens sq (t.w (m+1)) (t.w m) = p at *
  have hne : m + 1 ≠ m := by omega
  constructor
  · intro j hj
    dsimp only
    rw [lin_rotCols F x hF]
    by_cases h1 : j = m
    · subst h1
      rw [updA_same, rotRow_snd _ _ (by omega), ← h.w _ (by omega), ← h.w _ (by omega), g3]
    · rw [updA_ne _ _ h1]
      by_cases h2 : j = m + 1
      · subst h2
        rw [updA_same, rotRow_fst, ← h.w _ (by omega), ← h.w _ (by omega), g2]
      · rw [updA_ne _ _ h2, rotRow_ne _ _ h2 h1, h.w j hj]
  · intro j hj
    dsimp only
    by_cases h1 : j = m
    · subst h1
      rw [updA_same, g4]
    · rw [updA_ne _ _ h1, updA_ne _ _ (by omega), h.zero j (by omega)]
  · exact h.orth.rotCols hF g1 hne (by omega) (by omega)
  · intro y hy j hj
    dsimp only
    rw [lin_rotCols F y hF]
    have := rotRow_congr p.2.2.1 p.2.2.2 (a := m+1) (b := m) (n := nZ) (by omega) (by omega) (h.kernel y hy) j hj
    rw [this]
    unfold rotRow
    split
    · ring
    · split
      · ring
      · rfl
  · intro i j hj
    dsimp only
    rw [rotCols_ne _ _ _ (by omega) (by omega)]
    exact h.right i j hj
  · intro hu
    subst hu
    exact h.keepR rfl
  · intro hu a ha b hb
    subst hu
    dsimp only
    rw [if_pos rfl, projH_rotCols F H hF]
    have e : hess (m+1) (rotCols (fun i => decide (i ≤ m+1)) p.2.2.1 p.2.2.2 (m+1) m t.R) =
        fun r => rotRow p.2.2.1 p.2.2.2 (m+1) m (hess m t.R r) := by
      funext r
      exact hess_rot (h.sub rfl m (Nat.le_refl _)) r
    rw [e, gram_rotRow]
    refine rotRow_congr _ _ (by omega) (by omega) (fun u hu => ?_) a ha
    exact rotRow_congr _ _ (by omega) (by omega) (fun v hv => h.gram rfl u hu v hv) b hb
  · intro hu j hj
    subst hu
    dsimp only
    rw [if_pos rfl, rotCols_row_not _ _ _ _ _ (decide_eq_false (by omega))]
    exact h.sub rfl j (by omega)

/-- No rotation of the sweep is skipped for a nonzero number. -/
def CleanSweep (sq : K → K) (free : Nat → Bool) (upd : Bool) (nZ : Nat) (t : Sweep K) : Prop :=
  ∀ j < nZ - 1, Clean sq ((loop (sweepStep sq free upd) j t).w (j+1)) ((loop (sweepStep sq free upd) j t).w j)

theorem SweepInv.all {sq : K → K} {F : Finset Nat} {n nZ : Nat} {H : Nat → Nat → K} {upd : Bool} {x : Nat → K}
    {Q0 R0 : Nat → Nat → K} {free : Nat → Bool} (hF : ∀ i ∈ F, free i = true) (hn : nZ ≤ n) {t : Sweep K}
    (h : SweepInv F n nZ H upd x Q0 R0 0 t) (hc : CleanSweep sq free upd nZ t) :
    SweepInv F n nZ H upd x Q0 R0 (nZ-1) (sweep sq free upd nZ t) := by
  unfold sweep
  suffices ∀ m ≤ nZ - 1, SweepInv F n nZ H upd x Q0 R0 m (loop (sweepStep sq free upd) m t) from this _ (Nat.le_refl _)
  intro m
  induction m with
  | zero => intro _; exact h
  | succ m ih =>
    intro hm
    rw [loop]
    exact (ih (by omega)).step hF hn (by omega) (hc m (by omega))

/-! ### restoring the triangular form -/

/-- `R` without its entries below the diagonal, except for those just below it from column `m` on -/
def part (m : Nat) (R : Nat → Nat → K) : Nat → Nat → K := fun r c => if r ≤ c ∨ (r = c + 1 ∧ m ≤ c) then R r c else 0

theorem part_step {sq : K → K} {nZ i : Nat} {R : Nat → Nat → K} (hc : Clean sq (R i i) (R (i+1) i)) {c : Nat} (hcn : c < nZ - 1)
    (hi : i < nZ - 1) : ∃ γ σ : K, γ * γ + σ * σ = 1 ∧ ∀ c < nZ - 1, (fun r => part (i+1) (restoreStep sq nZ i R) r c) = rotRow γ σ i (i+1) (fun r => part i R r c) := by
  obtain ⟨g1, g2, g3, g4⟩ := hc
  refine ⟨_, _, g1, fun c hcn => ?_⟩
  unfold restoreStep
  dsimp only
  generalize computeGivens sq (R i i) (R (i+1) i) = p at *
  funext r
  rcases Nat.lt_trichotomy c i with h1 | h1 | h1
  · have z : ∀ r, i ≤ r → part i R r c = 0 := fun r hr => if_neg (by omega)
    by_cases hr : r = i ∨ r = i + 1
    · have : part (i+1) (fun r j => if j = i then (if r = i then p.1 else if r = i+1 then p.2.1 else R r j)
          else if i < j ∧ j < nZ - 1 then
            (if r = i then (applyGivens p.2.2.1 p.2.2.2 (R i j) (R (i+1) j)).1
             else if r = i+1 then (applyGivens p.2.2.1 p.2.2.2 (R i j) (R (i+1) j)).2 else R r j)
          else R r j) r c = 0 := if_neg (by omega)
      rw [this]
      unfold rotRow
      dsimp only
      rw [z i (Nat.le_refl _), z (i+1) (by omega)]
      split
      · ring
      · split
        · ring
        · omega
    · rw [rotRow_ne _ _ (by omega) (by omega)]
      unfold part
      dsimp only
      by_cases h2 : r ≤ c
      · rw [if_pos (Or.inl h2), if_pos (Or.inl h2), if_neg (by omega), if_neg (by omega)]
      · rw [if_neg (by omega), if_neg (by omega)]
  · subst h1
    by_cases h2 : r = c
    · subst h2
      rw [rotRow_fst]
      have e1 : part r R r r = R r r := if_pos (Or.inl (Nat.le_refl _))
      have e2 : part r R (r+1) r = R (r+1) r := if_pos (Or.inr ⟨rfl, Nat.le_refl _⟩)
      rw [e1, e2]
      unfold part
      dsimp only
      rw [if_pos (Or.inl (Nat.le_refl _)), if_pos rfl, if_pos rfl, g2]
    · by_cases h3 : r = c + 1
      · subst h3
        rw [rotRow_snd _ _ (by omega)]
        have e1 : part c R c c = R c c := if_pos (Or.inl (Nat.le_refl _))
        have e2 : part c R (c+1) c = R (c+1) c := if_pos (Or.inr ⟨rfl, Nat.le_refl _⟩)
        rw [e1, e2, ← g3, g4]
        exact if_neg (by omega)
      · rw [rotRow_ne _ _ h2 h3]
        unfold part
        dsimp only
        by_cases h4 : r ≤ c
        · rw [if_pos (Or.inl h4), if_pos (Or.inl h4), if_pos rfl, if_neg h2, if_neg h3]
        · rw [if_neg (by omega), if_neg (by omega)]
  · have e : ∀ r, r ≤ c → part i R r c = R r c := fun r hr => if_pos (Or.inl hr)
    by_cases h2 : r = i
    · subst h2
      rw [rotRow_fst, e r (by omega), e (r+1) (by omega)]
      unfold part applyGivens
      dsimp only
      rw [if_pos (by omega), if_neg (by omega), if_pos ⟨h1, hcn⟩, if_pos rfl]
    · by_cases h3 : r = i + 1
      · subst h3
        rw [rotRow_snd _ _ (by omega), e i (by omega), e (i+1) (by omega)]
        unfold part applyGivens
        dsimp only
        rw [if_pos (by omega), if_neg (by omega), if_pos ⟨h1, hcn⟩, if_neg (by omega), if_pos rfl]
      · rw [rotRow_ne _ _ h2 h3]
        unfold part
        dsimp only
        by_cases h4 : r ≤ c ∨ (r = c + 1 ∧ i + 1 ≤ c)
        · rw [if_pos h4, if_neg (show ¬ c = i by omega), if_pos ⟨h1, hcn⟩, if_neg h2, if_neg h3]
          exact (if_pos (by omega)).symm
        · rw [if_neg h4, if_neg (by omega)]

/-- No rotation is skipped for a nonzero number. -/
def CleanRestore (sq : K → K) (nZ : Nat) (R : Nat → Nat → K) : Prop :=
  ∀ i < nZ - 1, Clean sq (loop (restoreStep sq nZ) i R i i) (loop (restoreStep sq nZ) i R (i+1) i)

structure RestoreInv (nZ : Nat) (B R0 : Nat → Nat → K) (m : Nat) (R : Nat → Nat → K) : Prop where
  gram : ∀ a < nZ - 1, ∀ b < nZ - 1, gram nZ (part m R) a b = B a b
  sub : ∀ j < m, R (j+1) j = 0
  keep : ∀ r j, nZ - 1 ≤ j → R r j = R0 r j

theorem RestoreInv.step {sq : K → K} {nZ : Nat} {B R0 R : Nat → Nat → K} {m : Nat} (hm : m < nZ - 1)
    (h : RestoreInv nZ B R0 m R) (hc : Clean sq (R m m) (R (m+1) m)) : RestoreInv nZ B R0 (m+1) (restoreStep sq nZ m R) := by
  refine ⟨fun a ha b hb => ?_, fun j hj => ?_, fun r j hj => ?_⟩
  · obtain ⟨γ, σ, h1, h2⟩ := part_step (nZ := nZ) hc ha hm
    rw [← h.gram a ha b hb]
    unfold QpOASES.gram
    have ea := h2 a ha
    have eb := h2 b hb
    have := dot_rotRow h1 (a := m) (b := m+1) (n := nZ) (by omega) (by omega) (by omega) (fun r => part m R r a) (fun r => part m R r b)
    rw [← ea, ← eb] at this
    exact this
  · by_cases h1 : j = m
    · subst h1
      have := hc.2.2.2
      unfold restoreStep
      rw [if_pos rfl, if_neg (by omega), if_pos rfl]
      exact this
    · rw [← h.sub j (by omega)]
      unfold restoreStep
      rw [if_neg h1, if_neg (by omega)]
  · rw [← h.keep r j hj]
    unfold restoreStep
    rw [if_neg (by omega), if_neg (by omega)]

/-- After the sweep and the restoration, `R` is a factor of the projected Hessian without the last column. -/
theorem restoreR_spec {sq : K → K} {nZ : Nat} {B R : Nat → Nat → K}
    (hg : ∀ a < nZ, ∀ b < nZ, gram nZ (hess (nZ-1) R) a b = B a b) (hs : ∀ j, nZ - 1 ≤ j → R (j+1) j = 0) (hc : CleanRestore sq nZ R) :
    UpperGram (nZ-1) (restoreR sq nZ R) B ∧ ∀ j, restoreR sq nZ R (j+1) j = 0 := by
  have hinv : RestoreInv nZ B R (nZ-1) (loop (restoreStep sq nZ) (nZ-1) R) := by
    suffices ∀ m ≤ nZ - 1, RestoreInv nZ B R m (loop (restoreStep sq nZ) m R) from this _ (Nat.le_refl _)
    intro m
    induction m with
    | zero =>
      intro _
      refine ⟨fun a ha b hb => ?_, fun j hj => by omega, fun _ _ _ => rfl⟩
      rw [← hg a (by omega) b (by omega)]
      unfold QpOASES.gram
      refine sum_congr rfl fun r _ => ?_
      have : ∀ c, c < nZ - 1 → part 0 R r c = hess (nZ-1) R r c := by
        intro c hc
        unfold part hess
        by_cases h : r ≤ c ∨ (r = c + 1 ∧ 0 ≤ c)
        · rw [if_pos h, if_pos (by omega)]
        · rw [if_neg h, if_neg (by omega)]
      show part 0 R r a * part 0 R r b = _
      rw [this a ha, this b hb]
    | succ m ih =>
      intro hm
      rw [loop]
      exact (ih (by omega)).step (by omega) (hc m (by omega))
  unfold restoreR
  dsimp only
  generalize loop (restoreStep sq nZ) (nZ-1) R = S at *
  constructor
  · intro r c hrc hcn
    rw [← hinv.gram r (by omega) c hcn]
    unfold QpOASES.gram
    have hz : range (r+1) ⊆ range nZ := by intro q hq; rw [mem_range] at *; omega
    rw [← sum_subset hz]
    · refine sum_congr rfl fun q hq => ?_
      have hq := mem_range.1 hq
      have e : ∀ k, k < nZ - 1 → q ≤ k → part (nZ-1) S q k = S q k := fun k hk h => if_pos (Or.inl h)
      dsimp only
      rw [e r (by omega) (by omega), e c hcn (by omega), if_neg (by omega), if_neg (by omega)]
    · intro q _ hq
      rw [mem_range] at hq
      have : part (nZ-1) S q r = 0 := if_neg (by omega)
      rw [this, zero_mul]
  · intro j
    split
    · rfl
    · by_cases h : j < nZ - 1
      · exact hinv.sub j h
      · rw [hinv.keep _ _ (by omega)]
        exact hs j (by omega)

end QpOASES
