import Verif.Model.Normalise
import Verif.Proofs.Numeric
import Mathlib.Analysis.SpecialFunctions.Pow.Real

/-!
C46: normalising constraints.
-/
namespace QpOASES.Props
open ReturnValue Finset

variable {K : Type} [Field K] [LinearOrder K] [IsStrictOrderedRing K]

/-- `x` satisfies `lbA ≤ A x ≤ ubA` (a missing vector means no limits; limits are taken literally). -/
def FeasibleRows (nV nC : Nat) (s : NormState K) (x : Nat → K) : Prop :=
  ∀ i < nC, (∀ l ∈ s.lbA, l i ≤ ∑ j ∈ range nV, s.A (i*nV + j) * x j) ∧
    (∀ u ∈ s.ubA, ∑ j ∈ range nV, s.A (i*nV + j) * x j ≤ u i)

/-- The same with qpOASES' convention that limits beyond `±INFTY` are absent. -/
def FeasibleRowsInf (nV nC : Nat) (s : NormState K) (x : Nat → K) : Prop :=
  ∀ i < nC, (∀ l ∈ s.lbA, l i ≤ -INFTY ∨ l i ≤ ∑ j ∈ range nV, s.A (i*nV + j) * x j) ∧
    (∀ u ∈ s.ubA, u i ≥ INFTY ∨ ∑ j ∈ range nV, s.A (i*nV + j) * x j ≤ u i)

/-- Mathematical norm of row `i` is one (type 1: sum of moduli, type 2: Euclidean). -/
def UnitRow (type : Int) (nV : Nat) (A : Nat → K) (i : Nat) : Prop :=
  (type = 1 → ∑ j ∈ range nV, |A (i*nV + j)| = 1) ∧
  (type = 2 → ∑ j ∈ range nV, (A (i*nV + j))^2 = 1)

/-- Full statement of C46 (for the two supported norms, literal limits). -/
def C46_statement (K : Type) [Field K] [LinearOrder K] [IsStrictOrderedRing K] (sq : K → K) : Prop :=
  ∀ (nV nC : Nat) (A : Nat → K) (lbA ubA : Option (Nat → K)) (type : Int), 0 < nV → 0 < nC →
    (type = 1 ∨ type = 2) →
    ∃ s, normaliseConstraints sq nV nC (some A) lbA ubA type = (SUCCESSFUL_RETURN, some s) ∧
      (∀ x, FeasibleRows nV nC s x ↔ FeasibleRows nV nC ⟨A, lbA, ubA⟩ x) ∧
      ∀ i < nC, UnitRow type nV s.A i

/-- Row `ii` in closed form: the scaled row, or the replacement of a (nearly) zero row. -/
def rowFactor (sq : K → K) (nV : Nat) (type : Int) (A : Nat → K) (i : Nat) : K :=
  getNorm sq (fun j => A (i*nV + j)) nV type

def expectedRow (sq : K → K) (nV : Nat) (type : Int) (A : Nat → K) (i j : Nat) : K :=
  if rowFactor sq nV type A i > EPS then A (i*nV + j) / rowFactor sq nV type A i
  else if type = 1 then 1 / (nV : K) else 1 / sq (nV : K)

def expectedLo (sq : K → K) (nV : Nat) (type : Int) (A l : Nat → K) (i : Nat) : K :=
  if rowFactor sq nV type A i > EPS then l i / rowFactor sq nV type A i else -INFTY

def expectedUp (sq : K → K) (nV : Nat) (type : Int) (A u : Nat → K) (i : Nat) : K :=
  if rowFactor sq nV type A i > EPS then u i / rowFactor sq nV type A i else INFTY

theorem row_ne {nV i i' j j' : Nat} (h : i ≠ i') (hj : j < nV) (hj' : j' < nV) :
    i*nV + j ≠ i'*nV + j' := by
  rcases Nat.lt_or_gt_of_ne h with h | h
  · have := Nat.mul_le_mul_right nV (Nat.succ_le_of_lt h)
    rw [Nat.succ_mul] at this; omega
  · have := Nat.mul_le_mul_right nV (Nat.succ_le_of_lt h)
    rw [Nat.succ_mul] at this; omega

theorem normaliseRow_A (sq : K → K) (nV : Nat) (type : Int) (ii : Nat) (s : NormState K) (i j : Nat)
    (hj : j < nV) :
    (normaliseRow sq nV type ii s).A (i*nV + j) =
      if i = ii then expectedRow sq nV type s.A ii j else s.A (i*nV + j) := by
  have hin : ∀ g : Nat → K → K,
      loop (fun jj A => updA A (ii*nV + jj) (g jj (A (ii*nV + jj)))) nV s.A (i*nV + j) =
        if i = ii then g j (s.A (ii*nV + j)) else s.A (i*nV + j) := by
    intro g
    rw [loop_map g (ii*nV) nV s.A (i*nV + j)]
    by_cases h : i = ii
    · subst h
      rw [if_pos (by omega), if_pos rfl]
      congr 1; omega
    · rw [if_neg h, if_neg]
      rintro ⟨h1, h2⟩
      obtain ⟨t, ht⟩ := Nat.exists_eq_add_of_le h1
      exact row_ne h hj (j' := t) (by omega) ht
  unfold normaliseRow expectedRow rowFactor
  simp only
  by_cases h : getNorm sq (fun j => s.A (ii*nV + j)) nV type > EPS
  · rw [if_pos h, if_pos h]
    exact hin (fun _ a => a / getNorm sq (fun j => s.A (ii*nV + j)) nV type)
  · rw [if_neg h, if_neg h]
    simp only
    by_cases ht : type = 1
    · rw [if_pos ht, if_pos ht]
      exact hin (fun _ _ => 1 / (nV : K))
    · rw [if_neg ht, if_neg ht]
      exact hin (fun _ _ => 1 / sq (nV : K))

theorem normaliseRow_lb (sq : K → K) (nV : Nat) (type : Int) (ii : Nat) (s : NormState K) :
    (normaliseRow sq nV type ii s).lbA = s.lbA.map fun l => updA l ii (expectedLo sq nV type s.A l ii) := by
  unfold normaliseRow expectedLo rowFactor
  simp only
  split <;> rfl

theorem normaliseRow_ub (sq : K → K) (nV : Nat) (type : Int) (ii : Nat) (s : NormState K) :
    (normaliseRow sq nV type ii s).ubA = s.ubA.map fun u => updA u ii (expectedUp sq nV type s.A u ii) := by
  unfold normaliseRow expectedUp rowFactor
  simp only
  split <;> rfl

theorem getNorm_congr (sq : K → K) {v w : Nat → K} {n : Nat} (type : Int) (h : ∀ i < n, v i = w i) :
    getNorm sq v n type = getNorm sq w n type := by
  have e1 : sumTo (fun i => v i * v i) n = sumTo (fun i => w i * w i) n := by
    rw [sumTo_eq, sumTo_eq]; exact sum_congr rfl fun i hi => by rw [h i (mem_range.1 hi)]
  have e2 : sumTo (fun i => getAbs (v i)) n = sumTo (fun i => getAbs (w i)) n := by
    rw [sumTo_eq, sumTo_eq]; exact sum_congr rfl fun i hi => by rw [h i (mem_range.1 hi)]
  unfold getNorm
  rw [e1, e2]

/-- Closed form of the whole loop. -/
theorem normalise_closed (sq : K → K) (nV : Nat) (type : Int) (A : Nat → K) (lbA ubA : Option (Nat → K))
    (nC : Nat) :
    (∀ i j, j < nV → (loop (normaliseRow sq nV type) nC ⟨A, lbA, ubA⟩).A (i*nV + j) =
      if i < nC then expectedRow sq nV type A i j else A (i*nV + j)) ∧
    (loop (normaliseRow sq nV type) nC ⟨A, lbA, ubA⟩).lbA =
      lbA.map (fun l i => if i < nC then expectedLo sq nV type A l i else l i) ∧
    (loop (normaliseRow sq nV type) nC ⟨A, lbA, ubA⟩).ubA =
      ubA.map (fun u i => if i < nC then expectedUp sq nV type A u i else u i) := by
  induction nC with
  | zero => refine ⟨fun i j _ => by simp [loop], ?_, ?_⟩ <;> simp [loop]
  | succ n ih =>
    obtain ⟨i1, i2, i3⟩ := ih
    generalize hs : loop (normaliseRow sq nV type) n ⟨A, lbA, ubA⟩ = s at i1 i2 i3
    have hf : rowFactor sq nV type s.A n = rowFactor sq nV type A n :=
      getNorm_congr sq type fun j hj => by rw [i1 n j hj, if_neg (by omega)]
    refine ⟨fun i j hj => ?_, ?_, ?_⟩
    · rw [loop, hs, normaliseRow_A _ _ _ _ _ _ _ hj]
      by_cases h : i = n
      · subst h
        rw [if_pos rfl, if_pos (by omega)]
        unfold expectedRow
        rw [hf, i1 i j hj, if_neg (show ¬ (i < i) by omega)]
      · rw [if_neg h, i1 i j hj]
        by_cases h2 : i < n
        · rw [if_pos h2, if_pos (by omega)]
        · rw [if_neg h2, if_neg (by omega)]
    · rw [loop, hs, normaliseRow_lb, i2, Option.map_map]
      congr 1
      funext l i
      simp only [Function.comp_apply]
      by_cases h : i = n
      · subst h
        rw [updA_same, if_pos (by omega)]
        unfold expectedLo
        simp only [hf, Nat.lt_irrefl, if_false]
      · rw [updA_ne _ _ h]
        by_cases h2 : i < n
        · rw [if_pos h2, if_pos (by omega)]
        · rw [if_neg h2, if_neg (by omega)]
    · rw [loop, hs, normaliseRow_ub, i3, Option.map_map]
      congr 1
      funext l i
      simp only [Function.comp_apply]
      by_cases h : i = n
      · subst h
        rw [updA_same, if_pos (by omega)]
        unfold expectedUp
        simp only [hf, Nat.lt_irrefl, if_false]
      · rw [updA_ne _ _ h]
        by_cases h2 : i < n
        · rw [if_pos h2, if_pos (by omega)]
        · rw [if_neg h2, if_neg (by omega)]

theorem rowFactor_eq (sq : K → K) (hsq : IsSqrt sq) (nV : Nat) (A : Nat → K) (i : Nat) :
    (rowFactor sq nV 1 A i = ∑ j ∈ range nV, |A (i*nV + j)|) ∧
    ((rowFactor sq nV 2 A i)^2 = ∑ j ∈ range nV, (A (i*nV + j))^2) := by
  constructor
  · simp [rowFactor, getNorm, sumTo_eq, getAbs]
  · have h0 : 0 ≤ ∑ j ∈ range nV, A (i*nV + j) * A (i*nV + j) :=
      sum_nonneg fun j _ => mul_self_nonneg _
    simp only [rowFactor, getNorm, if_true, sumTo_eq]
    rw [pow_two, (hsq _ h0).2]
    exact sum_congr rfl fun j _ => by ring

/-- Every row, also a replaced one, has unit norm afterwards. -/
theorem unit_row (sq : K → K) (hsq : IsSqrt sq) (nV : Nat) (hV : 0 < nV) (type : Int) (A B : Nat → K) (i : Nat)
    (hB : ∀ j < nV, B (i*nV + j) = expectedRow sq nV type A i j) : UnitRow type nV B i := by
  have hVK : (0 : K) < (nV : K) := by exact_mod_cast hV
  constructor
  · rintro rfl
    rw [sum_congr rfl fun j hj => by rw [hB j (mem_range.1 hj)]]
    unfold expectedRow
    by_cases h : rowFactor sq nV 1 A i > EPS
    · have hp := lt_trans EPS_pos' h
      simp only [if_pos h, abs_div, abs_of_pos hp]
      rw [← sum_div, ← (rowFactor_eq sq hsq nV A i).1]
      exact div_self hp.ne'
    · simp only [if_neg h, if_true]
      rw [abs_of_pos (by positivity)]
      simp [hVK.ne']
  · rintro rfl
    rw [sum_congr rfl fun j hj => by rw [hB j (mem_range.1 hj)]]
    unfold expectedRow
    by_cases h : rowFactor sq nV 2 A i > EPS
    · have hp := lt_trans EPS_pos' h
      simp only [if_pos h, div_pow]
      rw [← sum_div, ← (rowFactor_eq sq hsq nV A i).2]
      exact div_self (pow_ne_zero 2 hp.ne')
    · have hs := hsq (nV : K) hVK.le
      have h21 : ¬ ((2 : Int) = 1) := by decide
      simp only [if_neg h, h21, if_false, div_pow, one_pow]
      rw [pow_two, hs.2]
      simp [hVK.ne']

/-- C46, unit norms: holds for all inputs. -/
theorem C46_unit_norm (sq : K → K) (hsq : IsSqrt sq) (nV nC : Nat) (A : Nat → K)
    (lbA ubA : Option (Nat → K)) (type : Int) (hV : 0 < nV) (hC : 0 < nC) :
    ∃ s, normaliseConstraints sq nV nC (some A) lbA ubA type = (SUCCESSFUL_RETURN, some s) ∧
      ∀ i < nC, UnitRow type nV s.A i := by
  have h : ¬ ((nV : Int) ≤ 0 ∨ (nC : Int) ≤ 0) := by omega
  refine ⟨_, by simp only [normaliseConstraints, if_neg h, Int.toNat_natCast]; rfl, fun i hi => ?_⟩
  obtain ⟨h1, -, -⟩ := normalise_closed sq nV type A lbA ubA nC
  exact unit_row sq hsq nV hV type A _ i fun j hj => by rw [h1 i j hj, if_pos hi]

/-- C46, what holds: if every row has norm above `EPS`, the set of feasible points is unchanged and every
row has unit norm.  (Missing: rows with norm at most `EPS`, for which the property fails, see below.) -/
theorem C46_partial (sq : K → K) (hsq : IsSqrt sq) (nV nC : Nat) (A : Nat → K)
    (lbA ubA : Option (Nat → K)) (type : Int) (hV : 0 < nV) (hC : 0 < nC) (ht : type = 1 ∨ type = 2)
    (hrow : ∀ i < nC, (type = 1 → EPS < ∑ j ∈ range nV, |A (i*nV + j)|) ∧
      (type = 2 → EPS^2 < ∑ j ∈ range nV, (A (i*nV + j))^2)) :
    ∃ s, normaliseConstraints sq nV nC (some A) lbA ubA type = (SUCCESSFUL_RETURN, some s) ∧
      (∀ x, FeasibleRows nV nC s x ↔ FeasibleRows nV nC ⟨A, lbA, ubA⟩ x) ∧
      ∀ i < nC, UnitRow type nV s.A i := by
  have h : ¬ ((nV : Int) ≤ 0 ∨ (nC : Int) ≤ 0) := by omega
  obtain ⟨h1, h2, h3⟩ := normalise_closed sq nV type A lbA ubA nC
  have hnorm : ∀ i < nC, rowFactor sq nV type A i > EPS := by
    intro i hi
    rcases ht with rfl | rfl
    · rw [(rowFactor_eq sq hsq nV A i).1]; exact (hrow i hi).1 rfl
    · have h4 := (rowFactor_eq sq hsq nV A i).2
      have h5 := (hrow i hi).2 rfl
      rw [← h4] at h5
      have h6 : 0 ≤ rowFactor sq nV 2 A i := by
        simp only [rowFactor, getNorm, if_true, sumTo_eq]
        exact (hsq _ (sum_nonneg fun j _ => mul_self_nonneg _)).1
      exact lt_of_pow_lt_pow_left₀ 2 h6 h5
  refine ⟨_, by simp only [normaliseConstraints, if_neg h, Int.toNat_natCast]; rfl, fun x => ?_,
    fun i hi => unit_row sq hsq nV hV type A _ i fun j hj => by rw [h1 i j hj, if_pos hi]⟩
  unfold FeasibleRows
  refine forall₂_congr fun i hi => ?_
  have hp : 0 < rowFactor sq nV type A i := lt_trans EPS_pos' (hnorm i hi)
  have hsum : ∑ j ∈ range nV, (loop (normaliseRow sq nV type) nC ⟨A, lbA, ubA⟩).A (i*nV + j) * x j =
      (∑ j ∈ range nV, A (i*nV + j) * x j) / rowFactor sq nV type A i := by
    rw [sum_div]
    refine sum_congr rfl fun j hj => ?_
    rw [h1 i j (mem_range.1 hj), if_pos hi, expectedRow, if_pos (hnorm i hi)]
    ring
  simp only [h2, h3, hsum, Option.mem_def, Option.map_eq_some_iff, forall_exists_index, and_imp,
    forall_apply_eq_imp_iff₂]
  simp only [if_pos hi, expectedLo, expectedUp, if_pos (hnorm i hi)]
  simp only [div_le_div_iff_of_pos_right hp]

/-- C46 is violated: a zero row with the contradictory limits `1 ≤ 0·x ≤ 2` (no feasible point) is
replaced by a row without limits, so that `x = 0` becomes feasible. -/
theorem C46_violated_zero_row (sq : K → K) : ¬ C46_statement K sq := by
  intro H
  obtain ⟨s, h1, h2, -⟩ := H 1 1 (fun _ => 0) (some fun _ => 1) (some fun _ => 2) 1 (by decide) (by decide)
    (Or.inl rfl)
  have h : ¬ (((1:Nat) : Int) ≤ 0 ∨ ((1:Nat) : Int) ≤ 0) := by decide
  simp only [normaliseConstraints, if_neg h, Prod.mk.injEq, Option.some.injEq, true_and] at h1
  obtain ⟨c1, c2, c3⟩ := normalise_closed sq 1 1 (fun _ => (0:K)) (some fun _ => 1) (some fun _ => 2) 1
  have hn : ¬ (rowFactor sq 1 1 (fun _ => (0:K)) 0 > EPS) := by
    have : rowFactor sq 1 1 (fun _ => (0:K)) 0 = 0 := by
      simp [rowFactor, getNorm, sumTo, getAbs]
    rw [this]; exact not_lt.2 EPS_pos'.le
  have hfeas : FeasibleRows 1 1 s (fun _ => 0) := by
    intro i hi
    obtain rfl : i = 0 := by omega
    rw [← h1]
    simp only [Int.toNat_one, Nat.cast_one] at *
    rw [c2, c3]
    have hI := INFTY_pos (K := K)
    simp [expectedLo, expectedUp, hn, hI.le]
  have := ((h2 fun _ => 0).1 hfeas) 0 (by decide)
  have h3 := this.1 _ rfl
  simp at h3
  exact absurd h3 (not_le.2 one_pos)

/-- C46 is also violated for infinite limits under the convention that `±INFTY` means "no limit": they
are divided by the row norm and become finite. -/
theorem C46_violated_infinite_limits (sq : K → K) :
    ∃ (s : NormState K) (x : Nat → K),
      normaliseConstraints sq 1 1 (some fun _ => 2) (some fun _ => -INFTY) (some fun _ => INFTY) 1 =
        (SUCCESSFUL_RETURN, some s) ∧
      FeasibleRowsInf 1 1 ⟨fun _ => 2, some fun _ => -INFTY, some fun _ => INFTY⟩ x ∧
      ¬ FeasibleRowsInf 1 1 s x := by
  obtain ⟨c1, c2, c3⟩ := normalise_closed sq 1 1 (fun _ => (2:K)) (some fun _ => -INFTY)
    (some fun _ => INFTY) 1
  have hI := INFTY_pos (K := K)
  have hE : (EPS : K) < 2 := by
    unfold EPS; rw [div_lt_iff₀ (by positivity)]; norm_num
  have hf : rowFactor sq 1 1 (fun _ => (2:K)) 0 = 2 := by
    simp [rowFactor, getNorm, sumTo, getAbs]
  refine ⟨loop (normaliseRow sq 1 1) 1 ⟨fun _ => 2, some fun _ => -INFTY, some fun _ => INFTY⟩,
    fun _ => INFTY, ?_, ?_, ?_⟩
  · simp [normaliseConstraints]
  · intro i hi
    obtain rfl : i = 0 := by omega
    simp
  · intro hfe
    have h0 := (hfe 0 (by decide)).2 (fun i => if i < 1 then expectedUp sq 1 1 (fun _ => (2:K)) (fun _ => INFTY) i
      else INFTY) (by rw [c3]; rfl)
    have e1 := c1 0 0 (by decide)
    have hr : expectedRow sq 1 1 (fun _ => (2:K)) 0 0 = 1 := by
      unfold expectedRow
      rw [hf, if_pos hE]
      norm_num
    have hu : expectedUp sq 1 1 (fun _ => (2:K)) (fun _ => INFTY) 0 = INFTY / 2 := by
      unfold expectedUp
      rw [hf, if_pos hE]
    simp only [sum_range_one, hu] at h0
    simp only [Nat.zero_lt_one, if_true, hr] at e1 h0
    rw [e1, one_mul] at h0
    rcases h0 with h0 | h0 <;> linarith

/-- Non-vacuity of `C46_partial`: two rows over the rationals, norm 1. -/
example : ∃ s, normaliseConstraints (K := ℚ) id 2 2 (some fun k => if k = 0 then 3 else -1)
      (some fun _ => -1) none 1 = (SUCCESSFUL_RETURN, some s) ∧
    s.A 0 = 3/4 ∧ s.A 1 = -1/4 ∧ s.A 2 = -1/2 ∧ s.lbA.map (fun l => (l 0, l 1)) = some (-1/4, -1/2) := by
  refine ⟨_, rfl, ?_, ?_, ?_, ?_⟩ <;> decide +kernel

/-- The hypothesis on the square root is met by the real square root. -/
example : IsSqrt (fun x : ℝ => Real.sqrt x) := fun x hx => ⟨Real.sqrt_nonneg x, Real.mul_self_sqrt hx⟩

end QpOASES.Props
