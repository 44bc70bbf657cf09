import Verif.Proofs.QPBFar

/-!
Far limits: they lie within the limits given, and are a limit given or far away.
-/
namespace QpOASES
open Finset Props Spec SubjectToStatus SubjectToType ReturnValue HessianType QProblemStatus

set_option linter.unusedSectionVars false

variable {K : Type} [Field K] [LinearOrder K] [IsStrictOrderedRing K]

namespace QPB

theorem farLower_ge {v : K} {lbNew : Option (Nat → K)} {l : Nat → K} (h : lbNew = some l) (i : Nat) : l i ≤ farLower v lbNew i := by
  rw [h]; exact le_max_right _ _

theorem farUpper_le {v : K} {ubNew : Option (Nat → K)} {u : Nat → K} (h : ubNew = some u) (i : Nat) : farUpper v ubNew i ≤ u i := by
  rw [h]; exact min_le_right _ _

theorem updateFarB_within {s : QPB K} {cur : K} {n : Nat} {lbNew ubNew : Option (Nat → K)} : ∀ (m i : Nat) (lf uf lf' uf' : Nat → K),
    QPB.updateFarBounds s cur n lbNew ubNew m i lf uf = .ok (lf', uf') →
    (∀ l, lbNew = some l → ∀ j < i, l j ≤ lf j) → (∀ u, ubNew = some u → ∀ j < i, uf j ≤ u j) →
    (∀ l, lbNew = some l → ∀ j < i + m, l j ≤ lf' j) ∧ (∀ u, ubNew = some u → ∀ j < i + m, uf' j ≤ u j) := by
  intro m
  induction m with
  | zero =>
    intro i lf uf lf' uf' e h1 h2
    unfold QPB.updateFarBounds at e
    simp only [Res.ok.injEq, Prod.mk.injEq] at e
    rw [← e.1, ← e.2]
    exact ⟨h1, h2⟩
  | succ m ih =>
    intro i lf uf lf' uf' e h1 h2
    have e0 := e
    rw [QPB.updateFarBounds, Res.bind_eq_ok] at e0
    obtain ⟨v, ev, -⟩ := e0
    rw [QPB.updateFarBounds_succ ev] at e
    have := ih (i+1) _ _ _ _ e (fun l hl j hj => ?_) (fun u hu j hj => ?_)
    · rw [show i + (m+1) = i + 1 + m by omega]; exact this
    · by_cases hij : j = i
      · subst hij; rw [updA_same]; exact farLower_ge hl j
      · rw [updA_ne _ _ hij]; exact h1 l hl j (by omega)
    · by_cases hij : j = i
      · subst hij; rw [updA_same]; exact farUpper_le hu j
      · rw [updA_ne _ _ hij]; exact h2 u hu j (by omega)

theorem countP_clear {n : Nat} {P : Nat → Bool} {v x : Nat → K} {tol : K} (ht : 0 < tol)
    (h : (List.range n).countP (fun i => P i && decide (getAbs (v i - x i) < tol)) = 0) : ∀ i < n, P i = true → x i ≠ v i := by
  intro i hi hp he
  rw [List.countP_eq_zero] at h
  refine h i (List.mem_range.2 hi) ?_
  rw [Bool.and_eq_true, hp]
  refine ⟨rfl, decide_eq_true ?_⟩
  rw [he, sub_self, getAbs, abs_zero]
  exact ht

theorem farVal_ge {s : QPB K} {cur v : K} {n i : Nat} (hn : 0 < n) (hr : s.options.enableRamping = true → 0 ≤ s.ramp0 ∧ 0 ≤ s.ramp1) (hcur : 0 ≤ cur)
    (e : s.farVal cur n i = .ok v) : cur ≤ v := by
  by_cases h2 : s.options.enableRamping = true
  · by_cases h3 : 2 ≤ n
    · obtain ⟨f, hf, ef⟩ := QPB.farVal_spec s cur i (fun _ => h3)
      rw [ef, Res.ok.injEq] at e
      rw [← e]
      unfold QPB.FarFactor at hf
      rw [if_pos h2] at hf
      obtain ⟨t, t0, t1, rfl⟩ := hf
      have := mul_nonneg (sub_nonneg.2 t1) (hr h2).1
      have := mul_nonneg t0 (hr h2).2
      exact le_mul_of_one_le_right hcur (by linarith)
    · obtain rfl : n = 1 := by omega
      unfold QPB.farVal QPB.rampVal cdiv at e
      rw [if_pos h2] at e
      simp at e
  · unfold QPB.farVal at e
    rw [if_neg h2, Res.ok.injEq] at e
    exact e.le

theorem farLower_wide {B v : K} (h : B ≤ v) (b : Option (Nat → K)) (i : Nat) : farLower v b i ≤ -B ∨ ∃ l, b = some l ∧ farLower v b i = l i := by
  cases b with
  | none => exact Or.inl (neg_le_neg h)
  | some l =>
    rcases le_total (-v) (l i) with hl | hl
    · exact Or.inr ⟨l, rfl, max_eq_right hl⟩
    · exact Or.inl ((max_eq_left hl).trans_le (neg_le_neg h))

theorem farUpper_wide {B v : K} (h : B ≤ v) (b : Option (Nat → K)) (i : Nat) : B ≤ farUpper v b i ∨ ∃ l, b = some l ∧ farUpper v b i = l i := by
  cases b with
  | none => exact Or.inl h
  | some l =>
    rcases le_total v (l i) with hl | hl
    · exact Or.inl (h.trans_eq (min_eq_left hl).symm)
    · exact Or.inr ⟨l, rfl, min_eq_right hl⟩

theorem updateFarB_wide {s : QPB K} {cur : K} {n : Nat} {lbNew ubNew : Option (Nat → K)} (hn : 0 < n)
    (hr : s.options.enableRamping = true → 0 ≤ s.ramp0 ∧ 0 ≤ s.ramp1) (hcur : 0 ≤ cur) : ∀ (m i : Nat) (lf uf lf' uf' : Nat → K),
    QPB.updateFarBounds s cur n lbNew ubNew m i lf uf = .ok (lf', uf') →
    (∀ j < i, (lf j ≤ -cur ∨ ∃ l, lbNew = some l ∧ lf j = l j) ∧ (cur ≤ uf j ∨ ∃ l, ubNew = some l ∧ uf j = l j)) →
    ∀ j < i + m, (lf' j ≤ -cur ∨ ∃ l, lbNew = some l ∧ lf' j = l j) ∧ (cur ≤ uf' j ∨ ∃ l, ubNew = some l ∧ uf' j = l j) := by
  intro m
  induction m with
  | zero =>
    intro i lf uf lf' uf' e h1
    unfold QPB.updateFarBounds at e
    simp only [Res.ok.injEq, Prod.mk.injEq] at e
    rw [← e.1, ← e.2]
    exact h1
  | succ m ih =>
    intro i lf uf lf' uf' e h1
    have e0 := e
    rw [QPB.updateFarBounds, Res.bind_eq_ok] at e0
    obtain ⟨v, ev, -⟩ := e0
    rw [QPB.updateFarBounds_succ ev] at e
    have hv := farVal_ge hn hr hcur ev
    have := ih (i+1) _ _ _ _ e (fun j hj => ?_)
    · rw [show i + (m+1) = i + 1 + m by omega]; exact this
    · by_cases hij : j = i
      · subst hij; rw [updA_same, updA_same]; exact ⟨farLower_wide hv _ _, farUpper_wide hv _ _⟩
      · rw [updA_ne _ _ hij, updA_ne _ _ hij]; exact h1 j (by omega)

/-- A point that counts as being on far limits is on one that is not among those given. -/
theorem countP_near {n : Nat} {P : Nat → Bool} {v x : Nat → K} {tol : K}
    (h : (List.range n).countP (fun i => P i && decide (getAbs (v i - x i) < tol)) ≠ 0) : ∃ i < n, P i = true ∧ |v i - x i| < tol := by
  have h := List.countP_pos_iff.1 (Nat.pos_of_ne_zero h)
  obtain ⟨i, hi, hp⟩ := h
  rw [Bool.and_eq_true] at hp
  exact ⟨i, List.mem_range.1 hi, hp.1, of_decide_eq_true hp.2⟩

end QPB
end QpOASES
