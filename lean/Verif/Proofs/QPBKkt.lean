import Verif.Proofs.QPBInit
import Verif.Spec.Near

/-!
From the invariant of the bound-constrained solver to the optimality conditions; the homotopy length.
-/
namespace QpOASES
open Finset Props Spec SubjectToStatus SubjectToType ReturnValue HessianType QProblemStatus

set_option linter.unusedSectionVars false

variable {K : Type} [Field K] [LinearOrder K] [IsStrictOrderedRing K]

namespace QPB

theorem Opt.stationary {s : QPB K} (h : s.Opt) (hw : s.bounds.OK) (hn : s.bounds.n = s.nV) :
    (QP.box s.nV s.Heff s.g s.lb s.ub).Stationary s.x s.y := by
  refine ⟨fun i hi => ?_, fun i hi hp => ?_, fun i hi hp => ?_, fun k hk => absurd hk (Nat.not_lt_zero _), fun k hk => absurd hk (Nat.not_lt_zero _)⟩
  · have := h.stat i hi
    simp only [QP.row, QP.box, range_zero, sum_empty, add_zero]
    exact this
  · have hi : i < s.nV := hi
    show s.x i = s.lb i
    rcases hw.status_cases (show i < s.bounds.n by omega) with hs | hs | hs
    · have hp' := hp; rw [(h.inactive i hi hs).1] at hp'; exact absurd hp' (lt_irrefl _)
    · exact (h.lower i hi hs).1
    · by_cases hty : s.bounds.type i = ST_EQUALITY
      · rw [(h.upper i hi hs).1, (h.eq i hi hty).2]
      · exact absurd hp (not_lt.2 ((h.upper i hi hs).2 hty))
  · have hi : i < s.nV := hi
    show s.x i = s.ub i
    rcases hw.status_cases (show i < s.bounds.n by omega) with hs | hs | hs
    · have hp' := hp; rw [(h.inactive i hi hs).1] at hp'; exact absurd hp' (lt_irrefl _)
    · by_cases hty : s.bounds.type i = ST_EQUALITY
      · rw [(h.lower i hi hs).1, (h.eq i hi hty).2]
      · exact absurd hp (not_lt.2 ((h.lower i hi hs).2 hty))
    · exact (h.upper i hi hs).1

theorem Opt.within {s : QPB K} (h : s.Opt) (hw : s.bounds.OK) (hn : s.bounds.n = s.nV) :
    (s.bounds.noLower = false → ∀ i < s.nV, s.lb i ≤ s.x i) ∧ (s.bounds.noUpper = false → ∀ i < s.nV, s.x i ≤ s.ub i) := by
  refine ⟨fun hl i hi => ?_, fun hl i hi => ?_⟩
  · rcases hw.status_cases (show i < s.bounds.n by omega) with hs | hs | hs
    · exact (h.inactive i hi hs).2.1 hl
    · exact (h.lower i hi hs).1.ge
    · exact (h.box i hi).trans (h.upper i hi hs).1.ge
  · rcases hw.status_cases (show i < s.bounds.n by omega) with hs | hs | hs
    · exact (h.inactive i hi hs).2.2 hl
    · exact (h.lower i hi hs).1.le.trans (h.box i hi)
    · exact (h.upper i hi hs).1.le

/-- Conversely, a pair that satisfies the optimality conditions, with a working set that contains only attained limits and
all limits with nonzero multipliers. -/
theorem Opt.of_kkt {s : QPB K} (hw : s.bounds.OK) (hn : s.bounds.n = s.nV) (h : (QP.box s.nV s.Heff s.g s.lb s.ub).KKT s.x s.y)
    (hl : ∀ i < s.nV, s.bounds.status i = ST_LOWER → s.x i = s.lb i ∧ (s.bounds.type i ≠ ST_EQUALITY → 0 ≤ s.y i))
    (hu : ∀ i < s.nV, s.bounds.status i = ST_UPPER → s.x i = s.ub i ∧ (s.bounds.type i ≠ ST_EQUALITY → s.y i ≤ 0))
    (hi : ∀ i < s.nV, s.bounds.status i = ST_INACTIVE → s.y i = 0)
    (he : ∀ i < s.nV, s.bounds.type i = ST_EQUALITY → s.bounds.status i ≠ ST_INACTIVE ∧ s.lb i = s.ub i) : s.Opt := by
  refine ⟨fun i hi' => ?_, hl, hu, fun i hi' hs => ⟨hi i hi' hs, fun _ => h.lower i hi', fun _ => h.upper i hi'⟩,
    fun i hi' => (h.lower i hi').trans (h.upper i hi'), he⟩
  have := h.stat i hi'
  simp only [QP.row, QP.box, range_zero, sum_empty, add_zero] at this
  exact this

/-! ### homotopy length -/

theorem relLen_spec (new old : Nat → K) (n : Nat) (len : K) :
    len ≤ relLen new old n len ∧ (∀ i < n, |new i - old i| ≤ relLen new old n len * max 1 |new i|) ∧
    (relLen new old n len = len ∨ ∃ i < n, relLen new old n len * max 1 |new i| = |new i - old i|) := by
  have hs : ∀ i, (if getAbs (new i) < 1 then (1 : K) else getAbs (new i)) = max 1 |new i| := by
    intro i
    show (if |new i| < 1 then (1 : K) else |new i|) = _
    split
    · rw [max_eq_left (le_of_lt ‹_›)]
    · rw [max_eq_right (not_lt.1 ‹_›)]
  have hpos : ∀ i, 0 < max 1 |new i| := fun i => lt_of_lt_of_le one_pos (le_max_left _ _)
  unfold relLen
  refine loop_inv (fun k v => len ≤ v ∧ (∀ i < k, |new i - old i| ≤ v * max 1 |new i|) ∧
    (v = len ∨ ∃ i < k, v * max 1 |new i| = |new i - old i|)) n len ⟨le_refl _, fun i hi => absurd hi (Nat.not_lt_zero _), Or.inl rfl⟩ ?_
  intro k v hk ⟨h1, h2, h3⟩
  dsimp only
  rw [hs]
  change len ≤ (if |new k - old k| / max 1 |new k| > v then |new k - old k| / max 1 |new k| else v) ∧ (∀ i < k + 1,
      |new i - old i| ≤ (if |new k - old k| / max 1 |new k| > v then |new k - old k| / max 1 |new k| else v) * max 1 |new i|) ∧
    ((if |new k - old k| / max 1 |new k| > v then |new k - old k| / max 1 |new k| else v) = len ∨ ∃ i < k + 1,
      (if |new k - old k| / max 1 |new k| > v then |new k - old k| / max 1 |new k| else v) * max 1 |new i| = |new i - old i|)
  split
  · rename_i hgt
    refine ⟨h1.trans hgt.le, fun i hi => ?_, Or.inr ⟨k, Nat.lt_succ_self k, div_mul_cancel₀ _ (hpos k).ne'⟩⟩
    rcases Nat.lt_succ_iff_lt_or_eq.1 hi with hi | hi
    · exact (h2 i hi).trans (mul_le_mul_of_nonneg_right hgt.le (hpos i).le)
    · subst hi; rw [div_mul_cancel₀ _ (hpos i).ne']
  · rename_i hgt
    refine ⟨h1, fun i hi => ?_, ?_⟩
    · rcases Nat.lt_succ_iff_lt_or_eq.1 hi with hi | hi
      · exact h2 i hi
      · subst hi
        exact (div_le_iff₀ (hpos i)).1 (not_lt.1 hgt)
    · rcases h3 with h3 | ⟨i, hi, h3⟩
      · exact Or.inl h3
      · exact Or.inr ⟨i, by omega, h3⟩

theorem Near.of_le {n : Nat} {tol len : K} {v w : Nat → K} (h : ∀ i < n, |v i - w i| ≤ len * max 1 |v i|) (hl : len ≤ tol) :
    Near n tol v w := fun i hi =>
  (h i hi).trans (mul_le_mul_of_nonneg_right hl (zero_le_one.trans (le_max_left _ _)))

theorem homotopyLength_near {s : QPB K} {gNew l u : Nat → K} {tol : K} (h : s.homotopyLength gNew (some l) (some u) ≤ tol) :
    Near s.nV tol gNew s.g ∧ Near s.nV tol l s.lb ∧ Near s.nV tol u s.ub := by
  unfold homotopyLength at h
  dsimp only at h
  obtain ⟨a1, a2, _⟩ := relLen_spec gNew s.g s.nV 0
  obtain ⟨b1, b2, _⟩ := relLen_spec l s.lb s.nV (relLen gNew s.g s.nV 0)
  obtain ⟨c1, c2, _⟩ := relLen_spec u s.ub s.nV (relLen l s.lb s.nV (relLen gNew s.g s.nV 0))
  exact ⟨Near.of_le a2 (b1.trans (c1.trans h)), Near.of_le b2 (c1.trans h), Near.of_le c2 h⟩

/-- A solved state solves the requested QP up to the termination tolerance. -/
theorem Solved.solvesNear {s : QPB K} {gNew l u : Nat → K} (h : Solved s gNew (some l) (some u))
    (hnl : (∃ i < s.nV, -INFTY < l i) → s.bounds.noLower = false) (hnu : (∃ i < s.nV, u i < INFTY) → s.bounds.noUpper = false) :
    SolvesNear s.nV s.Heff gNew l u s.options.terminationTolerance s.x s.y ∧
    (s.tau = 1 → BoxOptimal s.nV s.Heff gNew l u l u s.x s.y) := by
  obtain ⟨n1, n2, n3⟩ := homotopyLength_near h.length
  have hO := h.inv.opt
  have hb : BoxOptimal s.nV s.Heff s.g s.lb s.ub l u s.x s.y :=
    ⟨hO.stationary h.inv.ws h.inv.n, fun hh => (hO.within h.inv.ws h.inv.n).1 (hnl hh), fun hh => (hO.within h.inv.ws h.inv.n).2 (hnu hh)⟩
  refine ⟨⟨s.g, s.lb, s.ub, n1, n2, n3, hb⟩, fun ht => ?_⟩
  obtain ⟨e1, e2, e3⟩ := h.full ht
  have e2 : s.lb = l := e2
  have e3 : s.ub = u := e3
  rw [e1, e2, e3] at hb
  exact hb

theorem noLower_false {s : QPB K} {l : Nat → K} {ubNew : Option (Nat → K)} (h : ∃ i < s.nV, -INFTY < l i) :
    (s.setupSubjectToType (some l) ubNew).bounds.noLower = false := by
  obtain ⟨i, hi, h⟩ := h
  show ((List.range s.nV).all fun i => !decide (l i > -INFTY)) = false
  rw [List.all_eq_false]
  exact ⟨i, List.mem_range.2 hi, by simp [h]⟩

theorem noUpper_false {s : QPB K} {u : Nat → K} {lbNew : Option (Nat → K)} (h : ∃ i < s.nV, u i < INFTY) :
    (s.setupSubjectToType lbNew (some u)).bounds.noUpper = false := by
  obtain ⟨i, hi, h⟩ := h
  show ((List.range s.nV).all fun i => !decide (u i < INFTY)) = false
  rw [List.all_eq_false]
  exact ⟨i, List.mem_range.2 hi, by simp [h]⟩

theorem diagScan_id {H : Nat → Nat → K} : ∀ (m i : Nat) (a b : Bool) {isZ : Bool},
    diagScan H m i a b = some (some (true, isZ)) → a = true ∧ ∀ j, i ≤ j → j < i + m → |H j j - 1| ≤ EPS := by
  intro m
  induction m with
  | zero =>
    intro i a b isZ h
    simp only [diagScan, Option.some.injEq, Prod.mk.injEq] at h
    exact ⟨h.1, fun j h1 h2 => by omega⟩
  | succ m ih =>
    intro i a b isZ h
    simp only [diagScan] at h
    split at h
    · cases h
    · split at h
      · cases h
      · obtain ⟨h1, h2⟩ := ih _ _ _ h
        split at h1
        · cases h1
        · rename_i hE
          refine ⟨h1, fun j k1 k2 => ?_⟩
          by_cases e : j = i
          · subst e; exact not_lt.1 hE
          · exact h2 j (by omega) (by omega)

theorem isDiag_spec {n : Nat} {H : Nat → Nat → K} (h : isDiag n H = true) {i j : Nat} (hi : i < n) (hj : j < n) (hij : i ≠ j) :
    |H i j| ≤ EPS := by
  unfold isDiag at h
  rw [List.all_eq_true] at h
  have key : ∀ i < n, ∀ j < i, |H i j| ≤ EPS ∧ |H j i| ≤ EPS := by
    intro i hi j hj
    have h1 := h i (List.mem_range.2 hi)
    rw [List.all_eq_true] at h1
    have h2 := h1 j (List.mem_range.2 hj)
    rw [Bool.not_eq_true', Bool.or_eq_false_iff, decide_eq_false_iff_not, decide_eq_false_iff_not] at h2
    exact ⟨not_lt.1 h2.1, not_lt.1 h2.2⟩
  rcases Nat.lt_or_gt_of_ne hij with hlt | hlt
  · exact (key j hj i hlt).2
  · exact (key i hi j hlt).1

/-- The Hessian the solver works with is the given one, up to `EPS` if it had to find out its type. -/
theorem determineHessianType_near {s : QPB K} {H : Nat → Nat → K} (hH : s.H = some H) (hid : s.hessianType ≠ HST_IDENTITY)
    (hz : (s.determineHessianType).2.hessianType ≠ HST_ZERO) :
    (s.hessianType ≠ HST_UNKNOWN → (s.determineHessianType).2.Heff = H) ∧
    ∀ i < s.nV, ∀ j < s.nV, |(s.determineHessianType).2.Heff i j - H i j| ≤ EPS := by
  have hens : ∀ s : QPB K, (s.ensureRegularisation).hessianType = s.hessianType := by
    intro s; unfold ensureRegularisation; split <;> rfl
  have same : ∀ q : QPB K, ¬ q.scalarH → q.H = some H → q.Heff = H := fun q h1 h2 => by
    funext i j; exact Heff_of_H h1 h2 i j
  have fin : ∀ q : QPB K, ¬ q.scalarH → q.H = some H → (s.hessianType ≠ HST_UNKNOWN → q.Heff = H) ∧
      ∀ i < s.nV, ∀ j < s.nV, |q.Heff i j - H i j| ≤ EPS := fun q h1 h2 =>
    ⟨fun _ => same q h1 h2, fun i _ j _ => by rw [same q h1 h2, sub_self, abs_zero]; exact EPS_pos'.le⟩
  unfold determineHessianType at hz ⊢
  split
  · rename_i h; rw [h] at hz; exact absurd (by dsimp only; rw [hens, h]) hz
  · exact absurd ‹_› hid
  · rename_i H' h1 h2
    rw [hH] at h2; cases h2
    rw [h1, hH] at hz
    dsimp only at hz ⊢
    have hpd : ¬ ({ s with hessianType := HST_POSDEF } : QPB K).scalarH := by
      rintro (h | h) <;> cases h
    have hin : ¬ ({ s with hessianType := HST_INDEF } : QPB K).scalarH := by
      rintro (h | h) <;> cases h
    by_cases hd : isDiag s.nV H = true
    · rw [if_pos hd] at hz ⊢
      cases hsc : diagScan H s.nV 0 true true with
      | none =>
        dsimp only
        split
        · exact fin _ hin hH
        · exact fin _ hin hH
      | some r =>
        cases r with
        | none => exact fin _ hpd hH
        | some r =>
          obtain ⟨isId, isZ⟩ := r
          rw [hsc] at hz
          dsimp only at hz ⊢
          cases isZ with
          | true =>
            rw [if_pos rfl] at hz
            exact absurd (by rw [hens]) hz
          | false =>
            rw [if_neg (by decide)]
            cases isId with
            | false => rw [if_neg (by decide)]; exact fin _ hpd hH
            | true =>
              rw [if_pos rfl]
              refine ⟨fun h => absurd h1 h, fun i hi j hj => ?_⟩
              show |(if i = j then (1:K) else 0) - H i j| ≤ EPS
              by_cases e : i = j
              · subst e
                rw [if_pos rfl, abs_sub_comm]
                exact (diagScan_id _ _ _ _ hsc).2 i (Nat.zero_le _) (by omega)
              · rw [if_neg e, zero_sub, abs_neg]
                exact isDiag_spec hd hi hj e
    · rw [if_neg hd]
      exact fin _ hpd hH
  · refine fin s ?_ hH
    rintro (h | h)
    · simp_all
    · exact hid h
  · simp_all

end QPB
end QpOASES
