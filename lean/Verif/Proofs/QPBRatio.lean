import Verif.Proofs.QPBStep

/-!
Ratio test and step length of the bound-constrained solver.
-/
namespace QpOASES
open Finset Props SubjectToStatus SubjectToType ReturnValue HessianType QProblemStatus

variable {K : Type} [Field K] [LinearOrder K] [IsStrictOrderedRing K]

namespace QPB

/-- The sign with which variable `i` enters the ratio test. -/
def sg (w : WS) (i : Nat) (v : K) : K := if w.status i = ST_UPPER then -v else v

/-- The denominators the test takes notice of, and those that cannot block. -/
def DenOK (e d : K) : Prop := d ≤ 0 ∨ e ≤ d

theorem sg_sub (w : WS) (i : Nat) (a t b : K) : sg w i (a - t * b) = sg w i a - t * sg w i b := by
  unfold sg; split <;> ring

theorem sg_zero (w : WS) (i : Nat) : sg w i (0 : K) = 0 := by unfold sg; split <;> simp

theorem sg_ne {w : WS} {i : Nat} (h : w.status i ≠ ST_UPPER) (v : K) : sg w i v = v := if_neg h

/-- shortening the step keeps the sign -/
theorem nonneg_shorten {n t t' d : K} (hn : 0 ≤ n) (h : 0 ≤ n - t * d) (h0 : 0 ≤ t') (ht : t' ≤ t) : 0 ≤ n - t' * d := by
  rcases le_total d 0 with hd | hd
  · have := mul_nonpos_of_nonneg_of_nonpos h0 hd
    linarith
  · have := mul_le_mul_of_nonneg_right ht hd
    linarith

theorem ratioTest_spec {w : WS} {num den : Nat → K} {epsNum epsDen : K} (he : epsNum ≤ 0) (hd : 0 ≤ epsDen) :
    ∀ (l : List Nat) (i : Nat) (t : K) (bc : Option Nat), 0 ≤ t →
      (∀ ii ∈ l, ii < w.n ∧ (w.status ii = ST_INACTIVE ∨ w.status ii = ST_LOWER ∨ w.status ii = ST_UPPER)) →
      (∀ k < l.length, w.type (l.getD k 0) ≠ ST_EQUALITY → 0 ≤ sg w (l.getD k 0) (num (i+k))) →
      ∃ t' bc', ratioTest w num den epsNum epsDen l i t bc = .ok (t', bc') ∧ 0 ≤ t' ∧ t' ≤ t ∧
        (∀ k < l.length, w.type (l.getD k 0) ≠ ST_EQUALITY → DenOK epsDen (sg w (l.getD k 0) (den (i+k))) →
          0 ≤ sg w (l.getD k 0) (num (i+k)) - t' * sg w (l.getD k 0) (den (i+k))) ∧
        ((bc' = bc ∧ t' = t) ∨ ∃ k < l.length, bc' = some (l.getD k 0) ∧ t' < t ∧ w.type (l.getD k 0) ≠ ST_EQUALITY ∧
          num (i+k) = t' * den (i+k) ∧ epsDen ≤ sg w (l.getD k 0) (den (i+k))) := by
  intro l
  induction l with
  | nil =>
    intro i t bc ht _ _
    exact ⟨t, bc, rfl, ht, le_refl _, fun k hk => absurd hk (Nat.not_lt_zero _), Or.inl ⟨rfl, rfl⟩⟩
  | cons ii l ih =>
    intro i t bc ht hst hnum
    have hcons : ∀ k, (ii :: l).getD (k+1) 0 = l.getD k 0 := fun k => rfl
    have hhead : (ii :: l).getD 0 0 = ii := rfl
    obtain ⟨hlt, hsi⟩ := hst ii (by simp)
    rw [ratioTest]
    -- what the test says about `ii`
    have hblock : (if w.type ii ≠ ST_EQUALITY then
        if w.getStatus ii = ST_LOWER ∨ w.getStatus ii = ST_INACTIVE then isBlocking (num i) (den i) epsNum epsDen t
        else if w.getStatus ii = ST_UPPER then isBlocking (-num i) (-den i) epsNum epsDen t
        else false
      else false) = (decide (w.type ii ≠ ST_EQUALITY) && isBlocking (sg w ii (num i)) (sg w ii (den i)) epsNum epsDen t) := by
      rw [WS.getStatus_of_lt hlt]
      by_cases h1 : w.type ii ≠ ST_EQUALITY
      · rw [if_pos h1, decide_eq_true h1, Bool.true_and]
        rcases hsi with h2 | h2 | h2
        · rw [if_pos (Or.inr h2), sg_ne (by rw [h2]; decide), sg_ne (by rw [h2]; decide)]
        · rw [if_pos (Or.inl h2), sg_ne (by rw [h2]; decide), sg_ne (by rw [h2]; decide)]
        · rw [h2, if_neg (by decide), if_pos rfl]
          unfold sg
          rw [if_pos h2, if_pos h2]
      · rw [if_neg h1, decide_eq_false h1, Bool.false_and]
    rw [hblock]
    have hrest : ∀ k < l.length, w.type (l.getD k 0) ≠ ST_EQUALITY → 0 ≤ sg w (l.getD k 0) (num (i+1+k)) := by
      intro k hk hty
      have := hnum (k+1) (by simpa using hk) (by rw [hcons]; exact hty)
      rw [hcons, show i + (k+1) = i+1+k by omega] at this
      exact this
    have hstrest : ∀ jj ∈ l, jj < w.n ∧ (w.status jj = ST_INACTIVE ∨ w.status jj = ST_LOWER ∨ w.status jj = ST_UPPER) :=
      fun jj hjj => hst jj (by simp [hjj])
    by_cases hb : (decide (w.type ii ≠ ST_EQUALITY) && isBlocking (sg w ii (num i)) (sg w ii (den i)) epsNum epsDen t) = true
    · rw [if_pos hb]
      have hb' := hb
      rw [Bool.and_eq_true, decide_eq_true_eq] at hb'
      obtain ⟨hty, hbl⟩ := hb'
      unfold isBlocking at hbl
      rw [Bool.and_eq_true, Bool.and_eq_true, decide_eq_true_eq, decide_eq_true_eq, decide_eq_true_eq] at hbl
      obtain ⟨⟨hb1, hb2⟩, hb3⟩ := hbl
      have hn0 : 0 ≤ sg w ii (num i) := by
        have := hnum 0 (by simp) (by rw [hhead]; exact hty)
        rw [hhead, Nat.add_zero] at this
        exact this
      have hdp : 0 < sg w ii (den i) := by
        rcases (hd.trans hb1).lt_or_eq with h | h
        · exact h
        · rw [← h, mul_zero] at hb3
          exact absurd hb3 (not_lt.2 hn0)
      have hdne : den i ≠ 0 := by
        intro h0
        rw [h0, sg_zero] at hdp
        exact absurd hdp (lt_irrefl _)
      have hq : num i / den i = sg w ii (num i) / sg w ii (den i) := by
        unfold sg
        split
        · rw [neg_div_neg_eq]
        · rfl
      have hq0 : 0 ≤ num i / den i := by rw [hq]; exact div_nonneg hn0 hdp.le
      have hqt : num i / den i < t := by rw [hq, div_lt_iff₀ hdp]; exact hb3
      rw [cdiv_ok hdne]
      simp only [Res.bind_ok]
      obtain ⟨t', bc', h1, h2, h3, h4, h5⟩ := ih (i+1) (num i / den i) (some ii) hq0 hstrest hrest
      refine ⟨t', bc', h1, h2, h3.trans hqt.le, ?_, Or.inr ?_⟩
      · intro k hk hty' hden
        rcases k with _ | k
        · rw [hhead, Nat.add_zero] at *
          have e : sg w ii (num i) - (num i / den i) * sg w ii (den i) = 0 := by
            rw [hq, div_mul_cancel₀ _ hdp.ne', sub_self]
          exact nonneg_shorten hn0 e.ge h2 h3
        · rw [hcons] at *
          rw [show i + (k+1) = i+1+k by omega] at *
          exact h4 k (by simpa using hk) hty' hden
      · rcases h5 with ⟨e1, e2⟩ | ⟨k, hk, e1, e2, e3, e4, e5⟩
        · refine ⟨0, by simp, ?_, ?_, ?_, ?_, ?_⟩
          · rw [hhead]; exact e1
          · rw [e2]; exact hqt
          · rw [hhead]; exact hty
          · rw [e2, Nat.add_zero, div_mul_cancel₀ _ hdne]
          · rw [hhead, Nat.add_zero]; exact hb1
        · refine ⟨k+1, by simpa using hk, ?_, e2.trans hqt, ?_, ?_, ?_⟩
          · rw [hcons]; exact e1
          · rw [hcons]; exact e3
          · rw [show i + (k+1) = i+1+k by omega]; exact e4
          · rw [hcons, show i + (k+1) = i+1+k by omega]; exact e5
    · rw [if_neg hb]
      obtain ⟨t', bc', h1, h2, h3, h4, h5⟩ := ih (i+1) t bc ht hstrest hrest
      refine ⟨t', bc', h1, h2, h3, ?_, ?_⟩
      · intro k hk hty' hden
        rcases k with _ | k
        · rw [hhead, Nat.add_zero] at *
          have hn0 : 0 ≤ sg w ii (num i) := by
            have := hnum 0 (by simp) (by rw [hhead]; exact hty')
            rw [hhead, Nat.add_zero] at this
            exact this
          refine nonneg_shorten hn0 ?_ h2 h3
          rcases hden with hden | hden
          · have := mul_nonpos_of_nonneg_of_nonpos ht hden
            linarith
          · by_contra hc
            apply hb
            rw [Bool.and_eq_true, decide_eq_true_eq]
            refine ⟨hty', ?_⟩
            unfold isBlocking
            rw [Bool.and_eq_true, Bool.and_eq_true, decide_eq_true_eq, decide_eq_true_eq, decide_eq_true_eq]
            exact ⟨⟨hden, he.trans hn0⟩, by linarith [not_le.1 hc]⟩
        · rw [hcons] at *
          rw [show i + (k+1) = i+1+k by omega] at *
          exact h4 k (by simpa using hk) hty' hden
      · rcases h5 with h5 | ⟨k, hk, e1, e2, e3, e4, e5⟩
        · exact Or.inl h5
        · refine Or.inr ⟨k+1, by simpa using hk, ?_, e2, ?_, ?_, ?_⟩
          · rw [hcons]; exact e1
          · rw [hcons]; exact e3
          · rw [show i + (k+1) = i+1+k by omega]; exact e4
          · rw [hcons, show i + (k+1) = i+1+k by omega]; exact e5

/-- The reason for which the step has length `tau`. -/
def Blocks (s : QPB K) (dlb dub : Nat → K) (d : Dir K) (tau : K) : Option (Nat × SubjectToStatus) → Prop
  | none => tau = 1
  | some (i, ST_INACTIVE) => tau < 1 ∧ ∃ k < s.bounds.nFX, i = s.bounds.fx k ∧ s.bounds.type i ≠ ST_EQUALITY ∧
      s.y i + tau * d.yFX k = 0 ∧ s.options.epsDen ≤ sg s.bounds i (-d.yFX k)
  | some (i, ST_LOWER) => tau < 1 ∧ s.bounds.noLower = false ∧ ∃ k < s.bounds.nFR, i = s.bounds.fr k ∧ s.bounds.type i ≠ ST_EQUALITY ∧
      getMax (s.x i - s.lb i) 0 = tau * (dlb i - d.xFR k) ∧ s.options.epsDen ≤ dlb i - d.xFR k
  | some (i, ST_UPPER) => tau < 1 ∧ s.bounds.noUpper = false ∧ ∃ k < s.bounds.nFR, i = s.bounds.fr k ∧ s.bounds.type i ≠ ST_EQUALITY ∧
      getMax (s.ub i - s.x i) 0 = tau * (d.xFR k - dub i) ∧ s.options.epsDen ≤ d.xFR k - dub i
  | _ => False

structure StepOK (s : QPB K) (dlb dub : Nat → K) (d : Dir K) (tau : K) (bc : Option (Nat × SubjectToStatus)) : Prop where
  nonneg : 0 ≤ tau
  le_one : tau ≤ 1
  dual : ∀ k < s.bounds.nFX, s.bounds.type (s.bounds.fx k) ≠ ST_EQUALITY →
    DenOK s.options.epsDen (sg s.bounds (s.bounds.fx k) (-d.yFX k)) →
    0 ≤ sg s.bounds (s.bounds.fx k) (s.y (s.bounds.fx k) + tau * d.yFX k)
  lower : s.bounds.noLower = false → ∀ k < s.bounds.nFR, s.bounds.type (s.bounds.fr k) ≠ ST_EQUALITY →
    DenOK s.options.epsDen (dlb (s.bounds.fr k) - d.xFR k) →
    tau * (dlb (s.bounds.fr k) - d.xFR k) ≤ getMax (s.x (s.bounds.fr k) - s.lb (s.bounds.fr k)) 0
  upper : s.bounds.noUpper = false → ∀ k < s.bounds.nFR, s.bounds.type (s.bounds.fr k) ≠ ST_EQUALITY →
    DenOK s.options.epsDen (d.xFR k - dub (s.bounds.fr k)) →
    tau * (d.xFR k - dub (s.bounds.fr k)) ≤ getMax (s.ub (s.bounds.fr k) - s.x (s.bounds.fr k)) 0
  blocks : Blocks s dlb dub d tau bc

theorem getMax_nonneg (a : K) : 0 ≤ getMax a 0 := by
  unfold getMax; split
  · exact le_of_lt ‹_›
  · exact le_refl _

theorem getMax_of_nonneg {a : K} (h : 0 ≤ a) : getMax a 0 = a := by
  unfold getMax; split
  · rfl
  · exact le_antisymm h (not_lt.1 ‹_›)

theorem stepLength_spec {s : QPB K} (hw : s.bounds.OK) (he : s.options.epsNum ≤ 0) (hd : 0 ≤ s.options.epsDen)
    (hy : ∀ k < s.bounds.nFX, s.bounds.type (s.bounds.fx k) ≠ ST_EQUALITY → 0 ≤ sg s.bounds (s.bounds.fx k) (s.y (s.bounds.fx k)))
    (dlb dub : Nat → K) (d : Dir K) :
    ∃ tau bc, stepLength s dlb dub d = .ok (tau, bc) ∧ StepOK s dlb dub d tau bc := by
  have hFX : ∀ ii ∈ s.bounds.fixed, ii < s.bounds.n ∧
      (s.bounds.status ii = ST_INACTIVE ∨ s.bounds.status ii = ST_LOWER ∨ s.bounds.status ii = ST_UPPER) :=
    fun ii h => ⟨hw.lt_fixed h, Or.inr (hw.fixed ii h)⟩
  have hFR : ∀ ii ∈ s.bounds.free, ii < s.bounds.n ∧
      (s.bounds.status ii = ST_INACTIVE ∨ s.bounds.status ii = ST_LOWER ∨ s.bounds.status ii = ST_UPPER) :=
    fun ii h => ⟨hw.lt_free h, Or.inl (hw.free ii h)⟩
  have hsgFR : ∀ k < s.bounds.nFR, ∀ v : K, sg s.bounds (s.bounds.fr k) v = v := by
    intro k hk v
    exact sg_ne (by rw [hw.free _ (WS.fr_mem hk)]; decide) v
  obtain ⟨t1, b1, r1, p1, p2, p3, p4⟩ := ratioTest_spec (w := s.bounds) (num := fun i => s.y (s.bounds.fx i)) (den := fun i => -d.yFX i)
    he hd s.bounds.fixed 0 1 none zero_le_one hFX (fun k hk hty => by rw [Nat.zero_add]; exact hy k hk hty)
  -- the two primal tests
  have primal : ∀ (num den : Nat → K) (t : K), 0 ≤ t → (∀ k, 0 ≤ num k) → ∃ t' b', ratioTest s.bounds num den s.options.epsNum
      s.options.epsDen s.bounds.free 0 t none = .ok (t', b') ∧ 0 ≤ t' ∧ t' ≤ t ∧
      (∀ k < s.bounds.nFR, s.bounds.type (s.bounds.fr k) ≠ ST_EQUALITY → DenOK s.options.epsDen (den k) → t' * den k ≤ num k) ∧
      ((b' = none ∧ t' = t) ∨ ∃ k < s.bounds.nFR, b' = some (s.bounds.fr k) ∧ t' < t ∧ s.bounds.type (s.bounds.fr k) ≠ ST_EQUALITY ∧
        num k = t' * den k ∧ s.options.epsDen ≤ den k) := by
    intro num den t ht hnum
    obtain ⟨t', b', q1, q2, q3, q4, q5⟩ := ratioTest_spec (w := s.bounds) (num := num) (den := den) he hd s.bounds.free 0 t none ht hFR
      (fun k hk _ => by
        have := hsgFR k hk (num k)
        rw [Nat.zero_add]
        show 0 ≤ sg s.bounds (s.bounds.fr k) (num k)
        rw [this]; exact hnum k)
    refine ⟨t', b', q1, q2, q3, fun k hk hty hden => ?_, ?_⟩
    · have h := q4 k hk hty (by
        rw [Nat.zero_add]
        show DenOK _ (sg s.bounds (s.bounds.fr k) (den k))
        rw [hsgFR k hk]; exact hden)
      rw [Nat.zero_add] at h
      have h : 0 ≤ sg s.bounds (s.bounds.fr k) (num k) - t' * sg s.bounds (s.bounds.fr k) (den k) := h
      rw [hsgFR k hk, hsgFR k hk] at h
      linarith
    · rcases q5 with q5 | ⟨k, hk, e1, e2, e3, e4, e5⟩
      · exact Or.inl q5
      · refine Or.inr ⟨k, hk, e1, e2, e3, ?_, ?_⟩
        · rw [Nat.zero_add] at e4; exact e4
        · rw [Nat.zero_add] at e5
          have e5 : s.options.epsDen ≤ sg s.bounds (s.bounds.fr k) (den k) := e5
          rw [hsgFR k hk] at e5
          exact e5
  have hdual : ∀ t', 0 ≤ t' → t' ≤ t1 → ∀ k < s.bounds.nFX, s.bounds.type (s.bounds.fx k) ≠ ST_EQUALITY →
      DenOK s.options.epsDen (sg s.bounds (s.bounds.fx k) (-d.yFX k)) →
      0 ≤ sg s.bounds (s.bounds.fx k) (s.y (s.bounds.fx k) + t' * d.yFX k) := by
    intro t' h0 h1 k hk hty hden
    have h := p3 k hk hty (by rw [Nat.zero_add]; exact hden)
    rw [Nat.zero_add] at h
    have := nonneg_shorten (hy k hk hty) h h0 h1
    have e : s.y (s.bounds.fx k) + t' * d.yFX k = s.y (s.bounds.fx k) - t' * (-d.yFX k) := by ring
    rw [e, sg_sub]
    exact this
  have hbc1 : Blocks s dlb dub d t1 (b1.map fun k => (k, ST_INACTIVE)) := by
    rcases p4 with ⟨e1, e2⟩ | ⟨k, hk, e1, e2, e3, e4, e5⟩
    · rw [e1]; exact e2
    · rw [e1]
      refine ⟨e2, k, hk, rfl, e3, ?_, ?_⟩
      · rw [Nat.zero_add] at e4
        have e4 : s.y (s.bounds.fx k) = t1 * (-d.yFX k) := e4
        show s.y (s.bounds.fx k) + _ = 0
        rw [e4]; ring
      · rw [Nat.zero_add] at e5; exact e5
  have hfin : ∀ t bc, 0 ≤ t → t ≤ t1 → Blocks s dlb dub d t bc →
      (s.bounds.noLower = false → ∀ k < s.bounds.nFR, s.bounds.type (s.bounds.fr k) ≠ ST_EQUALITY →
        DenOK s.options.epsDen (dlb (s.bounds.fr k) - d.xFR k) →
        t * (dlb (s.bounds.fr k) - d.xFR k) ≤ getMax (s.x (s.bounds.fr k) - s.lb (s.bounds.fr k)) 0) →
      ∃ tau bc', (if s.bounds.noUpper = false then do
          let (t, b) ← ratioTest s.bounds (fun i => getMax (s.ub (s.bounds.fr i) - s.x (s.bounds.fr i)) 0)
            (fun i => d.xFR i - dub (s.bounds.fr i)) s.options.epsNum s.options.epsDen s.bounds.free 0 t none
          pure (t, match b with | some k => some (k, ST_UPPER) | none => bc)
        else pure (t, bc)) = Res.ok (tau, bc') ∧ StepOK s dlb dub d tau bc' := by
    intro t bc h0 h1 hB hL
    by_cases hu : s.bounds.noUpper = false
    · rw [if_pos hu]
      obtain ⟨t', b', q1, q2, q3, q4, q5⟩ := primal (fun i => getMax (s.ub (s.bounds.fr i) - s.x (s.bounds.fr i)) 0)
            (fun i => d.xFR i - dub (s.bounds.fr i)) t h0 (fun k => getMax_nonneg _)
      rw [q1]
      simp only [Res.bind_ok, Res.pure_eq]
      refine ⟨_, _, rfl, q2, (q3.trans h1).trans p2, hdual t' q2 (q3.trans h1), fun hl k hk hty hden => ?_, fun _ => q4, ?_⟩
      · have := nonneg_shorten (getMax_nonneg _) (sub_nonneg.2 (hL hl k hk hty hden)) q2 q3
        linarith
      · rcases q5 with ⟨e1, e2⟩ | ⟨k, hk, e1, e2, e3, e4, e5⟩
        · subst e1; subst e2; exact hB
        · subst e1
          exact ⟨lt_of_lt_of_le e2 (h1.trans p2), hu, k, hk, rfl, e3, e4, e5⟩
    · rw [if_neg hu]
      exact ⟨_, _, rfl, h0, h1.trans p2, hdual t h0 h1, hL, fun h => absurd h hu, hB⟩
  unfold stepLength
  dsimp only
  rw [r1]
  simp only [Res.bind_ok]
  by_cases hl : s.bounds.noLower = false
  · rw [if_pos hl]
    obtain ⟨t', b', q1, q2, q3, q4, q5⟩ := primal (fun i => getMax (s.x (s.bounds.fr i) - s.lb (s.bounds.fr i)) 0)
          (fun i => dlb (s.bounds.fr i) - d.xFR i) t1 p1 (fun k => getMax_nonneg _)
    rw [q1]
    simp only [Res.bind_ok, Res.pure_eq]
    refine hfin t' _ q2 q3 ?_ fun _ => q4
    rcases q5 with ⟨e1, e2⟩ | ⟨k, hk, e1, e2, e3, e4, e5⟩
    · subst e1; subst e2; exact hbc1
    · subst e1
      exact ⟨lt_of_lt_of_le e2 p2, hl, k, hk, rfl, e3, e4, e5⟩
  · rw [if_neg hl]
    simp only [Res.bind_ok, Res.pure_eq]
    exact hfin t1 _ p1 (le_refl _) hbc1 fun h => absurd h hl

end QPB
end QpOASES
