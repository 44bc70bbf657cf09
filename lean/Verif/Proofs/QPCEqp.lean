import Verif.Model.Analysis
import Verif.Spec.Equality
import Verif.Props.C28_TQ
import Mathlib.Tactic.Linarith
import Mathlib.Tactic.LinearCombination

/-!
The equality-constrained QP of the working set: when its linear system is regular, and what follows.
-/
namespace QpOASES.QPC
open Finset Spec ReturnValue SubjectToStatus SubjectToType HessianType QProblemStatus

set_option linter.unusedSectionVars false

variable {K : Type} [Field K] [LinearOrder K] [IsStrictOrderedRing K]

/-! ### triangular systems -/

theorem upper_injective {n : Nat} {U : Nat → Nat → K} {w : Nat → K} (hU : ∀ q < n, ∀ a < n, a < q → U q a = 0) (hd : ∀ q < n, U q q ≠ 0)
    (h : ∀ q < n, ∑ a ∈ range n, U q a * w a = 0) : ∀ a < n, w a = 0 := by
  have key : ∀ j a, a < n → n - 1 - a = j → w a = 0 := by
    intro j
    induction j using Nat.strong_induction_on with
    | _ j ih =>
      intro a ha hj
      have e := h a ha
      rw [sum_eq_single a] at e
      · exact (mul_eq_zero.1 e).resolve_left (hd a ha)
      · intro b hb hne
        rw [mem_range] at hb
        rcases lt_or_gt_of_ne hne with hlt | hgt
        · rw [hU a ha b hb hlt, zero_mul]
        · rw [ih (n - 1 - b) (by omega) b hb rfl, mul_zero]
      · intro hh; exact absurd (mem_range.2 ha) hh
  exact fun a ha => key _ a ha rfl

theorem anti_injective {n : Nat} {M : Nat → Nat → K} {w : Nat → K} (hU : ∀ k < n, ∀ c < n, c + k + 1 < n → M k c = 0)
    (hd : ∀ k < n, M k (n - 1 - k) ≠ 0) (h : ∀ k < n, ∑ c ∈ range n, M k c * w c = 0) : ∀ c < n, w c = 0 := by
  refine upper_injective (U := fun q a => M (n - 1 - q) a) (fun q hq a ha hlt => hU _ (by omega) a ha (by omega)) (fun q hq => ?_)
    (fun q hq => h _ (by omega))
  have := hd (n - 1 - q) (by omega)
  rwa [show n - 1 - (n - 1 - q) = q by omega] at this

/-! ### regular working sets -/

/-- The triangular factors have no zeros on their diagonals. -/
structure Regular (s : QPC K) : Prop where
  T : ∀ k < s.nAC, s.T k (s.sizeT - 1 - k) ≠ 0
  R : s.general = true → ∀ a < s.nZ, s.R a a ≠ 0
  zero : s.hessianType = HST_ZERO → s.usingRegularisation = false → s.nZ = 0

theorem stepZ_regular {s : QPC K} {rg z : Nat → K} (h : s.stepZ rg = .ok (.ok z)) :
    (s.general = true → ∀ a < s.nZ, s.R a a ≠ 0) ∧ (s.hessianType = HST_ZERO → s.usingRegularisation = false → s.nZ = 0) := by
  have hge : (do
      let (r, z) ← backsolveR s.R s.nZ none true (fun i => -sumTo (fun j => s.Q (s.fr j) i * rg j) s.nFR)
      if r ≠ SUCCESSFUL_RETURN then Res.ok (Except.error RET_STEPDIRECTION_FAILED_CHOLESKY) else do
      let (r, z) ← backsolveR s.R s.nZ none false z
      if r ≠ SUCCESSFUL_RETURN then Res.ok (Except.error RET_STEPDIRECTION_FAILED_CHOLESKY) else
      Res.ok (Except.ok z)) = .ok (.ok z) → ∀ a < s.nZ, s.R a a ≠ 0 := by
    intro h a ha
    rw [Res.bind_eq_ok] at h
    obtain ⟨⟨r1, w⟩, h1, h⟩ := h
    dsimp only at h
    split at h
    · cases h
    rename_i hr1
    rw [not_not] at hr1
    subst hr1
    exact backsolveRT_diag _ 0 _ _ h1 a (Nat.zero_le _) (by omega)
  unfold stepZ at h
  dsimp only at h
  cases hI : s.hessianType
  case HST_IDENTITY => exact ⟨fun hg => by unfold general at hg; rw [hI] at hg; simp at hg, fun e => by cases e⟩
  case HST_ZERO =>
    refine ⟨fun hg => by unfold general at hg; rw [hI] at hg; simp at hg, fun _ hr => ?_⟩
    rw [hI] at h
    dsimp only at h
    rw [hr, if_neg (by simp)] at h
    split at h
    · cases h
    · omega
  all_goals
    refine ⟨fun _ => ?_, fun e => by cases e⟩
    rw [hI] at h
    dsimp only at h
    split at h
    · exact hge h
    · intro a ha; omega

theorem determineStepDirection_regular {s : QPC K} (hf : s.Facs) (hO' : 0 ≤ s.options.numRefinementSteps) {g lbA ubA lb ub : Nat → K} {d : Dir K}
    (hd : s.determineStepDirection g lbA ubA lb ub false false = .ok (.ok d)) : s.Regular := by
  have hp := hf.pos
  have hle := hp.le
  have hz : s.nZ = s.nFR - s.nAC := rfl
  unfold determineStepDirection at hd
  rw [Res.bind_eq_ok] at hd
  obtain ⟨H, hH, hd⟩ := hd
  dsimp only at hd
  rw [Res.bind_eq_ok] at hd
  obtain ⟨o, ho, hd⟩ := hd
  cases o with
  | error r => cases hd
  | ok p =>
    have hm : ∃ m, (s.options.numRefinementSteps + 1).toNat = m + 1 := ⟨s.options.numRefinementSteps.toNat, by omega⟩
    obtain ⟨m, hm'⟩ := hm
    rw [hm', refine, Res.bind_eq_ok] at ho
    obtain ⟨o1, ho1, ho⟩ := ho
    cases o1 with
    | error r => cases ho
    | ok q =>
      unfold pass at ho1
      dsimp only at ho1
      split at ho1
      · cases ho1
      rename_i xy hxy
      have hT : ∀ k < s.nAC, s.T k (s.sizeT - 1 - k) ≠ 0 := by
        intro k hk
        unfold stepY at hxy
        rw [if_pos ⟨by omega, rfl⟩] at hxy
        generalize (if false = false ∧ true = true then _ else _ : Nat → K) = rb at hxy
        rcases Props.C25_solve (T := s.T) hp.size rb (fun _ => (0 : K)) with ⟨a', e1, _, e2, _⟩ | ⟨a', i, e1, _⟩
        · intro e
          have := e2 k hk
          rw [e, abs_zero] at this
          exact absurd this (not_lt.2 (le_of_lt EPS_pos'))
        · rw [e1] at hxy
          simp at hxy
      by_cases h0 : s.nFR = 0
      · exact ⟨hT, fun _ a ha => by omega, fun _ _ => by omega⟩
      rw [if_neg h0, Res.bind_eq_ok] at ho1
      obtain ⟨o2, ho2, ho1⟩ := ho1
      cases o2 with
      | error r => cases ho1
      | ok z => exact ⟨hT, (stepZ_regular ho2).1, (stepZ_regular ho2).2⟩

/-! ### vectors orthogonal to the active rows -/

/-- Projection on the columns of `Q` -/
def proj (s : QPC K) (v : Nat → K) (a : Nat) : K := ∑ r ∈ range s.nFR, s.Q (s.fr r) a * v r

theorem Pos.null_comb {s : QPC K} (hp : s.Pos) (hr : s.Regular) {v : Nat → K} (hv : ∀ k < s.nAC, ∑ r ∈ range s.nFR, s.A (s.ac k) (s.fr r) * v r = 0) :
    ∀ r < s.nFR, v r = ∑ a ∈ range s.nZ, s.Q (s.fr r) a * s.proj v a := by
  have hle := hp.le
  have hz : s.nZ = s.nFR - s.nAC := rfl
  have hsz := hp.size
  have e : ∀ r < s.nFR, v r = s.comb (s.proj v) (fun c => s.proj v (s.nZ + c)) r := by
    have := complete hp.rows (v := fun r => v r - s.comb (s.proj v) (fun c => s.proj v (s.nZ + c)) r) (by
      intro j hj
      simp only [mul_sub]
      rw [sum_sub_distrib, sub_eq_zero]
      rcases hp.col hj with h1 | ⟨c, hc, rfl⟩
      · rw [hp.proj_null _ _ h1]; rfl
      · rw [hp.proj_range _ _ hc]; rfl)
    exact fun r hr => sub_eq_zero.1 (this r hr)
  have hT : ∀ c < s.nAC, s.proj v (s.nZ + c) = 0 := by
    refine anti_injective (M := fun k c => ∑ r ∈ range s.nFR, s.A (s.ac k) (s.fr r) * s.Q (s.fr r) (s.nZ + c)) (fun k hk c hc h => hp.upper k hk c hc h)
      (fun k hk => ?_) (fun k hk => ?_)
    · rw [hp.lower k hk _ (by omega) (by omega), show s.sizeT - s.nAC + (s.nAC - 1 - k) = s.sizeT - 1 - k by omega]
      exact hr.T k hk
    · rw [hp.mulT hk, ← hp.active (s.proj v) _ hk, ← hv k hk]
      exact sum_congr rfl fun r hr => by rw [← e r (mem_range.1 hr)]
  intro r hr
  rw [e r hr]
  unfold comb
  rw [sum_eq_zero, zero_add]
  intro c hc
  beta_reduce
  rw [hT c (mem_range.1 hc), mul_zero]

theorem Facs.curvature {s : QPC K} (hf : s.Facs) (hr : s.Regular) {v : Nat → K} (hv : ∀ k < s.nAC, ∑ r ∈ range s.nFR, s.A (s.ac k) (s.fr r) * v r = 0) :
    0 ≤ ∑ r ∈ range s.nFR, v r * s.mulFF v r ∧ (∑ r ∈ range s.nFR, v r * s.mulFF v r = 0 → ∀ r < s.nFR, v r = 0) := by
  have hp := hf.pos
  have hw := hf.shape.okB
  have hc := hp.null_comb hr hv
  by_cases hg : s.general = true
  · have hns := general_iff.1 hg
    have hF := (Props.FactorsOf.of_facs hf).chol (fun e => hns (Or.inl e)) (fun e => hns (Or.inr e))
    obtain ⟨H, hH, hF⟩ := hF
    have hHe : ∀ i j, s.Heff i j = H i j := fun i j => QPB.Heff_of_H hns hH i j
    set U : Nat → Nat → K := fun q a => if q ≤ a then s.R q a else 0 with hU
    have key : ∑ r ∈ range s.nFR, v r * s.mulFF v r = ∑ q ∈ range s.nZ, (∑ a ∈ range s.nZ, U q a * s.proj v a) ^ 2 := by
      have e1 : ∑ r ∈ range s.nFR, v r * s.mulFF v r = ∑ a ∈ range s.nZ, ∑ b ∈ range s.nZ, s.proj v a * s.proj v b *
          ∑ i ∈ s.bounds.free.toFinset, ∑ i' ∈ s.bounds.free.toFinset, s.Q i a * H i i' * s.Q i' b := by
        have e2 : ∀ a b, ∑ i ∈ s.bounds.free.toFinset, ∑ i' ∈ s.bounds.free.toFinset, s.Q i a * H i i' * s.Q i' b =
            ∑ r ∈ range s.nFR, ∑ r' ∈ range s.nFR, s.Q (s.fr r) a * H (s.fr r) (s.fr r') * s.Q (s.fr r') b := by
          intro a b
          refine (hw.sumFree fun i => ∑ i' ∈ s.bounds.free.toFinset, s.Q i a * H i i' * s.Q i' b).symm.trans ?_
          exact sum_congr rfl fun r _ => (hw.sumFree fun i' => s.Q (s.fr r) a * H (s.fr r) i' * s.Q i' b).symm
        simp only [e2]
        have e3 : ∀ r < s.nFR, ∀ r' < s.nFR, v r * (H (s.fr r) (s.fr r') * v r') =
            ∑ a ∈ range s.nZ, ∑ b ∈ range s.nZ, s.proj v a * s.proj v b * (s.Q (s.fr r) a * H (s.fr r) (s.fr r') * s.Q (s.fr r') b) := by
          intro r hr r' hr'
          rw [hc r hr, hc r' hr', sum_mul]
          refine sum_congr rfl fun a _ => ?_
          rw [mul_sum, mul_sum]
          exact sum_congr rfl fun b _ => by ring
        have e4 : ∑ r ∈ range s.nFR, v r * s.mulFF v r = ∑ r ∈ range s.nFR, ∑ r' ∈ range s.nFR,
            ∑ a ∈ range s.nZ, ∑ b ∈ range s.nZ, s.proj v a * s.proj v b * (s.Q (s.fr r) a * H (s.fr r) (s.fr r') * s.Q (s.fr r') b) := by
          refine sum_congr rfl fun r hr => ?_
          unfold mulFF
          rw [mul_sum]
          refine sum_congr rfl fun r' hr' => ?_
          rw [hHe]
          exact e3 r (mem_range.1 hr) r' (mem_range.1 hr')
        rw [e4]
        simp only [mul_sum]
        rw [sum_congr rfl fun r _ => sum_comm, sum_comm]
        refine sum_congr rfl fun a _ => ?_
        rw [sum_congr rfl fun r _ => sum_comm, sum_comm]
      rw [e1]
      have e5 : ∀ a ∈ range s.nZ, ∀ b ∈ range s.nZ, s.proj v a * s.proj v b *
          ∑ i ∈ s.bounds.free.toFinset, ∑ i' ∈ s.bounds.free.toFinset, s.Q i a * H i i' * s.Q i' b =
          ∑ q ∈ range s.nZ, (U q a * s.proj v a) * (U q b * s.proj v b) := by
        intro a ha b hb
        rw [← hF a (mem_range.1 ha) b (mem_range.1 hb), mul_sum]
        exact sum_congr rfl fun q _ => by rw [hU]; ring
      rw [sum_congr rfl fun a ha => sum_congr rfl fun b hb => e5 a ha b hb]
      rw [sum_congr rfl fun a _ => sum_comm, sum_comm]
      refine sum_congr rfl fun q _ => ?_
      rw [pow_two, sum_mul_sum]
    rw [key]
    refine ⟨sum_nonneg fun q _ => sq_nonneg _, fun h0 => ?_⟩
    have hz := (sum_eq_zero_iff_of_nonneg fun q _ => sq_nonneg _).1 h0
    have hpj := upper_injective (U := U) (w := s.proj v) (fun q _ a _ hlt => if_neg (by omega))
      (fun q hq => by rw [hU]; dsimp only; rw [if_pos (le_refl _)]; exact hr.R hg q hq)
      (fun q hq => pow_eq_zero_iff (two_ne_zero) |>.1 (hz q (mem_range.2 hq)))
    intro r hrr
    rw [hc r hrr]
    exact sum_eq_zero fun a ha => by rw [hpj a (mem_range.1 ha), mul_zero]
  · have hs : s.scalarH := by
      by_contra hn; exact hg (general_iff.2 hn)
    have e : ∑ r ∈ range s.nFR, v r * s.mulFF v r = s.scal * ∑ r ∈ range s.nFR, v r ^ 2 := by
      rw [mul_sum]
      refine sum_congr rfl fun r hr => ?_
      rw [mulFF_scalar hs hw v (mem_range.1 hr)]
      ring
    rw [e]
    have hn : 0 ≤ ∑ r ∈ range s.nFR, v r ^ 2 := sum_nonneg fun _ _ => sq_nonneg _
    by_cases hzero : s.hessianType = HST_ZERO ∧ s.usingRegularisation = false
    · have hnz := hr.zero hzero.1 hzero.2
      have hv0 : ∀ r < s.nFR, v r = 0 := fun r hrr => by rw [hc r hrr, hnz]; rfl
      refine ⟨?_, fun _ => hv0⟩
      rw [sum_eq_zero fun r hr => by rw [hv0 r (mem_range.1 hr)]; ring, mul_zero]
    · have hpos : 0 < s.scal := by
        unfold QPB.scal
        split
        · rename_i hI
          split
          · rename_i hreg
            have : ZERO < s.regVal := by simpa [QPB.usingRegularisation] using hreg
            exact lt_trans ZERO_pos this
          · rename_i hreg
            exact absurd ⟨hI, by simpa using hreg⟩ hzero
        · exact one_pos
      refine ⟨mul_nonneg (le_of_lt hpos) hn, fun h0 => ?_⟩
      have h1 := (mul_eq_zero.1 h0).resolve_left (ne_of_gt hpos)
      have h2 := (sum_eq_zero_iff_of_nonneg fun r _ => sq_nonneg _).1 h1
      exact fun r hrr => pow_eq_zero_iff (two_ne_zero) |>.1 (h2 r (mem_range.2 hrr))

/-! ### the equations of the working set -/

/-- Variable `i` is in the working set. -/
def InB (s : QPC K) (i : Nat) : Prop := s.bounds.status i ≠ ST_INACTIVE
/-- Constraint `k` is in the working set. -/
def InC (s : QPC K) (k : Nat) : Prop := s.cons.status k ≠ ST_INACTIVE
/-- The limit a member of a working set is held at -/
def heldAt (w : WS) (lo up : Nat → K) (i : Nat) : K := if w.status i = ST_LOWER then lo i else up i

theorem _root_.QpOASES.WS.OK.cases_mem {w : WS} (h : w.OK) {i : Nat} (hi : i < w.n) :
    (w.status i = ST_INACTIVE ∧ ∃ k < w.nFR, i = w.fr k) ∨ (w.status i ≠ ST_INACTIVE ∧ ∃ k < w.nFX, i = w.fx k) := by
  have hm := (h.perm.mem_iff (a := i)).2 (List.mem_range.2 hi)
  rw [List.mem_append] at hm
  rcases hm with hm | hm
  · refine Or.inl ⟨(h.mem_free_iff.1 hm).2, w.free.idxOf i, List.idxOf_lt_length_iff.2 hm, ?_⟩
    unfold WS.fr
    rw [List.getD_eq_getElem _ _ (List.idxOf_lt_length_iff.2 hm), List.getElem_idxOf]
  · refine Or.inr ⟨fun e => h.disjoint (h.mem_free_iff.2 ⟨hi, e⟩) hm, w.fixed.idxOf i, List.idxOf_lt_length_iff.2 hm, ?_⟩
    unfold WS.fx
    rw [List.getD_eq_getElem _ _ (List.idxOf_lt_length_iff.2 hm), List.getElem_idxOf]

theorem _root_.QpOASES.WS.OK.fx_inj {w : WS} (h : w.OK) {k l : Nat} (hk : k < w.nFX) (hl : l < w.nFX) (e : w.fx k = w.fx l) : k = l := by
  rw [← h.idxOf_fx hk, ← h.idxOf_fx hl, e]

theorem Shape.casesB {s : QPC K} (h : s.Shape) {i : Nat} (hi : i < s.nV) :
    (¬ s.InB i ∧ ∃ k < s.nFR, i = s.fr k) ∨ (s.InB i ∧ ∃ k < s.nFX, i = s.fx k) := by
  rcases h.okB.cases_mem (by rw [h.nB]; exact hi) with ⟨e, k⟩ | ⟨e, k⟩
  · exact Or.inl ⟨fun c => c e, k⟩
  · exact Or.inr ⟨e, k⟩

theorem Shape.casesC {s : QPC K} (h : s.Shape) {i : Nat} (hi : i < s.nC) :
    (¬ s.InC i ∧ ∃ k < s.nIAC, i = s.iac k) ∨ (s.InC i ∧ ∃ k < s.nAC, i = s.ac k) := by
  rcases h.okC.cases_mem (by rw [h.nC]; exact hi) with ⟨e, k⟩ | ⟨e, k⟩
  · exact Or.inl ⟨fun c => c e, k⟩
  · exact Or.inr ⟨e, k⟩

theorem Shape.ac_spec {s : QPC K} (h : s.Shape) {k : Nat} (hk : k < s.nAC) : s.ac k < s.nC ∧ s.InC (s.ac k) := by
  have hm : s.ac k ∈ s.cons.fixed := WS.fx_mem hk
  have hlt : s.ac k < s.cons.n := List.mem_range.1 ((h.okC.perm.mem_iff).1 (List.mem_append.2 (Or.inr hm)))
  exact ⟨by rw [← h.nC]; exact hlt, fun e => h.okC.disjoint (h.okC.mem_free_iff.2 ⟨hlt, e⟩) hm⟩

theorem Shape.fx_spec {s : QPC K} (h : s.Shape) {k : Nat} (hk : k < s.nFX) : s.fx k < s.nV ∧ s.InB (s.fx k) := by
  have hm : s.fx k ∈ s.bounds.fixed := WS.fx_mem hk
  have hlt : s.fx k < s.bounds.n := List.mem_range.1 ((h.okB.perm.mem_iff).1 (List.mem_append.2 (Or.inr hm)))
  exact ⟨by rw [← h.nB]; exact hlt, fun e => h.okB.disjoint (h.okB.mem_free_iff.2 ⟨hlt, e⟩) hm⟩

theorem Shape.fr_spec {s : QPC K} (h : s.Shape) {k : Nat} (hk : k < s.nFR) : s.fr k < s.nV ∧ ¬ s.InB (s.fr k) := by
  have hm : s.fr k ∈ s.bounds.free := WS.fr_mem hk
  obtain ⟨h1, h2⟩ := h.okB.mem_free_iff.1 hm
  exact ⟨by rw [← h.nB]; exact h1, fun e => e h2⟩

/-- A computed direction solves the equality-constrained QP of the working set. -/
theorem DirOK.kkt {s : QPC K} (hs : s.Shape) {h : Shift K} {d : Dir K} (hd : s.DirOK h false false d) :
    EqualityKKT s.nV s.nC s.Heff s.A s.InB s.InC h.g (heldAt s.bounds h.lb h.ub) (heldAt s.cons h.lbA h.ubA) (s.dirX d) (s.dirY d) (s.dirYC d) := by
  refine ⟨⟨fun i hi hB => ?_, fun k hk hC => ?_⟩, hd.stat, fun i hi hB => ?_, fun k hk hC => ?_⟩
  · rcases hs.casesB hi with ⟨e, _⟩ | ⟨_, k, hk, rfl⟩
    · exact absurd hB e
    · rw [dirX_fx hs.okB d hk, hd.bounds k hk]
      unfold dirFX heldAt
      rw [if_neg (by simp), WS.getStatus_of_lt (by rw [hs.nB]; exact hi)]
  · rcases hs.casesC hk with ⟨e, _⟩ | ⟨_, j, hj, rfl⟩
    · exact absurd hC e
    · have e := hd.cons j hj
      unfold dirAx prodA at e
      rw [sumTo_eq] at e
      refine e.trans ?_
      unfold shiftAC heldAt
      rw [if_neg (by simp), WS.getStatus_of_lt (by rw [hs.nC]; exact hk)]
  · rcases hs.casesB hi with ⟨_, k, hk, rfl⟩ | ⟨e, _⟩
    · exact hs.okB.scatter_fr _ _ hk
    · exact absurd e hB
  · rcases hs.casesC hk with ⟨_, j, hj, rfl⟩ | ⟨e, _⟩
    · exact hs.okC.scatter_fr _ _ hj
    · exact absurd e hC

/-- A vector that vanishes in the working set has nonnegative curvature, and positive curvature unless it is zero. -/
theorem Facs.curvature_full {s : QPC K} (hf : s.Facs) (hr : s.Regular) {d : Nat → K} (hd : Satisfies s.nV s.nC s.A s.InB s.InC (fun _ => 0) (fun _ => 0) d) :
    0 ≤ ∑ i ∈ range s.nV, d i * QP.row s.nV s.Heff d i ∧ (∑ i ∈ range s.nV, d i * QP.row s.nV s.Heff d i = 0 → ∀ i < s.nV, d i = 0) := by
  have hs := hf.shape
  have hfx : ∀ k < s.nFX, d (s.fx k) = 0 := fun k hk => hd.fixed _ (hs.fx_spec hk).1 (hs.fx_spec hk).2
  have hsum : ∀ f : Nat → K, ∑ i ∈ range s.nV, f i = ∑ k ∈ range s.nFR, f (s.fr k) + ∑ k ∈ range s.nFX, f (s.fx k) := by
    intro f
    rw [← hs.nB]
    exact hs.okB.sum f
  have hrow : ∀ (M : Nat → Nat → K) i, QP.row s.nV M d i = ∑ k ∈ range s.nFR, M i (s.fr k) * d (s.fr k) := by
    intro M i
    unfold QP.row
    rw [hsum, add_eq_left]
    exact sum_eq_zero fun k hk => by rw [hfx k (mem_range.1 hk), mul_zero]
  have hq : ∑ i ∈ range s.nV, d i * QP.row s.nV s.Heff d i = ∑ r ∈ range s.nFR, (fun r => d (s.fr r)) r * s.mulFF (fun r => d (s.fr r)) r := by
    rw [hsum, sum_eq_zero (s := range s.nFX) fun k hk => by rw [hfx k (mem_range.1 hk), zero_mul], add_zero]
    exact sum_congr rfl fun r _ => by rw [hrow]; rfl
  have hc := hf.curvature hr (v := fun r => d (s.fr r)) (fun k hk => by
    rw [← hrow]
    exact hd.active _ (hs.ac_spec hk).1 (hs.ac_spec hk).2)
  rw [hq]
  refine ⟨hc.1, fun h0 i hi => ?_⟩
  rcases hs.casesB hi with ⟨_, k, hk, rfl⟩ | ⟨e, _⟩
  · exact hc.2 h0 k hk
  · exact hd.fixed i hi e

/-- The only solution of the homogeneous system is zero. -/
theorem Facs.unique {s : QPC K} (hf : s.Facs) (hr : s.Regular) {x y z : Nat → K}
    (h : EqualityKKT s.nV s.nC s.Heff s.A s.InB s.InC (fun _ => 0) (fun _ => 0) (fun _ => 0) x y z) :
    (∀ i < s.nV, x i = 0) ∧ (∀ i < s.nV, y i = 0) ∧ ∀ k < s.nC, z k = 0 := by
  have hs := hf.shape
  have hp := hf.pos
  have hle := hp.le
  have hsz := hp.size
  have hcur := hf.curvature_full hr h.toSatisfies
  have hsumC : ∀ f : Nat → K, ∑ i ∈ range s.nC, f i = ∑ k ∈ range s.nIAC, f (s.iac k) + ∑ k ∈ range s.nAC, f (s.ac k) := by
    intro f
    rw [← hs.nC]
    exact hs.okC.sum f
  have h0 : ∑ i ∈ range s.nV, x i * QP.row s.nV s.Heff x i = 0 := by
    have e1 : ∀ i ∈ range s.nV, x i * QP.row s.nV s.Heff x i = x i * ∑ k ∈ range s.nC, s.A k i * z k := by
      intro i hi
      rw [mem_range] at hi
      have e := h.stat i hi
      rw [add_zero] at e
      by_cases hB : s.InB i
      · rw [h.fixed i hi hB]; ring
      · rw [e, h.free i hi hB, zero_add]
    rw [sum_congr rfl e1]
    simp only [mul_sum]
    rw [sum_comm]
    refine sum_eq_zero fun k hk => ?_
    rw [mem_range] at hk
    by_cases hC : s.InC k
    · have e := h.active k hk hC
      rw [show ∑ i ∈ range s.nV, x i * (s.A k i * z k) = z k * QP.row s.nV s.A x k by
        unfold QP.row; rw [mul_sum]; exact sum_congr rfl fun _ _ => by ring, e, mul_zero]
    · rw [h.inactive k hk hC]
      simp
  have hx := hcur.2 h0
  have hrow : ∀ i, QP.row s.nV s.Heff x i = 0 := fun i => sum_eq_zero fun j hj => by rw [hx j (mem_range.1 hj), mul_zero]
  have hz : ∀ k < s.nC, z k = 0 := by
    have key : ∀ j < s.nAC, z (s.ac j) = 0 := by
      refine anti_injective (M := fun k c => ∑ r ∈ range s.nFR, s.A (s.ac c) (s.fr r) * s.Q (s.fr r) (s.nZ + k)) (w := fun c => z (s.ac c))
        (fun k hk c hc hlt => hp.upper c hc k hk (by omega)) (fun k hk => ?_) (fun c hc => ?_)
      · rw [hp.lower _ (by omega) k hk (by omega), show s.sizeT - s.nAC + k = s.sizeT - 1 - (s.nAC - 1 - k) by omega]
        exact hr.T _ (by omega)
      · have e : ∀ r ∈ range s.nFR, s.Q (s.fr r) (s.nZ + c) * ∑ k ∈ range s.nAC, s.A (s.ac k) (s.fr r) * z (s.ac k) = 0 := by
          intro r hr
          rw [mem_range] at hr
          have e := h.stat (s.fr r) (hs.fr_spec hr).1
          rw [hrow, h.free _ (hs.fr_spec hr).1 (hs.fr_spec hr).2, zero_add, zero_add, hsumC,
            sum_eq_zero (s := range s.nIAC), zero_add] at e
          · rw [← e, mul_zero]
          · intro k hk
            rw [mem_range] at hk
            have hm : s.iac k ∈ s.cons.free := WS.fr_mem hk
            obtain ⟨h1, h2⟩ := hs.okC.mem_free_iff.1 hm
            rw [h.inactive _ (by rw [← hs.nC]; exact h1) (fun hne => hne h2), mul_zero]
        rw [← sum_eq_zero e]
        simp only [mul_sum, sum_mul]
        rw [sum_comm]
        exact sum_congr rfl fun _ _ => sum_congr rfl fun _ _ => by ring
    intro k hk
    rcases hs.casesC hk with ⟨e, _⟩ | ⟨_, j, hj, rfl⟩
    · exact h.inactive k hk e
    · exact key j hj
  refine ⟨hx, fun i hi => ?_, hz⟩
  have e := h.stat i hi
  rw [hrow, zero_add, sum_eq_zero fun k hk => by rw [hz k (mem_range.1 hk), mul_zero], add_zero] at e
  exact e.symm

/-- Solutions of the equations of the working set are minimisers. -/
theorem Facs.minimiser {s : QPC K} (hf : s.Facs) (hr : s.Regular) {g b c x y z : Nat → K} (hH : QP.Symmetric s.nV s.Heff)
    (h : EqualityKKT s.nV s.nC s.Heff s.A s.InB s.InC g b c x y z) {x' : Nat → K} (h' : Satisfies s.nV s.nC s.A s.InB s.InC b c x') :
    objective s.nV s.Heff g x ≤ objective s.nV s.Heff g x' := by
  have hrow : ∀ (M : Nat → Nat → K) i, QP.row s.nV M (fun j => x' j - x j) i = QP.row s.nV M x' i - QP.row s.nV M x i := by
    intro M i
    unfold QP.row
    rw [← sum_sub_distrib]
    exact sum_congr rfl fun _ _ => by ring
  have hd : Satisfies s.nV s.nC s.A s.InB s.InC (fun _ => 0) (fun _ => 0) (fun j => x' j - x j) :=
    ⟨fun i hi hB => by rw [h.fixed i hi hB, h'.fixed i hi hB, sub_self], fun k hk hC => by rw [hrow, h.active k hk hC, h'.active k hk hC, sub_self]⟩
  have hc := (hf.curvature_full hr hd).1
  -- the linear term
  have h0 : ∑ i ∈ range s.nV, (x' i - x i) * (QP.row s.nV s.Heff x i + g i) = 0 := by
    have e1 : ∀ i ∈ range s.nV, (x' i - x i) * (QP.row s.nV s.Heff x i + g i) = (x' i - x i) * ∑ k ∈ range s.nC, s.A k i * z k := by
      intro i hi
      rw [mem_range] at hi
      by_cases hB : s.InB i
      · rw [show x' i - x i = 0 from hd.fixed i hi hB]; ring
      · rw [h.stat i hi, h.free i hi hB, zero_add]
    rw [sum_congr rfl e1]
    simp only [mul_sum]
    rw [sum_comm]
    refine sum_eq_zero fun k hk => ?_
    rw [mem_range] at hk
    by_cases hC : s.InC k
    · rw [show ∑ i ∈ range s.nV, (x' i - x i) * (s.A k i * z k) = z k * QP.row s.nV s.A (fun j => x' j - x j) k by
        unfold QP.row; rw [mul_sum]; exact sum_congr rfl fun _ _ => by ring, hd.active k hk hC, mul_zero]
    · rw [h.inactive k hk hC]
      simp
  have hsym : ∑ i ∈ range s.nV, x i * QP.row s.nV s.Heff x' i = ∑ i ∈ range s.nV, x' i * QP.row s.nV s.Heff x i := by
    unfold QP.row
    simp only [mul_sum]
    rw [sum_comm]
    refine sum_congr rfl fun i hi => sum_congr rfl fun j hj => ?_
    rw [hH j (mem_range.1 hj) i (mem_range.1 hi)]
    ring
  have e2 : ∑ i ∈ range s.nV, (x' i - x i) * QP.row s.nV s.Heff (fun j => x' j - x j) i = ∑ i ∈ range s.nV, x' i * QP.row s.nV s.Heff x' i -
      ∑ i ∈ range s.nV, x' i * QP.row s.nV s.Heff x i - ∑ i ∈ range s.nV, x i * QP.row s.nV s.Heff x' i + ∑ i ∈ range s.nV, x i * QP.row s.nV s.Heff x i := by
    rw [← sum_sub_distrib, ← sum_sub_distrib, ← sum_add_distrib]
    exact sum_congr rfl fun i _ => by rw [hrow]; ring
  have e3 : ∑ i ∈ range s.nV, (x' i - x i) * (QP.row s.nV s.Heff x i + g i) = ∑ i ∈ range s.nV, x' i * QP.row s.nV s.Heff x i -
      ∑ i ∈ range s.nV, x i * QP.row s.nV s.Heff x i + (∑ i ∈ range s.nV, g i * x' i - ∑ i ∈ range s.nV, g i * x i) := by
    rw [← sum_sub_distrib, ← sum_sub_distrib, ← sum_add_distrib]
    exact sum_congr rfl fun i _ => by ring
  rw [e2] at hc
  rw [e3] at h0
  unfold objective
  linarith

/-! ### writing results -/

theorem loop_store {α : Type} {p : Nat → Nat} {v : Nat → α} : ∀ {n : Nat} (a : Nat → α), (∀ i < n, ∀ j < n, p i = p j → i = j) →
    (∀ j < n, loop (fun j a => updA a (p j) (v j)) n a (p j) = v j) ∧
    ∀ q, (∀ j < n, q ≠ p j) → loop (fun j a => updA a (p j) (v j)) n a q = a q := by
  intro n
  induction n with
  | zero => intro a _; exact ⟨fun j hj => by omega, fun q _ => rfl⟩
  | succ n ih =>
    intro a hinj
    obtain ⟨h1, h2⟩ := ih a fun i hi j hj => hinj i (by omega) j (by omega)
    refine ⟨fun j hj => ?_, fun q hq => ?_⟩
    · show updA _ (p n) (v n) (p j) = _
      by_cases e : j = n
      · rw [e]; exact updA_same _ _ _
      · rw [updA_ne _ _ (fun e' => e (hinj j hj n (by omega) e'))]
        exact h1 j (by omega)
    · show updA _ (p n) (v n) q = _
      rw [updA_ne _ _ (hq n (by omega))]
      exact h2 q fun j hj => hq j (by omega)

end QpOASES.QPC
