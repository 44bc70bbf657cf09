import Verif.Model.Analysis
import Verif.Props.C37_Residuals
import Verif.Props.C34_General

/-!
C37 for problems with general constraints: residuals of a solved QP.
-/
namespace QpOASES.Props
open Finset Spec ReturnValue SubjectToStatus SubjectToType HessianType QProblemStatus
open QpOASES.QPC

set_option linter.unusedSectionVars false

variable {K : Type} [Field K] [LinearOrder K] [IsStrictOrderedRing K]

/-- Complementarity of one side of the problem -/
theorem kktProd_side {w : WS} {obs : Nat → Prop} {v l u y : Nat → K} {n : Nat} (h : SideOK w obs v l u y n) (hn : w.n = n) {i : Nat} (hi : i < n)
    {wv : Nat → K} (hw : wv i = match w.getStatus i with | ST_LOWER => -1 | ST_UPPER => 1 | _ => 0) :
    kktProd (some l) (some u) (some wv) (v i) (y i) i = 0 := by
  have z0 : (0 : K) < ZERO := ZERO_pos
  have z1 : (ZERO : K) < 1 := QPB.ZERO_lt_one
  rw [WS.getStatus_of_lt (by omega)] at hw
  have step : (|wv i - 1| ≤ ZERO → v i = u i) → (¬ |wv i - 1| ≤ ZERO → |wv i - -1| ≤ ZERO → v i = l i) →
      kktProd (some l) (some u) (some wv) (v i) (y i) i = 0 := by
    intro h1 h2
    show (if isEqual (wv i) 1 then (v i - u i) * y i else if isEqual (wv i) (-1) then (v i - l i) * y i else 0) = 0
    by_cases c1 : |wv i - 1| ≤ ZERO
    · rw [if_pos (isEqual_iff.2 c1), h1 c1, sub_self, zero_mul]
    · rw [if_neg fun h => c1 (isEqual_iff.1 h)]
      by_cases c2 : |wv i - -1| ≤ ZERO
      · rw [if_pos (isEqual_iff.2 c2), h2 c1 c2, sub_self, zero_mul]
      · rw [if_neg fun h => c2 (isEqual_iff.1 h)]
  by_cases c1 : w.status i = ST_LOWER
  · refine step (fun h => ?_) (fun _ _ => (h.lower i hi c1).1)
    exfalso
    rw [hw, c1] at h
    have : |(-1 : K) - 1| = 2 := by norm_num
    dsimp only at h
    rw [this] at h
    linarith
  · by_cases c2 : w.status i = ST_UPPER
    · refine step (fun _ => (h.upper i hi c2).1) (fun h => absurd ?_ h)
      rw [hw, c2]
      simpa using z0.le
    · have hw : wv i = 0 := by rw [hw]; split <;> simp_all
      rw [hw] at step
      refine step (fun h => ?_) (fun _ h => ?_) <;> exfalso
      · have : |(0 : K) - 1| = 1 := by norm_num
        rw [this] at h
        linarith
      · have : |(0 : K) - -1| = 1 := by norm_num
        rw [this] at h
        linarith

/-- The Hessian handed over is the one in use, if it is not regularised. -/
theorem kktHessian_spec {s : QPB K} (hr : s.usingRegularisation = false) (hH : ¬ s.scalarH → s.H ≠ none) :
    ∃ H, s.kktHessian = .ok H ∧ ∀ i < s.nV, ∀ j < s.nV, hessianArg s.nV H (decide (s.hessianType = HST_IDENTITY)) i j = s.Heff i j := by
  by_cases hz : s.hessianType = HST_ZERO
  · refine ⟨none, by unfold QPB.kktHessian; rw [hz], fun i _ j _ => ?_⟩
    rw [QPB.Heff_scalar (Or.inl hz)]
    unfold QPB.scal hessianArg
    rw [if_pos hz, hr]
    simp [hz]
  by_cases hi : s.hessianType = HST_IDENTITY
  · refine ⟨none, by unfold QPB.kktHessian; rw [hi], fun i _ j _ => ?_⟩
    rw [QPB.Heff_scalar (Or.inr hi)]
    unfold QPB.scal hessianArg
    rw [if_neg hz]
    simp [hi]
  have hs : ¬ s.scalarH := fun h => h.elim hz hi
  obtain ⟨H, eH⟩ := Option.ne_none_iff_exists'.1 (hH hs)
  have hg : s.getH = .ok H := by unfold QPB.getH; rw [eH]
  have eK : s.kktHessian = .ok (some fun q => if s.usingRegularisation = true ∧ q / s.nV = q % s.nV then H (q / s.nV) (q % s.nV) - s.regVal
      else H (q / s.nV) (q % s.nV)) := by
    unfold QPB.kktHessian
    rw [hg]
    split <;> first | exact absurd ‹_› hz | exact absurd ‹_› hi | rfl
  refine ⟨_, eK, fun i h1 j h2 => Eq.trans ?_ (QPB.Heff_of_H hs eH i j).symm⟩
  show (if s.usingRegularisation = true ∧ (i * s.nV + j) / s.nV = (i * s.nV + j) % s.nV then
      H ((i * s.nV + j) / s.nV) ((i * s.nV + j) % s.nV) - s.regVal else H ((i * s.nV + j) / s.nV) ((i * s.nV + j) % s.nV)) = H i j
  have e1 : (i * s.nV + j) / s.nV = i := by
    rw [Nat.add_comm, Nat.add_mul_div_right _ _ (by omega), Nat.div_eq_of_lt h2, Nat.zero_add]
  have e2 : (i * s.nV + j) % s.nV = j := by rw [Nat.add_comm, Nat.add_mul_mod_self_right, Nat.mod_eq_of_lt h2]
  rw [if_neg (by rw [hr]; simp), e1, e2]

theorem kktFeas_zero {l u : Nat → K} {v : K} {i : Nat} (h1 : l i ≤ v) (h2 : v ≤ u i) : kktFeas (some l) (some u) v i 0 = 0 := by
  unfold kktFeas raiseTo
  dsimp only
  have n1 : ¬ l i - v > 0 := by linarith
  rw [if_neg n1]
  have n2 : ¬ v - u i > 0 := by linarith
  rw [if_neg n2]

/-- **C37**: in every state between calls, all residuals reported by the solution analysis are zero, provided some lower and some upper limit of
the variables and of the constraints is finite and no constraint is treated as unbounded. -/
theorem C37_solved_general {sq : K → K} {fuel n m : Nat} {M A : Nat → Nat → K} {l0 u0 : Nat → K} {s : QPC K} (h : SessionC sq fuel n m M A l0 u0 s)
    (hl : s.bounds.noLower = false) (hu : s.bounds.noUpper = false) (hlA : s.cons.noLower = false) (huA : s.cons.noUpper = false)
    (ht : ∀ k < m, s.cons.type k ≠ ST_UNBOUNDED) : s.kktViolation = .ok (0, ⟨0, 0, 0⟩) := by
  have hL := h.live
  have hG := hL.good
  have hs := hG.facs.shape
  obtain rfl := hL.nV
  obtain rfl := hL.nC
  obtain ⟨_, _, b3, b4⟩ := SideOK_compl hG.opt.bounds hs.okB hs.nB
  obtain ⟨_, _, c3, c4⟩ := SideOK_compl hG.opt.cons hs.okC hs.nC
  have raise0 : raiseTo (0 : K) (getAbs 0) = 0 := by unfold raiseTo getAbs; simp
  obtain ⟨H, eH, hH⟩ := kktHessian_spec (s := s.toQPB) hL.reg fun hn => by
    obtain ⟨H, hH, _⟩ := hG.facs.chol (general_iff.2 hn)
    rw [hH]; exact Option.some_ne_none _
  have hq : ∀ k, ∀ j < s.nV, (fun q => s.A (q / s.nV) (q % s.nV)) (k * s.nV + j) = s.A k j := by
    intro k j h2
    have e1 : (k * s.nV + j) / s.nV = k := by
      rw [Nat.add_comm, Nat.add_mul_div_right _ _ (by omega), Nat.div_eq_of_lt h2, Nat.zero_add]
    have e2 : (k * s.nV + j) % s.nV = j := by rw [Nat.add_comm, Nat.add_mul_mod_self_right, Nat.mod_eq_of_lt h2]
    dsimp only
    rw [e1, e2]
  generalize hAv : (fun q => s.A (q / s.nV) (q % s.nV)) = Av at hq
  have hrow : ∀ k, kktRow s.nV (some Av) s.x k = s.prodA s.x k := fun k => by
    rw [kktRow_eq]
    unfold QP.row matrixArg ofRows prodA
    rw [sumTo_eq]
    exact sum_congr rfl fun j hj => by dsimp only; rw [hq k j (mem_range.1 hj)]
  have key : getKktViolation s.nV s.nC H (some s.g) (some Av) (some s.lb) (some s.ub) (some s.lbA) (some s.ubA) s.x s.y
      (s.toQPB.getWorkingSetBounds (some fun _ => 0)).2 (s.getWorkingSetConstraints (some fun _ => 0)).2
      (decide (s.hessianType = HST_IDENTITY)) = ⟨0, 0, 0⟩ := by
    unfold getKktViolation
    dsimp only
    congr 1
    · refine loop_id _ fun i hi => ?_
      rw [kktSum_eq _ _ _ _ _ _ _ _ hi]
      have e1 : QP.row s.nV (hessianArg s.nV H (decide (s.hessianType = HST_IDENTITY))) s.x i = ∑ j ∈ range s.nV, s.Heff i j * s.x j :=
        sum_congr rfl fun j hj => by rw [hH i hi j (mem_range.1 hj)]
      have e2 : ∑ k ∈ range s.nC, matrixArg s.nV (some Av) k i * s.y (s.nV + k) = ∑ k ∈ range s.nC, s.A k i * s.y (s.nV + k) :=
        sum_congr rfl fun k _ => by unfold matrixArg ofRows; dsimp only; rw [hq k i hi]
      have e : (some s.g).getD (fun _ => 0) i = s.g i := rfl
      rw [e1, e2, e, hG.opt.stat i hi, sub_self, raise0]
    · rw [loop_id s.nV fun i hi => kktFeas_zero (b3 hl i hi trivial) (b4 hu i hi trivial)]
      refine loop_id _ fun k hk => ?_
      rw [hrow]
      exact kktFeas_zero (c3 hlA k hk (ht k hk)) (c4 huA k hk (ht k hk))
    · rw [loop_id s.nV fun i hi => by
        rw [show kktProd (some s.lb) (some s.ub) (s.toQPB.getWorkingSetBounds (some fun _ => 0)).2 (s.x i) (s.y i) i = 0 from
          kktProd_side hG.opt.bounds hs.nB hi (if_pos hi)]
        exact raise0]
      refine loop_id _ fun k hk => ?_
      rw [hrow]
      rw [show kktProd (some s.lbA) (some s.ubA) (s.getWorkingSetConstraints (some fun _ => 0)).2 (s.prodA s.x k) (s.y (s.nV + k)) k = 0 from
          kktProd_side hG.opt.cons hs.nC hk (if_pos hk)]
      exact raise0
  have fin : ∀ r : Kkt K, r = ⟨0, 0, 0⟩ → (Res.ok (getMax (getMax (getMax 0 r.stat) r.feas) r.cmpl, r) : Res (K × Kkt K)) = .ok (0, ⟨0, 0, 0⟩) := by
    rintro r rfl
    unfold getMax
    simp
  unfold QPC.kktViolation
  rw [eH, Res.bind_ok, hAv]
  exact fin _ key

/-- The hypotheses are met after the run of C34; the analysis is not trivial: at another point the residuals do not vanish. -/
example : ∃ o, gen1 = .ok o ∧ SessionC Runs.rootC 5 2 1 gen0H gen0A (QPB.lowerOf (some (Runs.vec [-50]))) (QPB.upperOf (some (Runs.vec [5]))) o.s ∧
    (o.s.bounds.noLower = false ∧ o.s.bounds.noUpper = false ∧ o.s.cons.noLower = false ∧ o.s.cons.noUpper = false ∧
      ∀ k : Nat, k < 1 → o.s.cons.type k ≠ ST_UNBOUNDED) ∧
    ({ o.s with x := fun _ => 2 } : QPC ℚ).kktViolation ≠ .ok (0, ⟨0, 0, 0⟩) := by
  obtain ⟨o, e, _, _, _, hs⟩ := gen1_session
  obtain ⟨o', e', h⟩ := Runs.of_holds (r := gen1) (p := fun o => decide (o.s.bounds.noLower = false ∧ o.s.bounds.noUpper = false ∧ o.s.cons.noLower = false ∧
      o.s.cons.noUpper = false ∧ ∀ k : Nat, k < 1 → o.s.cons.type k ≠ ST_UNBOUNDED) &&
      Runs.holds ({ o.s with x := fun _ => 2 } : QPC ℚ).kktViolation (fun p => decide (p.1 ≠ 0))) (by decide +kernel)
  rw [e] at e'
  cases e'
  simp only [Bool.and_eq_true] at h
  refine ⟨o, e, hs, of_decide_eq_true h.1, fun e2 => ?_⟩
  obtain ⟨p, e3, h3⟩ := Runs.of_holds h.2
  rw [e2] at e3
  cases e3
  simp at h3

end QpOASES.Props
