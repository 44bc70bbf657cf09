import Verif.Proofs.QPCOps
import Verif.Proofs.QPBStep
import Mathlib.LinearAlgebra.FiniteDimensional.Basic

/-!
Step direction of the solver for general constraints: it solves the linear system of the current working set.
-/
namespace QpOASES
open Finset Props SubjectToStatus ReturnValue HessianType

set_option linter.unusedSectionVars false

variable {K : Type} [Field K] [LinearOrder K] [IsStrictOrderedRing K]

/-! ### linear algebra -/

/-- The columns of a square matrix with orthonormal rows are orthonormal. -/
theorem cols_of_rows {n : Nat} {q : Nat → Nat → K} (h : ∀ r < n, ∀ r' < n, ∑ j ∈ range n, q r j * q r' j = if r = r' then 1 else 0) :
    ∀ a < n, ∀ b < n, ∑ r ∈ range n, q r a * q r b = if a = b then 1 else 0 := by
  let M : Matrix (Fin n) (Fin n) K := fun i j => q i j
  have h1 : M * M.transpose = 1 := by
    ext i j
    rw [Matrix.mul_apply, Matrix.one_apply]
    have := h i i.2 j j.2
    rw [Finset.sum_range] at this
    show ∑ x : Fin n, q i x * q j x = _
    rw [this]
    simp only [Fin.ext_iff]
  have h2 : M.transpose * M = 1 := (mul_eq_one_comm (a := M) (b := M.transpose)).1 h1
  intro a ha b hb
  have h3 := congrFun (congrFun h2 ⟨a, ha⟩) ⟨b, hb⟩
  rw [Matrix.mul_apply, Matrix.one_apply] at h3
  rw [Finset.sum_range]
  have h4 : ∑ x : Fin n, q x a * q x b = if (⟨a, ha⟩ : Fin n) = ⟨b, hb⟩ then 1 else 0 := h3
  rw [h4]
  simp only [Fin.ext_iff]

/-- A vector orthogonal to all columns is zero. -/
theorem complete {n : Nat} {q : Nat → Nat → K} (h : ∀ r < n, ∀ r' < n, ∑ j ∈ range n, q r j * q r' j = if r = r' then 1 else 0)
    {v : Nat → K} (hv : ∀ j < n, ∑ r ∈ range n, q r j * v r = 0) : ∀ r < n, v r = 0 := by
  intro r hr
  have e : v r = ∑ r' ∈ range n, (∑ j ∈ range n, q r j * q r' j) * v r' := by
    rw [sum_eq_single r]
    · rw [h r hr r hr, if_pos rfl, one_mul]
    · intro r' hr' hne
      rw [h r hr r' (mem_range.1 hr'), if_neg (fun e => hne e.symm), zero_mul]
    · intro hh; exact absurd (mem_range.2 hr) hh
  rw [e]
  simp only [sum_mul]
  rw [sum_comm]
  refine sum_eq_zero fun j hj => ?_
  have := hv j (mem_range.1 hj)
  rw [show ∑ x ∈ range n, q r j * q x j * v x = q r j * ∑ x ∈ range n, q x j * v x by
    rw [mul_sum]; exact sum_congr rfl fun _ _ => by ring]
  rw [this, mul_zero]

theorem sum_mul_sum_comm (s t : Finset Nat) (u v : Nat → K) (w : Nat → Nat → K) :
    ∑ r ∈ s, u r * ∑ j ∈ t, w r j * v j = ∑ j ∈ t, (∑ r ∈ s, u r * w r j) * v j := by
  simp only [mul_sum, sum_mul]
  rw [sum_comm]
  exact sum_congr rfl fun _ _ => sum_congr rfl fun _ _ => by ring

namespace QPC

/-! ### the factors by position -/

/-- The facts about the factors by position in the index lists. -/
structure Pos (s : QPC K) : Prop where
  le : s.nAC ≤ s.nFR
  size : s.nAC ≤ s.sizeT
  rows : ∀ r < s.nFR, ∀ r' < s.nFR, ∑ j ∈ range s.nFR, s.Q (s.fr r) j * s.Q (s.fr r') j = if r = r' then 1 else 0
  cols : ∀ a < s.nFR, ∀ b < s.nFR, ∑ r ∈ range s.nFR, s.Q (s.fr r) a * s.Q (s.fr r) b = if a = b then 1 else 0
  null : ∀ k < s.nAC, ∀ j < s.nZ, ∑ r ∈ range s.nFR, s.A (s.ac k) (s.fr r) * s.Q (s.fr r) j = 0
  upper : ∀ k < s.nAC, ∀ c < s.nAC, c + k + 1 < s.nAC → ∑ r ∈ range s.nFR, s.A (s.ac k) (s.fr r) * s.Q (s.fr r) (s.nZ + c) = 0
  lower : ∀ k < s.nAC, ∀ c < s.nAC, s.nAC ≤ c + k + 1 →
    ∑ r ∈ range s.nFR, s.A (s.ac k) (s.fr r) * s.Q (s.fr r) (s.nZ + c) = s.T k (s.sizeT - s.nAC + c)

theorem Facs.size {s : QPC K} (h : s.Facs) : s.nAC ≤ s.sizeT := by
  rw [h.shape.size]
  refine le_min ?_ ?_
  · exact le_trans h.tq.le h.shape.nFR_le
  · rw [← h.shape.nC]; exact h.shape.okC.nFX_le

theorem Facs.pos {s : QPC K} (h : s.Facs) : s.Pos := by
  have hw := h.shape.okB
  have hle := h.tq.le
  have hz : s.nZ = s.nFR - s.nAC := rfl
  have hsum : ∀ f : Nat → K, ∑ r ∈ range s.nFR, f (s.fr r) = ∑ i ∈ s.F, f i := fun f => hw.sumFree f
  have hrows : ∀ r < s.nFR, ∀ r' < s.nFR, ∑ j ∈ range s.nFR, s.Q (s.fr r) j * s.Q (s.fr r') j = if r = r' then 1 else 0 := by
    intro r hr r' hr'
    rw [h.tq.tq.orth (s.fr r) (List.mem_toFinset.2 (WS.fr_mem hr)) (s.fr r') (List.mem_toFinset.2 (WS.fr_mem hr'))]
    by_cases e : r = r'
    · rw [if_pos e, if_pos (congrArg s.fr e)]
    · rw [if_neg e, if_neg (show ¬ s.fr r = s.fr r' from fun e' => e (hw.fr_inj hr hr' e'))]
  have hlin : ∀ k j, ∑ r ∈ range s.nFR, s.A (s.ac k) (s.fr r) * s.Q (s.fr r) j = lin s.F (s.A (s.ac k)) s.Q j :=
    fun k j => hsum fun i => s.A (s.ac k) i * s.Q i j
  refine ⟨hle, h.size, hrows, cols_of_rows hrows, ?_, ?_, ?_⟩
  · intro k hk j hj
    rw [hlin]
    exact h.tq.tq.zero k hk j (by omega)
  · intro k hk c hc hck
    rw [hlin]
    exact h.tq.tq.zero k hk _ (by omega)
  · intro k hk c hc hck
    rw [hlin, h.tq.tq.tri k hk (s.nZ + c) (by omega) (by omega)]
    exact congrArg _ (by omega)

/-- `[0 T]` times a vector -/
theorem Pos.mulT {s : QPC K} (h : s.Pos) {k : Nat} (hk : k < s.nAC) (v : Nat → K) :
    ∑ c ∈ range s.nAC, (∑ r ∈ range s.nFR, s.A (s.ac k) (s.fr r) * s.Q (s.fr r) (s.nZ + c)) * v c =
    ∑ c ∈ Ico (s.nAC - 1 - k) s.nAC, s.T k (s.sizeT - s.nAC + c) * v c := by
  rw [range_eq_Ico, ← sum_Ico_consecutive _ (Nat.zero_le _) (show s.nAC - 1 - k ≤ s.nAC by omega), sum_eq_zero, zero_add]
  · refine sum_congr rfl fun c hc => ?_
    rw [mem_Ico] at hc
    rw [h.lower k hk c hc.2 (by omega)]
  · intro c hc
    rw [mem_Ico] at hc
    rw [h.upper k hk c (by omega) (by omega), zero_mul]

theorem Pos.mulT_transposed {s : QPC K} (h : s.Pos) {c : Nat} (hc : c < s.nAC) (v : Nat → K) :
    ∑ k ∈ range s.nAC, (∑ r ∈ range s.nFR, s.A (s.ac k) (s.fr r) * s.Q (s.fr r) (s.nZ + c)) * v k =
    ∑ k ∈ Ico (s.nAC - 1 - c) s.nAC, s.T k (s.sizeT - s.nAC + c) * v k := by
  rw [range_eq_Ico, ← sum_Ico_consecutive _ (Nat.zero_le _) (show s.nAC - 1 - c ≤ s.nAC by omega), sum_eq_zero, zero_add]
  · refine sum_congr rfl fun k hk => ?_
    rw [mem_Ico] at hk
    rw [h.lower k hk.2 c hc (by omega)]
  · intro k hk
    rw [mem_Ico] at hk
    rw [h.upper k (by omega) c hc (by omega), zero_mul]

/-- The position of a column of `Q`: null space or range space. -/
theorem Pos.col {s : QPC K} (h : s.Pos) {j : Nat} (hj : j < s.nFR) : j < s.nZ ∨ ∃ c < s.nAC, j = s.nZ + c := by
  have := h.le
  have hz : s.nZ = s.nFR - s.nAC := rfl
  by_cases h1 : j < s.nZ
  · exact Or.inl h1
  · exact Or.inr ⟨j - s.nZ, by omega, by omega⟩

/-- If the projections of `v` on the null space vanish and those on the range space are those of the active rows times `dy`, then `v` is the
active rows times `dy`. -/
theorem Pos.solve {s : QPC K} (h : s.Pos) {v dy : Nat → K} (hz : ∀ a < s.nZ, ∑ r ∈ range s.nFR, s.Q (s.fr r) a * v r = 0)
    (hy : ∀ c < s.nAC, ∑ r ∈ range s.nFR, s.Q (s.fr r) (s.nZ + c) * v r =
      ∑ k ∈ range s.nAC, (∑ r ∈ range s.nFR, s.A (s.ac k) (s.fr r) * s.Q (s.fr r) (s.nZ + c)) * dy k) :
    ∀ r < s.nFR, v r = ∑ k ∈ range s.nAC, s.A (s.ac k) (s.fr r) * dy k := by
  have key := complete h.rows (v := fun r => v r - ∑ k ∈ range s.nAC, s.A (s.ac k) (s.fr r) * dy k) (by
    intro j hj
    simp only [mul_sub]
    rw [sum_sub_distrib, sum_mul_sum_comm]
    have e : ∀ k, ∑ r ∈ range s.nFR, s.Q (s.fr r) j * s.A (s.ac k) (s.fr r) = ∑ r ∈ range s.nFR, s.A (s.ac k) (s.fr r) * s.Q (s.fr r) j :=
      fun k => sum_congr rfl fun _ _ => mul_comm _ _
    simp only [e]
    rcases h.col hj with h1 | ⟨c, hc, rfl⟩
    · rw [hz j h1, sum_eq_zero, sub_zero]
      intro k hk
      rw [h.null k (mem_range.1 hk) j h1, zero_mul]
    · rw [hy c hc, sub_self])
  intro r hr
  exact sub_eq_zero.1 (key r hr)

/-- The combination of the columns of `Q` -/
def comb (s : QPC K) (z xy : Nat → K) (r : Nat) : K :=
  ∑ j ∈ range s.nAC, s.Q (s.fr r) (s.nZ + j) * xy j + ∑ j ∈ range s.nZ, s.Q (s.fr r) j * z j

theorem Pos.active {s : QPC K} (h : s.Pos) (z xy : Nat → K) {k : Nat} (hk : k < s.nAC) :
    ∑ r ∈ range s.nFR, s.A (s.ac k) (s.fr r) * s.comb z xy r =
    ∑ c ∈ Ico (s.nAC - 1 - k) s.nAC, s.T k (s.sizeT - s.nAC + c) * xy c := by
  unfold comb
  simp only [mul_add]
  rw [sum_add_distrib, sum_mul_sum_comm, sum_mul_sum_comm, h.mulT hk, add_eq_left]
  refine sum_eq_zero fun j hj => ?_
  rw [h.null k hk j (mem_range.1 hj), zero_mul]

theorem Pos.proj_null {s : QPC K} (h : s.Pos) (z xy : Nat → K) {a : Nat} (ha : a < s.nZ) :
    ∑ r ∈ range s.nFR, s.Q (s.fr r) a * s.comb z xy r = z a := by
  have hle := h.le
  have hz : s.nZ = s.nFR - s.nAC := rfl
  unfold comb
  simp only [mul_add]
  rw [sum_add_distrib, sum_mul_sum_comm, sum_mul_sum_comm, sum_eq_zero, zero_add, sum_eq_single a]
  · rw [h.cols a (by omega) a (by omega), if_pos rfl, one_mul]
  · intro b hb hne
    rw [mem_range] at hb
    rw [h.cols a (by omega) b (by omega), if_neg (fun e => hne e.symm), zero_mul]
  · intro hh; exact absurd (mem_range.2 ha) hh
  · intro b hb
    rw [mem_range] at hb
    rw [h.cols a (by omega) (s.nZ + b) (by omega), if_neg (by omega), zero_mul]

theorem Pos.proj_range {s : QPC K} (h : s.Pos) (z xy : Nat → K) {c : Nat} (hc : c < s.nAC) :
    ∑ r ∈ range s.nFR, s.Q (s.fr r) (s.nZ + c) * s.comb z xy r = xy c := by
  have hle := h.le
  have hz : s.nZ = s.nFR - s.nAC := rfl
  unfold comb
  simp only [mul_add]
  rw [sum_add_distrib, sum_mul_sum_comm, sum_mul_sum_comm, add_comm, sum_eq_zero, zero_add, sum_eq_single c]
  · rw [h.cols _ (by omega) _ (by omega), if_pos rfl, one_mul]
  · intro b hb hne
    rw [mem_range] at hb
    rw [h.cols _ (by omega) _ (by omega), if_neg (by omega), zero_mul]
  · intro hh; exact absurd (mem_range.2 hc) hh
  · intro b hb
    rw [mem_range] at hb
    rw [h.cols _ (by omega) _ (by omega), if_neg (by omega), zero_mul]

/-! ### one pass -/

/-- The Hessian of the free variables times `v` -/
def mulFF (s : QPC K) (v : Nat → K) (r : Nat) : K := ∑ c ∈ range s.nFR, s.Heff (s.fr r) (s.fr c) * v c

/-- The columns of the fixed variables times `v` -/
def mulFX (s : QPC K) (v : Nat → K) (r : Nat) : K := ∑ c ∈ range s.nFX, s.Heff (s.fr r) (s.fx c) * v c

theorem mulFF_add (s : QPC K) (u v : Nat → K) (r : Nat) : s.mulFF (fun i => u i + v i) r = s.mulFF u r + s.mulFF v r := by
  unfold mulFF
  rw [← sum_add_distrib]
  exact sum_congr rfl fun _ _ => by ring

theorem general_iff {s : QPC K} : s.general = true ↔ ¬ s.scalarH := by
  unfold general QPB.scalarH
  cases s.hessianType <;> simp

theorem mulFF_scalar {s : QPC K} (hs : s.scalarH) (hw : s.bounds.OK) (v : Nat → K) {r : Nat} (hr : r < s.nFR) : s.mulFF v r = s.scal * v r :=
  QPB.freeMul_scalar hs hw v hr

theorem mulFX_scalar {s : QPC K} (hs : s.scalarH) (hw : s.bounds.OK) (v : Nat → K) {r : Nat} (hr : r < s.nFR) : s.mulFX v r = 0 := by
  refine sum_eq_zero fun c hc => ?_
  rw [QPB.Heff_scalar hs, if_neg (show ¬ s.fr r = s.fx c from QPB.fr_ne_fx hw hr (mem_range.1 hc)), zero_mul]

/-- The Hessian used in the code -/
theorem getHess_eq {s : QPC K} {H : Nat → Nat → K} (h : s.getHess = .ok H) (hg : s.general = true) : s.H = some H ∧ ∀ i j, H i j = s.Heff i j := by
  unfold getHess at h
  rw [if_pos hg] at h
  unfold QPB.getH at h
  split at h
  · rename_i H' hH
    cases h
    exact ⟨hH, fun i j => (QPB.Heff_of_H (general_iff.1 hg) hH i j).symm⟩
  · cases h

theorem stepZ_spec {s : QPC K} (hf : s.Facs) {rg z : Nat → K} (h : s.stepZ rg = .ok (.ok z)) :
    ∀ a < s.nZ, ∑ r ∈ range s.nFR, s.Q (s.fr r) a * (rg r + s.mulFF (fun r' => ∑ j ∈ range s.nZ, s.Q (s.fr r') j * z j) r) = 0 := by
  intro a ha
  have hp := hf.pos
  have hw := hf.shape.okB
  simp only [mul_add]
  rw [sum_add_distrib]
  have hsc : s.scalarH → ∑ r ∈ range s.nFR, s.Q (s.fr r) a * s.mulFF (fun r' => ∑ j ∈ range s.nZ, s.Q (s.fr r') j * z j) r = s.scal * z a := by
    intro hs
    have e1 : ∀ r, ∑ j ∈ range s.nZ, s.Q (s.fr r) j * z j = s.comb z (fun _ => 0) r := by
      intro r
      unfold comb
      simp only [mul_zero, sum_const_zero, zero_add]
    rw [← hp.proj_null z (fun _ => 0) ha, mul_sum]
    refine sum_congr rfl fun r hr => ?_
    rw [mulFF_scalar hs hw _ (mem_range.1 hr), e1]
    ring
  have hge : s.general = true → (do
      let (r, z) ← backsolveR s.R s.nZ none true (fun i => -sumTo (fun j => s.Q (s.fr j) i * rg j) s.nFR)
      if r ≠ SUCCESSFUL_RETURN then Res.ok (Except.error RET_STEPDIRECTION_FAILED_CHOLESKY) else do
      let (r, z) ← backsolveR s.R s.nZ none false z
      if r ≠ SUCCESSFUL_RETURN then Res.ok (Except.error RET_STEPDIRECTION_FAILED_CHOLESKY) else
      Res.ok (Except.ok z)) = .ok (.ok z) → ∑ r ∈ range s.nFR, s.Q (s.fr r) a * rg r + ∑ r ∈ range s.nFR, s.Q (s.fr r) a * s.mulFF (fun r' => ∑ j ∈ range s.nZ, s.Q (s.fr r') j * z j) r = 0 := by
    intro hg h
    rw [Res.bind_eq_ok] at h
    obtain ⟨⟨r1, w⟩, h1, h⟩ := h
    dsimp only at h
    split at h
    · cases h
    rename_i hr1
    rw [Res.bind_eq_ok] at h
    obtain ⟨⟨r2, z'⟩, h2, h⟩ := h
    dsimp only at h
    split at h
    · cases h
    rename_i hr2
    cases h
    rw [not_not] at hr1 hr2
    subst hr1 hr2
    obtain ⟨H, hH, hU, _⟩ := hf.chol hg
    have hns := general_iff.1 hg
    have hHe : ∀ i j, s.Heff i j = H i j := fun i j => QPB.Heff_of_H hns hH i j
    have hsol := UpperGram.solve hU (b := fun i => -sumTo (fun j => s.Q (s.fr j) i * rg j) s.nFR) (fun i _ j _ => by
      unfold projH
      simp only [mul_sum]
      rw [sum_comm]
      refine sum_congr rfl fun i' hi' => sum_congr rfl fun j' hj' => ?_
      rw [hf.sym H hH j' (hf.shape.lt_F hj') i' (hf.shape.lt_F hi')]
      ring) (backsolveR_transposed_ok h1) (backsolveR_ok h2) a ha
    rw [sumTo_eq] at hsol
    have e2 : ∑ r ∈ range s.nFR, s.Q (s.fr r) a * s.mulFF (fun r' => ∑ j ∈ range s.nZ, s.Q (s.fr r') j * z j) r =
        ∑ j ∈ range s.nZ, projH s.F H s.Q a j * z j := by
      have e3 : ∀ j, projH s.F H s.Q a j = ∑ r ∈ range s.nFR, s.Q (s.fr r) a * ∑ r' ∈ range s.nFR, H (s.fr r) (s.fr r') * s.Q (s.fr r') j := by
        intro j
        unfold projH
        have e4 : ∀ i, ∑ i' ∈ s.F, H i i' * s.Q i' j = ∑ r' ∈ range s.nFR, H i (s.fr r') * s.Q (s.fr r') j := fun i =>
          (hw.sumFree fun i' => H i i' * s.Q i' j).symm
        simp only [e4]
        exact (hw.sumFree fun i => s.Q i a * ∑ r' ∈ range s.nFR, H i (s.fr r') * s.Q (s.fr r') j).symm
      unfold mulFF
      simp only [e3, hHe]
      rw [← sum_mul_sum_comm]
      refine sum_congr rfl fun r _ => ?_
      rw [sum_mul_sum_comm]
    rw [e2, hsol]
    exact add_neg_cancel _
  unfold stepZ at h
  dsimp only at h
  cases hI : s.hessianType
  case HST_IDENTITY =>
    rw [hI] at h
    cases h
    rw [hsc (Or.inr hI), show s.scal = 1 by unfold QPB.scal; rw [hI]; rfl, one_mul]
    beta_reduce
    rw [sumTo_eq]
    exact add_neg_cancel _
  case HST_ZERO =>
    rw [hI] at h
    dsimp only at h
    rw [hsc (Or.inl hI)]
    split at h
    · rename_i hreg
      cases h
      have hr : s.regVal ≠ 0 := by
        have : ZERO < s.regVal := by simpa [QPB.usingRegularisation] using hreg
        exact ne_of_gt (lt_trans ZERO_pos this)
      rw [show s.scal = s.regVal by unfold QPB.scal; rw [if_pos hI, if_pos hreg]]
      beta_reduce
      rw [sumTo_eq, mul_div_cancel₀ _ hr]
      exact add_neg_cancel _
    · rw [if_pos (by omega)] at h
      cases h
  all_goals
    rw [hI] at h
    dsimp only at h
    rw [if_pos (by omega)] at h
    exact hge (by unfold general; rw [hI]; rfl) h

/-- One pass solves the linear system of the working set. -/
theorem pass_spec {s : QPC K} (hf : s.Facs) {H : Nat → Nat → K} (hH : s.getHess = .ok H) {bC bB : Bool} {dxFX rg rb : Nat → K}
    (hB : bB = true → ∀ k, dxFX k = 0) (hC : bC = true → ∀ k, rb k = 0) {p : (Nat → K) × (Nat → K)}
    (h : s.pass H bC bB true dxFX rg rb = .ok (.ok p)) :
    (∀ r < s.nFR, rg r + s.mulFX dxFX r + s.mulFF p.1 r = ∑ k ∈ range s.nAC, s.A (s.ac k) (s.fr r) * p.2 k) ∧
    ∀ k < s.nAC, ∑ r ∈ range s.nFR, s.A (s.ac k) (s.fr r) * p.1 r + ∑ l ∈ range s.nFX, s.A (s.ac k) (s.fx l) * dxFX l = rb k := by
  have hp := hf.pos
  have hw := hf.shape.okB
  have hz : s.nZ = s.nFR - s.nAC := rfl
  have hle := hp.le
  unfold pass at h
  dsimp only at h
  -- the right-hand side for the active constraints
  set rb' : Nat → K := if bB = false ∧ true = true then fun i => rb i - sumTo (fun k => s.A (s.ac i) (s.fx k) * dxFX k) s.nFX else rb with hrb'
  have hrbe : ∀ k, rb' k = rb k - ∑ l ∈ range s.nFX, s.A (s.ac k) (s.fx l) * dxFX l := by
    intro k
    rw [hrb']
    split
    · beta_reduce; rw [sumTo_eq]
    · rename_i hb
      have hb : bB = true := by cases bB <;> simp_all
      rw [sum_eq_zero, sub_zero]
      intro l _
      rw [hB hb, mul_zero]
  split at h
  · cases h
  rename_i xy hxy
  have hY : ∀ k < s.nAC, ∑ c ∈ Ico (s.nAC - 1 - k) s.nAC, s.T k (s.sizeT - s.nAC + c) * xy c = rb' k := by
    intro k hk
    unfold stepY at hxy
    split at hxy
    · rcases C25_solve hp.size rb' (fun _ => (0 : K)) with ⟨a', e1, e2, _⟩ | ⟨a', i, e1, _⟩
      · rw [e1] at hxy
        simp only [ne_eq, not_true_eq_false, if_false] at hxy
        cases hxy
        exact e2 k hk
      · rw [e1] at hxy
        simp at hxy
    · rename_i hc
      cases hxy
      have hcc : bC = true ∧ bB = true := by
        by_contra hcc
        apply hc
        refine ⟨by omega, ?_⟩
        cases bC <;> cases bB <;> simp_all
      rw [hrbe, hC hcc.1, sum_eq_zero, sum_eq_zero, sub_zero]
      · intro l _; rw [hB hcc.2, mul_zero]
      · intro l _; exact mul_zero _
  have hskip : (bC = true ∧ bB = true) → ∀ c, xy c = 0 := by
    intro hcc c
    unfold stepY at hxy
    rw [if_neg (by rw [hcc.1, hcc.2]; simp)] at hxy
    cases hxy
    rfl
  by_cases h0 : s.nFR = 0
  · rw [if_pos h0] at h
    exact ⟨fun r hr => by omega, fun k hk => by omega⟩
  rw [if_neg h0, Res.bind_eq_ok] at h
  obtain ⟨o, ho, h⟩ := h
  set rg' : Nat → K := (if s.general = true ∧ 0 < s.nAC ∧ (bC = false ∨ bB = false) then fun i =>
        (if s.general = true ∧ bB = false ∧ true = true then fun i => rg i + sumTo (fun k => H (s.fr i) (s.fx k) * dxFX k) s.nFX else rg) i +
          sumTo (fun k => H (s.fr i) (s.fr k) * sumTo (fun j => s.Q (s.fr k) (s.nZ + j) * xy j) s.nAC) s.nFR
      else if s.general = true ∧ bB = false ∧ true = true then fun i => rg i + sumTo (fun k => H (s.fr i) (s.fx k) * dxFX k) s.nFX else rg) with hrg'
  set ty : Nat → K := fun i => ∑ j ∈ range s.nAC, s.Q (s.fr i) (s.nZ + j) * xy j with hty
  have hrgS : s.scalarH → ∀ r, rg' r = rg r := by
    intro hs r
    have hg : ¬ s.general = true := fun e => general_iff.1 e hs
    rw [hrg', if_neg (fun e => hg e.1), if_neg (fun e => hg e.1)]
  have hrgG : s.general = true → ∀ r, rg' r = rg r + s.mulFX dxFX r + s.mulFF ty r := by
    intro hg r
    have hHe := (getHess_eq hH hg).2
    have e1 : (if s.general = true ∧ bB = false ∧ true = true then fun i => rg i + sumTo (fun k => H (s.fr i) (s.fx k) * dxFX k) s.nFX else rg) r =
        rg r + s.mulFX dxFX r := by
      unfold mulFX
      split
      · beta_reduce; rw [sumTo_eq]; simp only [hHe]
      · rename_i hb
        have hb : bB = true := by cases bB <;> simp_all
        rw [sum_eq_zero, add_zero]
        intro l _
        rw [hB hb, mul_zero]
    rw [hrg']
    split
    · beta_reduce; rw [e1]
      unfold mulFF
      simp only [sumTo_eq, hHe, hty]
    · rename_i hb
      rw [e1]
      have : ∀ r, ty r = 0 := by
        intro r
        rw [hty]
        refine sum_eq_zero fun c hc => ?_
        rw [mem_range] at hc
        rw [hskip ?_ c, mul_zero]
        by_contra hcc
        apply hb
        refine ⟨hg, by omega, ?_⟩
        cases bC <;> cases bB <;> simp_all
      unfold mulFF
      simp only [this, mul_zero, sum_const_zero, add_zero]
  cases o with
  | error e => cases h
  | ok z =>
    have hzz := stepZ_spec hf ho
    dsimp only at h
    split at h
    · cases h
    rename_i dy hdy
    simp only [Res.ok.injEq, Except.ok.injEq] at h
    set zz : Nat → K := fun r' => ∑ j ∈ range s.nZ, s.Q (s.fr r') j * z j with hzzd
    have hp1 : p.1 = s.comb z xy := by
      rw [← h]
      funext r
      simp only [sumTo_eq]
      rfl
    have hp2 : p.2 = dy := by rw [← h]
    have hcomb : ∀ r, s.mulFF (s.comb z xy) r = s.mulFF ty r + s.mulFF zz r := fun r => mulFF_add s ty zz r
    have hdual : ∀ c < s.nAC, ∑ k ∈ range s.nAC, (∑ r ∈ range s.nFR, s.A (s.ac k) (s.fr r) * s.Q (s.fr r) (s.nZ + c)) * dy k =
        ∑ r ∈ range s.nFR, s.Q (s.fr r) (s.nZ + c) * (rg r + s.mulFX dxFX r + s.mulFF (s.comb z xy) r) := by
      intro c hc
      rw [hp.mulT_transposed hc]
      unfold stepDual at hdy
      rw [if_pos (by omega)] at hdy
      rcases C25_solve_transposed hp.size (s.rhsY H rg' xy (fun i => sumTo (fun j => s.Q (s.fr i) j * z j) s.nZ)) (fun _ => (0 : K)) with
        ⟨a', e1, e2, _⟩ | ⟨a', i, e1, _⟩
      · rw [e1] at hdy
        simp only [ne_eq, not_true_eq_false, if_false] at hdy
        cases hdy
        rw [e2 c hc]
        by_cases hs : s.scalarH
        · have hfull : ∑ r ∈ range s.nFR, s.Q (s.fr r) (s.nZ + c) * (rg r + s.mulFX dxFX r + s.mulFF (s.comb z xy) r) =
              ∑ r ∈ range s.nFR, s.Q (s.fr r) (s.nZ + c) * rg r + s.scal * xy c := by
            rw [← hp.proj_range z xy hc, mul_sum, ← sum_add_distrib]
            refine sum_congr rfl fun r hr => ?_
            rw [mem_range] at hr
            rw [mulFX_scalar hs hw _ hr, mulFF_scalar hs hw _ hr]
            ring
          rw [hfull]
          have hre : rg' = rg := funext fun r => hrgS hs r
          rw [hre]
          unfold rhsY
          rcases hs with hI | hI
          · rw [hI]
            dsimp only
            rw [sumTo_eq]
            unfold QPB.scal
            rw [if_pos hI]
            split <;> ring
          · rw [hI]
            dsimp only
            rw [sumTo_eq]
            unfold QPB.scal
            rw [hI, if_neg (by decide)]
            ring
        · have hg := general_iff.2 hs
          have hHe := (getHess_eq hH hg).2
          have : ∀ r, (if 0 < s.nZ then rg' r + sumTo (fun k => H (s.fr r) (s.fr k) * sumTo (fun j => s.Q (s.fr k) j * z j) s.nZ) s.nFR else rg' r) =
              rg r + s.mulFX dxFX r + s.mulFF (s.comb z xy) r := by
            intro r
            rw [hcomb, hrgG hg]
            split
            · simp only [sumTo_eq, hHe]
              unfold mulFF
              rw [hzzd]
              ring
            · rename_i hn
              have : ∀ r, zz r = 0 := by
                intro r
                rw [hzzd]
                refine sum_eq_zero fun j hj => ?_
                rw [mem_range] at hj
                omega
              unfold mulFF
              simp only [this, mul_zero, sum_const_zero, add_zero]
          unfold rhsY
          obtain ⟨h1, h2⟩ := QPB.not_scalar hs
          cases hI : s.hessianType
          case HST_ZERO => exact absurd hI h1
          case HST_IDENTITY => exact absurd hI h2
          all_goals
            dsimp only
            rw [sumTo_eq]
            exact sum_congr rfl fun r _ => by rw [this r]
      · rw [e1] at hdy
        simp at hdy
    refine ⟨?_, ?_⟩
    · rw [hp1, hp2]
      refine hp.solve ?_ (fun c hc => (hdual c hc).symm)
      intro a ha
      by_cases hs : s.scalarH
      · have e1 := hzz a ha
        rw [← e1]
        have e3 : ∀ r, zz r = s.comb z (fun _ => 0) r := by
          intro r
          unfold comb
          simp only [mul_zero, sum_const_zero, zero_add]
          rfl
        have f1 := hp.proj_null z xy ha
        have f2 := hp.proj_null z (fun _ => 0) ha
        have g1 : ∑ r ∈ range s.nFR, s.Q (s.fr r) a * (rg r + s.mulFX dxFX r + s.mulFF (s.comb z xy) r) =
            ∑ r ∈ range s.nFR, s.Q (s.fr r) a * rg r + s.scal * z a := by
          rw [← f1, mul_sum, ← sum_add_distrib]
          refine sum_congr rfl fun r hr => ?_
          rw [mem_range] at hr
          rw [mulFX_scalar hs hw _ hr, mulFF_scalar hs hw _ hr]
          ring
        have g2 : ∑ r ∈ range s.nFR, s.Q (s.fr r) a * (rg' r + s.mulFF zz r) = ∑ r ∈ range s.nFR, s.Q (s.fr r) a * rg r + s.scal * z a := by
          rw [← f2, mul_sum, ← sum_add_distrib]
          refine sum_congr rfl fun r hr => ?_
          rw [mem_range] at hr
          rw [hrgS hs, mulFF_scalar hs hw _ hr, e3]
          ring
        rw [g1, ← g2]
      · have e1 := hzz a ha
        rw [← e1]
        refine sum_congr rfl fun r _ => ?_
        rw [hrgG (general_iff.2 hs), hcomb]
        ring
    · intro k hk
      rw [hp1, hp.active z xy hk, hY k hk, hrbe]
      ring

/-! ### the step direction -/

theorem maxAbs_zero {v : Nat → K} : ∀ {n : Nat}, (∀ i < n, v i = 0) → QPB.maxAbs v n = 0 := by
  intro n
  unfold QPB.maxAbs
  induction n with
  | zero => intro _; rfl
  | succ n ih =>
    intro h
    rw [loop, ih fun i hi => h i (by omega), h n (by omega)]
    unfold getAbs
    simp

theorem residualG_eq {s : QPC K} (hw : s.bounds.OK) {H : Nat → Nat → K} (hH : s.getHess = .ok H) (dg dxFX d dy : Nat → K) {r : Nat} (hr : r < s.nFR) :
    s.residualG H dg dxFX d dy r = dg (s.fr r) + s.mulFX dxFX r + s.mulFF d r - ∑ k ∈ range s.nAC, s.A (s.ac k) (s.fr r) * dy k := by
  unfold residualG
  dsimp only
  rw [sumTo_eq (fun k => s.A (s.ac k) (s.fr r) * dy k)]
  congr 1
  have hother : s.general = true → dg (s.fr r) + (sumTo (fun k => H (s.fr r) (s.fr k) * d k) s.nFR + sumTo (fun k => H (s.fr r) (s.fx k) * dxFX k) s.nFX) =
      dg (s.fr r) + s.mulFX dxFX r + s.mulFF d r := by
    intro hg
    have hHe := (getHess_eq hH hg).2
    unfold mulFX mulFF
    simp only [sumTo_eq, hHe]
    ring
  cases hI : s.hessianType
  case HST_ZERO =>
    have hs : s.scalarH := Or.inl hI
    rw [mulFX_scalar hs hw _ hr, mulFF_scalar hs hw _ hr]
    unfold QPB.scal
    rw [if_pos hI]
    dsimp only
    split <;> ring
  case HST_IDENTITY =>
    have hs : s.scalarH := Or.inr hI
    rw [mulFX_scalar hs hw _ hr, mulFF_scalar hs hw _ hr]
    unfold QPB.scal
    rw [hI, if_neg (show ¬ HST_IDENTITY = HST_ZERO by decide)]
    ring
  all_goals exact hother (by unfold general; rw [hI]; rfl)

theorem dirYFX_eq {s : QPC K} (hw : s.bounds.OK) {H : Nat → Nat → K} (hH : s.getHess = .ok H) (dg dxFX d dy : Nat → K) {l : Nat} (hl : l < s.nFX) :
    s.dirYFX H dg dxFX d dy l = dg (s.fx l) + (∑ c ∈ range s.nFR, s.Heff (s.fx l) (s.fr c) * d c + ∑ c ∈ range s.nFX, s.Heff (s.fx l) (s.fx c) * dxFX c) -
      ∑ k ∈ range s.nAC, s.A (s.ac k) (s.fx l) * dy k := by
  unfold dirYFX
  dsimp only
  rw [sumTo_eq (fun k => s.A (s.ac k) (s.fx l) * dy k)]
  have hsc : s.scalarH → ∑ c ∈ range s.nFR, s.Heff (s.fx l) (s.fr c) * d c + ∑ c ∈ range s.nFX, s.Heff (s.fx l) (s.fx c) * dxFX c = s.scal * dxFX l := by
    intro hs
    rw [sum_eq_zero, zero_add, sum_eq_single l, QPB.Heff_scalar hs, if_pos rfl]
    · intro c hc hne
      rw [QPB.Heff_scalar hs, if_neg (show ¬ s.fx l = s.fx c from fun e => hne (QPB.fx_inj hw hl (mem_range.1 hc) e).symm), zero_mul]
    · intro h; exact absurd (mem_range.2 hl) h
    · intro c hc
      rw [QPB.Heff_scalar hs, if_neg (show ¬ s.fx l = s.fr c from fun e => QPB.fr_ne_fx hw (mem_range.1 hc) hl e.symm), zero_mul]
  have hother : s.general = true → dg (s.fx l) - ∑ k ∈ range s.nAC, s.A (s.ac k) (s.fx l) * dy k +
      (sumTo (fun k => H (s.fx l) (s.fr k) * d k) s.nFR + sumTo (fun k => H (s.fx l) (s.fx k) * dxFX k) s.nFX) =
      dg (s.fx l) + (∑ c ∈ range s.nFR, s.Heff (s.fx l) (s.fr c) * d c + ∑ c ∈ range s.nFX, s.Heff (s.fx l) (s.fx c) * dxFX c) -
      ∑ k ∈ range s.nAC, s.A (s.ac k) (s.fx l) * dy k := by
    intro hg
    have hHe := (getHess_eq hH hg).2
    simp only [sumTo_eq, hHe]
    ring
  cases hI : s.hessianType
  case HST_ZERO =>
    rw [hsc (Or.inl hI)]
    unfold QPB.scal
    rw [if_pos hI]
    dsimp only
    split <;> ring
  case HST_IDENTITY =>
    rw [hsc (Or.inr hI)]
    unfold QPB.scal
    rw [hI, if_neg (show ¬ HST_IDENTITY = HST_ZERO by decide)]
    ring
  all_goals exact hother (by unfold general; rw [hI]; rfl)

theorem dirX_fr {s : QPC K} (hw : s.bounds.OK) (d : Dir K) {k : Nat} (hk : k < s.nFR) : s.dirX d (s.fr k) = d.xFR k := by
  unfold dirX
  rw [show s.fr k = s.bounds.fr k from rfl, if_pos (List.contains_iff_mem.2 (WS.fr_mem hk))]
  exact congrArg _ (hw.idxOf_fr hk)

theorem dirX_fx {s : QPC K} (hw : s.bounds.OK) (d : Dir K) {k : Nat} (hk : k < s.nFX) : s.dirX d (s.fx k) = d.xFX k := by
  unfold dirX
  rw [show s.fx k = s.bounds.fx k from rfl, if_neg (fun h => hw.disjoint (List.contains_iff_mem.1 h) (WS.fx_mem hk)), if_pos (List.contains_iff_mem.2 (WS.fx_mem hk))]
  exact congrArg _ (hw.idxOf_fx hk)

/-- Step of the multipliers of the bounds -/
def dirY (s : QPC K) (d : Dir K) : Nat → K := s.bounds.scatter (fun _ => 0) d.yFX
/-- Step of the multipliers of the constraints -/
def dirYC (s : QPC K) (d : Dir K) : Nat → K := s.cons.scatter (fun _ => 0) d.yAC

/-- The step direction solves the linear system of the working set: stationarity is kept, active members move with their limits. -/
structure DirOK (s : QPC K) (h : Shift K) (bC bB : Bool) (d : Dir K) : Prop where
  stat : ∀ i < s.nV, ∑ j ∈ range s.nV, s.Heff i j * s.dirX d j + h.g i = s.dirY d i + ∑ k ∈ range s.nC, s.A k i * s.dirYC d k
  bounds : ∀ k < s.nFX, d.xFX k = s.dirFX h.lb h.ub bB k
  cons : ∀ k < s.nAC, s.dirAx d (s.ac k) = s.shiftAC h.lbA h.ubA bC k

theorem determineStepDirection_spec {s : QPC K} (hf : s.Facs) (hO : 0 < s.options.epsIterRef ∨ s.options.numRefinementSteps ≤ 0)
    (hO' : 0 ≤ s.options.numRefinementSteps) (h : Shift K) (bC bB : Bool) {d : Dir K}
    (hd : s.determineStepDirection h.g h.lbA h.ubA h.lb h.ub bC bB = .ok (.ok d)) : s.DirOK h bC bB d := by
  have hw := hf.shape.okB
  unfold determineStepDirection at hd
  rw [Res.bind_eq_ok] at hd
  obtain ⟨H, hH, hd⟩ := hd
  dsimp only at hd
  rw [Res.bind_eq_ok] at hd
  obtain ⟨o, ho, hd⟩ := hd
  cases o with
  | error r => cases hd
  | ok p =>
    simp only [Res.ok.injEq, Except.ok.injEq] at hd
    have key : ∃ q, s.pass H bC bB true (s.dirFX h.lb h.ub bB) (fun i => h.g (s.fr i)) (s.shiftAC h.lbA h.ubA bC) = .ok (.ok q) ∧ p = q := by
      have hm : ∃ m, (s.options.numRefinementSteps + 1).toNat = m + 1 := ⟨s.options.numRefinementSteps.toNat, by omega⟩
      obtain ⟨m, hm'⟩ := hm
      rw [hm', refine, Res.bind_eq_ok] at ho
      obtain ⟨o1, ho1, ho⟩ := ho
      cases o1 with
      | error r => cases ho
      | ok q =>
        refine ⟨q, ho1, ?_⟩
        obtain ⟨h1, h2⟩ := pass_spec hf hH (fun hb k => by unfold dirFX; rw [if_pos hb]) (fun hb k => by unfold shiftAC; rw [if_pos hb]) ho1
        dsimp only at ho
        simp only [zero_add] at ho
        split at ho
        · rename_i hn
          rw [if_pos] at ho
          · cases ho; rfl
          · have e1 : QPB.maxAbs (s.residualG H h.g (s.dirFX h.lb h.ub bB) q.1 q.2) s.nFR = 0 := maxAbs_zero fun r hr => by
              rw [residualG_eq hw hH _ _ _ _ hr]
              have := h1 r hr
              rw [this, sub_self]
            have e2 : QPB.maxAbs (s.residualB (s.shiftAC h.lbA h.ubA bC) (s.dirFX h.lb h.ub bB) q.1) s.nAC = 0 := maxAbs_zero fun k hk => by
              unfold residualB
              rw [sumTo_eq, sumTo_eq, ← h2 k hk]
              ring
            have e3 : getMax (0:K) 0 = 0 := by unfold getMax; simp
            have e1' : QPB.maxAbs (s.residualG H h.g (s.dirFX h.lb h.ub bB) (fun i => q.1 i) (fun i => q.2 i)) s.nFR = 0 := e1
            have e2' : QPB.maxAbs (s.residualB (s.shiftAC h.lbA h.ubA bC) (s.dirFX h.lb h.ub bB) (fun i => q.1 i)) s.nAC = 0 := e2
            rw [e1', e2', e3]
            rcases hO with hO | hO
            · exact hO
            · omega
        · have : m = 0 := by omega
          subst this
          rw [refine] at ho
          cases ho
          rfl
    obtain ⟨q, hq, rfl⟩ := key
    obtain ⟨h1, h2⟩ := pass_spec hf hH (fun hb k => by unfold dirFX; rw [if_pos hb]) (fun hb k => by unfold shiftAC; rw [if_pos hb]) hq
    have exX : d.xFX = s.dirFX h.lb h.ub bB := by rw [← hd]
    have exR : d.xFR = p.1 := by rw [← hd]
    have exA : d.yAC = p.2 := by rw [← hd]
    have exY : d.yFX = s.dirYFX H h.g (s.dirFX h.lb h.ub bB) p.1 p.2 := by rw [← hd]
    have hsumX : ∀ f : Nat → K, ∑ j ∈ range s.nV, f j * s.dirX d j =
        ∑ c ∈ range s.nFR, f (s.fr c) * p.1 c + ∑ c ∈ range s.nFX, f (s.fx c) * s.dirFX h.lb h.ub bB c := by
      intro f
      rw [← hf.shape.nB, hw.sum]
      congr 1
      · refine sum_congr rfl fun c hc => ?_
        have := dirX_fr hw d (mem_range.1 hc)
        rw [exR] at this
        rw [← this]
        rfl
      · refine sum_congr rfl fun c hc => ?_
        have := dirX_fx hw d (mem_range.1 hc)
        rw [exX] at this
        rw [← this]
        rfl
    have hsumC : ∀ f : Nat → K, ∑ k ∈ range s.nC, f k * s.dirYC d k = ∑ c ∈ range s.nAC, f (s.ac c) * p.2 c := by
      intro f
      rw [← hf.shape.nC, hf.shape.okC.sum]
      rw [show ∑ c ∈ range s.cons.nFR, f (s.cons.fr c) * s.dirYC d (s.cons.fr c) = 0 from sum_eq_zero fun c hc => by
        unfold dirYC; rw [hf.shape.okC.scatter_fr _ _ (mem_range.1 hc), mul_zero], zero_add]
      refine sum_congr rfl fun c hc => ?_
      unfold dirYC
      rw [hf.shape.okC.scatter_fx _ _ (mem_range.1 hc), exA]
      rfl
    refine ⟨fun i hi => ?_, fun k _ => by rw [exX], fun k hk => ?_⟩
    · rw [hsumX, hsumC]
      rw [← hf.shape.nB] at hi
      rcases hw.mem_iff.1 hi with hm | hm
      · have hk := WS.idxOf_fr_lt hm
        have hik := WS.fr_idxOf hm
        set k := s.bounds.free.idxOf i
        rw [← hik]
        have := h1 k hk
        unfold dirY
        rw [hw.scatter_fr _ _ hk, zero_add]
        unfold mulFX mulFF at this
        rw [show s.bounds.fr k = s.fr k from rfl, ← this]
        ring
      · have hk := WS.idxOf_fx_lt hm
        have hik := WS.fx_idxOf hm
        set k := s.bounds.fixed.idxOf i
        rw [← hik]
        unfold dirY
        rw [hw.scatter_fx _ _ hk, exY, dirYFX_eq hw hH _ _ _ _ hk]
        rw [show s.bounds.fx k = s.fx k from rfl]
        ring
    · unfold dirAx prodA
      rw [sumTo_eq, hsumX, ← h2 k hk]

end QPC
end QpOASES
