import Verif.Proofs.QPBFactor

/-!
Step direction of the bound-constrained solver.
-/
namespace QpOASES
open Finset Props SubjectToStatus SubjectToType ReturnValue HessianType QProblemStatus

variable {K : Type} [Field K] [LinearOrder K] [IsStrictOrderedRing K]

namespace QPB

/-- The matrix of the free variables times `d`. -/
def freeMul (s : QPB K) (d : Nat → K) (r : Nat) : K :=
  ∑ c ∈ range s.bounds.nFR, s.Heff (s.bounds.fr r) (s.bounds.fr c) * d c

/-- Solving with the factor, first transposed, then not. -/
theorem solve2 {s : QPB K} (hF : s.Factor) (hw : s.bounds.OK) (hn : s.bounds.n = s.nV)
    (hsym : Spec.QP.Symmetric s.nV s.Heff) (res : Nat → K) :
    (∃ w, backsolveR s.R s.bounds.nFR none true res = .ok (RET_DIV_BY_ZERO, w)) ∨
    (∃ w d, backsolveR s.R s.bounds.nFR none true res = .ok (SUCCESSFUL_RETURN, w) ∧
      backsolveR s.R s.bounds.nFR none false w = .ok (RET_DIV_BY_ZERO, d)) ∨
    (∃ w d, backsolveR s.R s.bounds.nFR none true res = .ok (SUCCESSFUL_RETURN, w) ∧
      backsolveR s.R s.bounds.nFR none false w = .ok (SUCCESSFUL_RETURN, d) ∧
      ∀ r < s.bounds.nFR, s.freeMul d r = res r) := by
  obtain ⟨hg, hd⟩ := hF.gram hw hn
  rcases C24_solve_transposed_partial hd.ne_zero none res with ⟨w, h1, h2, _⟩ | ⟨w, _, h1, _⟩
  · rcases C24_solve_partial hd.ne_zero none w with ⟨d, h3, h4, _⟩ | ⟨d, _, h3, _⟩
    · refine Or.inr (Or.inr ⟨w, d, h1, h3, ?_⟩)
      refine UpperGram.solve hg (fun i hi j hj => ?_) h2 h4
      refine hsym _ ?_ _ ?_
      · rw [← hn]; exact hw.fr_lt hi
      · rw [← hn]; exact hw.fr_lt hj
    · exact Or.inr (Or.inl ⟨w, d, h1, h3⟩)
  · exact Or.inl ⟨w, h1⟩

theorem freeMul_add {s : QPB K} (d e f : Nat → K) (h : ∀ c < s.bounds.nFR, f c = d c + e c) (r : Nat) :
    s.freeMul f r = s.freeMul d r + s.freeMul e r := by
  unfold freeMul
  rw [← sum_add_distrib]
  refine sum_congr rfl fun c hc => ?_
  rw [h c (mem_range.1 hc), mul_add]

theorem fr_ne_fx {w : WS} (hw : w.OK) {r k : Nat} (hr : r < w.nFR) (hk : k < w.nFX) : w.fr r ≠ w.fx k :=
  fun e => hw.disjoint (WS.fr_mem hr) (e ▸ WS.fx_mem hk)

theorem fx_inj {w : WS} (hw : w.OK) {k l : Nat} (hk : k < w.nFX) (hl : l < w.nFX) (e : w.fx k = w.fx l) : k = l := by
  rw [← hw.idxOf_fx hk, ← hw.idxOf_fx hl, e]

theorem freeMul_scalar {s : QPB K} (hs : s.scalarH) (hw : s.bounds.OK) (d : Nat → K) {r : Nat} (hr : r < s.bounds.nFR) :
    s.freeMul d r = s.scal * d r := by
  unfold freeMul
  rw [sum_eq_single r]
  · rw [Heff_scalar hs, if_pos rfl]
  · intro c hc hne
    rw [Heff_scalar hs, if_neg (fun e => hne (hw.fr_inj hr (mem_range.1 hc) e).symm), zero_mul]
  · intro h; exact absurd (mem_range.2 hr) h

/-- Right-hand side of the system for the free variables. -/
def rhs (s : QPB K) (dg dxFX : Nat → K) (r : Nat) : K :=
  -dg (s.bounds.fr r) - ∑ k ∈ range s.bounds.nFX, s.Heff (s.bounds.fr r) (s.bounds.fx k) * dxFX k

theorem rhs_scalar {s : QPB K} (hs : s.scalarH) (hw : s.bounds.OK) (dg dxFX : Nat → K) {r : Nat} (hr : r < s.bounds.nFR) :
    s.rhs dg dxFX r = -dg (s.bounds.fr r) := by
  unfold rhs
  rw [sum_eq_zero, sub_zero]
  intro k hk
  rw [Heff_scalar hs, if_neg (fr_ne_fx hw hr (mem_range.1 hk)), zero_mul]

theorem rhs_zero {s : QPB K} (dg dxFX : Nat → K) (h : ∀ k, dxFX k = 0) (r : Nat) :
    s.rhs dg dxFX r = -dg (s.bounds.fr r) := by
  unfold rhs
  rw [sum_eq_zero, sub_zero]
  intro k _
  rw [h, mul_zero]

/-- The first pass subtracts the contribution of the fixed variables. -/
def adjusted (s : QPB K) (H : Nat → Nat → K) (isZero first : Bool) (dxFX res : Nat → K) : Nat → K :=
  if s.hessianType ≠ HST_ZERO ∧ s.hessianType ≠ HST_IDENTITY ∧ isZero = false ∧ first = true then
    fun i => if i < s.bounds.nFR then res i - sumTo (fun k => H (s.bounds.fr i) (s.bounds.fx k) * dxFX k) s.bounds.nFX else res i
  else res

theorem refine_spec {s : QPB K} (hF : s.Factor) (hw : s.bounds.OK) (hn : s.bounds.n = s.nV)
    (hsym : Spec.QP.Symmetric s.nV s.Heff) {H : Nat → Nat → K} (hH : ¬ s.scalarH → ∀ i j, H i j = s.Heff i j)
    (hO : s.hessianType = HST_ZERO → 0 < s.options.epsIterRef ∨ s.options.numRefinementSteps ≤ 0)
    (dg : Nat → K) (isZero : Bool) (dxFX : Nat → K) :
    ∀ m first res d, (s.options.numRefinementSteps ≤ 0 → m ≤ 1) →
      (m = 0 → ∀ r < s.bounds.nFR, s.freeMul d r = s.rhs dg dxFX r) →
      (∀ r < s.bounds.nFR, s.adjusted H isZero first dxFX res r + s.freeMul d r = s.rhs dg dxFX r) →
      ∃ o, refine s H dg isZero dxFX m first res d = .ok o ∧
        ∀ d', o = some d' → ∀ r < s.bounds.nFR, s.freeMul d' r = s.rhs dg dxFX r := by
  intro m
  induction m with
  | zero =>
    intro first res d _ h0 _
    exact ⟨_, rfl, fun d' e => by rw [← Option.some.inj e]; exact h0 rfl⟩
  | succ m ih =>
    intro first res d hm _ hr
    rw [refine]
    dsimp only
    have ea : (if s.hessianType ≠ HST_ZERO ∧ s.hessianType ≠ HST_IDENTITY ∧ isZero = false ∧ first = true then
        fun i => if i < s.bounds.nFR then res i - sumTo (fun k => H (s.bounds.fr i) (s.bounds.fx k) * dxFX k) s.bounds.nFX else res i
      else res) = s.adjusted H isZero first dxFX res := rfl
    rw [ea]
    rcases solve2 hF hw hn hsym (s.adjusted H isZero first dxFX res) with ⟨w, h1⟩ | ⟨w, e, h1, h2⟩ | ⟨w, e, h1, h2, h3⟩
    · rw [h1]
      simp only [Res.bind_ok]
      rw [if_pos (by simp)]
      exact ⟨_, rfl, fun d' h => by cases h⟩
    · rw [h1]
      simp only [Res.bind_ok]
      rw [if_neg (by simp), h2]
      simp only [Res.bind_ok]
      rw [if_pos (by simp)]
      exact ⟨_, rfl, fun d' h => by cases h⟩
    · rw [h1]
      simp only [Res.bind_ok]
      rw [if_neg (by simp), h2]
      simp only [Res.bind_ok]
      rw [if_neg (by simp)]
      set dn : Nat → K := fun i => if i < s.bounds.nFR then d i + e i else d i with hdn
      have hsol : ∀ r < s.bounds.nFR, s.freeMul dn r = s.rhs dg dxFX r := by
        intro r hr'
        rw [freeMul_add d e dn (fun c hc => by rw [hdn]; beta_reduce; rw [if_pos hc]), h3 r hr', add_comm]
        exact hr r hr'
      by_cases hnum : s.options.numRefinementSteps > 0
      · rw [if_pos hnum]
        have hfin : ∀ (res' : Nat → K), (s.hessianType ≠ HST_ZERO → ∀ r < s.bounds.nFR, res' r = 0) →
            ∃ o, (if (if s.hessianType = HST_ZERO then 0 else maxAbs res' s.bounds.nFR) < s.options.epsIterRef then
              Res.ok (some dn) else refine s H dg isZero dxFX m false res' dn) = Res.ok o ∧
              ∀ d', o = some d' → ∀ r < s.bounds.nFR, s.freeMul d' r = s.rhs dg dxFX r := by
          intro res' hres
          by_cases hz : s.hessianType = HST_ZERO
          · rw [if_pos hz]
            rcases hO hz with h | h
            · rw [if_pos h]
              exact ⟨_, rfl, fun d' e => by rw [← Option.some.inj e]; exact hsol⟩
            · omega
          · rw [if_neg hz]
            split
            · exact ⟨_, rfl, fun d' e => by rw [← Option.some.inj e]; exact hsol⟩
            · apply ih
              · intro h; omega
              · exact fun _ => hsol
              · intro r hr'
                have : s.adjusted H isZero false dxFX res' = res' := by
                  unfold adjusted; rw [if_neg (by simp)]
                rw [this, hres hz r hr', zero_add]
                exact hsol r hr'
        apply hfin
        intro hz r hr'
        have hother : ¬ s.scalarH → (if r < s.bounds.nFR then (if r < s.bounds.nFR then -dg (s.bounds.fr r) else e r) -
              sumTo (fun k => H (s.bounds.fr r) (s.bounds.fr k) * dn k) s.bounds.nFR -
              sumTo (fun k => H (s.bounds.fr r) (s.bounds.fx k) * dxFX k) s.bounds.nFX
            else if r < s.bounds.nFR then -dg (s.bounds.fr r) else e r) = 0 := by
          intro hs
          rw [if_pos hr', if_pos hr', sumTo_eq, sumTo_eq]
          have h4 := hsol r hr'
          unfold freeMul rhs at h4
          simp only [hH hs]
          rw [h4]
          ring
        have hns : ∀ t, s.hessianType = t → t ≠ HST_IDENTITY → ¬ s.scalarH := by
          intro t ht hne h
          rcases h with h | h
          · exact hz h
          · exact hne (ht.symm.trans h)
        cases hI : s.hessianType
        case HST_ZERO => exact absurd hI hz
        case HST_IDENTITY =>
          have hs : s.scalarH := Or.inr hI
          dsimp only
          rw [if_pos hr', if_pos hr', if_pos hr']
          have h4 := hsol r hr'
          rw [freeMul_scalar hs hw _ hr', rhs_scalar hs hw _ _ hr'] at h4
          have h1 : s.scal = 1 := by unfold scal; rw [if_neg hz]
          have h5 : dn r = d r + e r := by rw [hdn]; beta_reduce; rw [if_pos hr']
          rw [h1, one_mul, h5] at h4
          rw [h4]
          ring
        all_goals exact hother (hns _ hI (by decide))
      · rw [if_neg hnum]
        have := hm (by omega)
        have h0 : m = 0 := by omega
        subst h0
        exact ⟨_, rfl, fun d' e => by rw [← Option.some.inj e]; exact hsol⟩

/-- Step direction of the variables and of their multipliers. -/
def dirX (s : QPB K) (d : Dir K) : Nat → K := s.bounds.scatter d.xFR d.xFX
def dirY (s : QPB K) (d : Dir K) : Nat → K := s.bounds.scatter (fun _ => 0) d.yFX

/-- The direction satisfies the linear optimality conditions of the working set. -/
structure DirOK (s : QPB K) (dg dlb dub : Nat → K) (isZero : Bool) (d : Dir K) : Prop where
  stat : ∀ i < s.nV, ∑ j ∈ range s.nV, s.Heff i j * s.dirX d j + dg i = s.dirY d i
  active : ∀ k < s.bounds.nFX, d.xFX k = if isZero then 0 else
    if s.bounds.status (s.bounds.fx k) = ST_LOWER then dlb (s.bounds.fx k) else dub (s.bounds.fx k)

theorem determineStepDirection_spec {s : QPB K} (hF : s.Factor) (hw : s.bounds.OK) (hn : s.bounds.n = s.nV)
    (hsym : Spec.QP.Symmetric s.nV s.Heff)
    (hO : s.hessianType = HST_ZERO → 0 < s.options.epsIterRef ∨ s.options.numRefinementSteps ≤ 0)
    (hO' : 0 ≤ s.options.numRefinementSteps) (dg dlb dub : Nat → K) (isZero : Bool) :
    ∃ o, determineStepDirection s dg dlb dub isZero = .ok o ∧ ∀ d, o = some d → DirOK s dg dlb dub isZero d := by
  unfold determineStepDirection
  dsimp only
  set dxFX : Nat → K := fun i => if isZero = true then 0 else
    if s.bounds.getStatus (s.bounds.fx i) = ST_LOWER then dlb (s.bounds.fx i) else dub (s.bounds.fx i) with hdx
  suffices key : ∀ H : Nat → Nat → K, (¬ s.scalarH → ∀ i j, H i j = s.Heff i j) →
      ∃ o, (do
        let o ← refine s H dg isZero dxFX (s.options.numRefinementSteps + 1).toNat true (fun i => -dg (s.bounds.fr i)) (fun _ => 0)
        match o with
        | none => Res.ok none
        | some dxFR =>
          let dyFX : Nat → K := match s.hessianType with
            | HST_ZERO => fun i => if s.usingRegularisation then dg (s.bounds.fx i) + s.regVal * dxFX i else dg (s.bounds.fx i)
            | HST_IDENTITY => fun i => dg (s.bounds.fx i) + dxFX i
            | _ => fun i =>
              let v := dg (s.bounds.fx i) + sumTo (fun k => H (s.bounds.fx i) (s.bounds.fr k) * dxFR k) s.bounds.nFR
              if isZero then v else v + sumTo (fun k => H (s.bounds.fx i) (s.bounds.fx k) * dxFX k) s.bounds.nFX
          Res.ok (some (Dir.mk dxFX dxFR dyFX))) = .ok o ∧ ∀ d, o = some d → DirOK s dg dlb dub isZero d by
    by_cases hs : s.scalarH
    · rw [if_pos (show s.hessianType = HST_ZERO ∨ s.hessianType = HST_IDENTITY from hs)]
      exact key _ fun h => absurd hs h
    · obtain ⟨H, hH⟩ := Option.ne_none_iff_exists'.1 (hF.stored hs).1
      rw [if_neg (show ¬ (s.hessianType = HST_ZERO ∨ s.hessianType = HST_IDENTITY) from hs)]
      have hg : s.getH = .ok H := by unfold getH; rw [hH]
      rw [hg]
      exact key H fun _ i j => (Heff_of_H hs hH i j).symm
  intro H hH
  have hrun := refine_spec hF hw hn hsym hH hO dg isZero dxFX (s.options.numRefinementSteps + 1).toNat true
    (fun i => -dg (s.bounds.fr i)) (fun _ => 0) (by intro h; omega) (by intro h; omega) (by
      intro r hr
      have h0 : s.freeMul (fun _ => (0 : K)) r = 0 := by
        unfold freeMul; exact sum_eq_zero fun _ _ => mul_zero _
      rw [h0, add_zero]
      unfold adjusted
      split
      · rename_i hc
        beta_reduce
        rw [if_pos hr, sumTo_eq]
        have hs : ¬ s.scalarH := by
          rintro (h | h)
          · exact hc.1 h
          · exact hc.2.1 h
        unfold rhs
        simp only [hH hs]
      · rename_i hc
        by_cases hs : s.scalarH
        · rw [rhs_scalar hs hw _ _ hr]
        · obtain ⟨h1, h2⟩ := not_scalar hs
          have hz : isZero = true := by
            cases isZero
            · exact absurd ⟨h1, h2, rfl, rfl⟩ hc
            · rfl
          rw [rhs_zero _ _ (fun k => by rw [hdx]; beta_reduce; rw [if_pos hz])])
  obtain ⟨o, ho, hd⟩ := hrun
  rw [ho]
  simp only [Res.bind_ok]
  cases o with
  | none => exact ⟨_, rfl, fun d h => by cases h⟩
  | some dxFR =>
    refine ⟨_, rfl, fun d h => ?_⟩
    have hsol := hd dxFR rfl
    have h := Option.some.inj h
    have ex : d.xFX = dxFX := by rw [← h]
    have er : d.xFR = dxFR := by rw [← h]
    have ey : ∀ k < s.bounds.nFX, d.yFX k = dg (s.bounds.fx k) +
        (∑ c ∈ range s.bounds.nFR, s.Heff (s.bounds.fx k) (s.bounds.fr c) * dxFR c +
        ∑ c ∈ range s.bounds.nFX, s.Heff (s.bounds.fx k) (s.bounds.fx c) * dxFX c) := by
      intro k hk
      rw [← h]
      dsimp only
      have hsc : s.scalarH → ∑ c ∈ range s.bounds.nFR, s.Heff (s.bounds.fx k) (s.bounds.fr c) * dxFR c +
          ∑ c ∈ range s.bounds.nFX, s.Heff (s.bounds.fx k) (s.bounds.fx c) * dxFX c = s.scal * dxFX k := by
        intro hs
        rw [sum_eq_zero, zero_add, sum_eq_single k, Heff_scalar hs, if_pos rfl]
        · intro c hc hne
          rw [Heff_scalar hs, if_neg (fun e => hne (fx_inj hw hk (mem_range.1 hc) e).symm), zero_mul]
        · intro h; exact absurd (mem_range.2 hk) h
        · intro c hc
          rw [Heff_scalar hs, if_neg (fun e => fr_ne_fx hw (mem_range.1 hc) hk e.symm), zero_mul]
      have hother : ¬ s.scalarH → (if isZero = true then
            dg (s.bounds.fx k) + sumTo (fun c => H (s.bounds.fx k) (s.bounds.fr c) * dxFR c) s.bounds.nFR
          else dg (s.bounds.fx k) + sumTo (fun c => H (s.bounds.fx k) (s.bounds.fr c) * dxFR c) s.bounds.nFR +
            sumTo (fun c => H (s.bounds.fx k) (s.bounds.fx c) * dxFX c) s.bounds.nFX) =
          dg (s.bounds.fx k) + (∑ c ∈ range s.bounds.nFR, s.Heff (s.bounds.fx k) (s.bounds.fr c) * dxFR c +
            ∑ c ∈ range s.bounds.nFX, s.Heff (s.bounds.fx k) (s.bounds.fx c) * dxFX c) := by
        intro hs
        rw [sumTo_eq, sumTo_eq]
        simp only [hH hs]
        split
        · rename_i hzz
          rw [show ∑ c ∈ range s.bounds.nFX, s.Heff (s.bounds.fx k) (s.bounds.fx c) * dxFX c = 0 from
            sum_eq_zero fun c _ => by rw [hdx]; beta_reduce; rw [if_pos hzz, mul_zero]]
          ring
        · ring
      have hns : ∀ t, s.hessianType = t → t ≠ HST_IDENTITY → t ≠ HST_ZERO → ¬ s.scalarH := by
        intro t ht h1 h2 h
        rcases h with h | h
        · exact h2 (ht.symm.trans h)
        · exact h1 (ht.symm.trans h)
      cases hI : s.hessianType
      case HST_ZERO =>
        rw [hsc (Or.inl hI)]
        unfold scal
        rw [if_pos hI]
        dsimp only
        split
        · ring
        · ring
      case HST_IDENTITY =>
        rw [hsc (Or.inr hI)]
        unfold scal
        rw [hI, if_neg (by decide)]
        dsimp only
        ring
      all_goals exact hother (hns _ hI (by decide) (by decide))
    refine ⟨fun i hi => ?_, fun k hk => ?_⟩
    · rw [← hn] at hi ⊢
      rw [hw.sum]
      have e1 : ∑ k ∈ range s.bounds.nFR, s.Heff i (s.bounds.fr k) * s.dirX d (s.bounds.fr k) =
          ∑ k ∈ range s.bounds.nFR, s.Heff i (s.bounds.fr k) * dxFR k := by
        refine sum_congr rfl fun k hk => ?_
        unfold dirX
        rw [hw.scatter_fr _ _ (mem_range.1 hk), er]
      have e2 : ∑ k ∈ range s.bounds.nFX, s.Heff i (s.bounds.fx k) * s.dirX d (s.bounds.fx k) =
          ∑ k ∈ range s.bounds.nFX, s.Heff i (s.bounds.fx k) * dxFX k := by
        refine sum_congr rfl fun k hk => ?_
        unfold dirX
        rw [hw.scatter_fx _ _ (mem_range.1 hk), ex]
      rw [e1, e2]
      rcases hw.mem_iff.1 hi with hm | hm
      · have hk := WS.idxOf_fr_lt hm
        have hik := WS.fr_idxOf hm
        set k := s.bounds.free.idxOf i
        have h4 := hsol k hk
        unfold freeMul rhs at h4
        rw [← hik]
        unfold dirY
        rw [hw.scatter_fr _ _ hk, h4]
        ring
      · have hk := WS.idxOf_fx_lt hm
        have hik := WS.fx_idxOf hm
        set k := s.bounds.fixed.idxOf i
        rw [← hik]
        unfold dirY
        rw [hw.scatter_fx _ _ hk, ey k hk]
        ring
    · rw [← WS.getStatus_of_lt (hw.fx_lt hk), ex]

end QPB
end QpOASES
